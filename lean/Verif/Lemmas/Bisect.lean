import Verif.Lemmas.Py

/-! # Bisection and sorting lemmas -/

namespace Dcf

variable {K : Type} [LinearOrder K]

theorem bisectLeftGo_spec {a : List K} (ha : a.Pairwise (· ≤ ·)) (x : K) :
    ∀ n lo hi, hi - lo ≤ n → lo ≤ hi → hi ≤ a.length →
      ∃ i, bisectLeftGo a x n lo hi = .ok i ∧ lo ≤ i ∧ i ≤ hi ∧
        (∀ j (h : j < a.length), lo ≤ j → j < i → a[j] < x) ∧
        (∀ j (h : j < a.length), i ≤ j → j < hi → x ≤ a[j]) := by
  intro n
  induction n with
  | zero =>
    intro lo hi h1 h2 _
    exact ⟨lo, rfl, le_rfl, h2, fun j _ h3 h4 => absurd h4 (by omega), fun j _ h3 h4 => by omega⟩
  | succ n ih =>
    intro lo hi h1 h2 h3
    by_cases hlt : lo < hi
    · have hm : (lo + hi) / 2 < a.length := by omega
      have hget : a[(lo + hi) / 2]? = some a[(lo + hi) / 2] := List.getElem?_eq_getElem hm
      by_cases hy : a[(lo + hi) / 2] < x
      · obtain ⟨i, e, h4, h5, h6, h7⟩ := ih ((lo + hi) / 2 + 1) hi (by omega) (by omega) h3
        refine ⟨i, ?_, by omega, h5, ?_, h7⟩
        · simp only [bisectLeftGo, hlt, if_true, hget, hy]; exact e
        · intro j hj hlj hji
          rcases lt_or_ge j ((lo + hi) / 2 + 1) with h | h
          · rcases eq_or_lt_of_le (Nat.lt_succ_iff.1 h) with h' | h'
            · subst h'; exact hy
            · exact lt_of_le_of_lt (List.pairwise_iff_getElem.1 ha j _ hj hm h') hy
          · exact h6 j hj h hji
      · obtain ⟨i, e, h4, h5, h6, h7⟩ := ih lo ((lo + hi) / 2) (by omega) (by omega) (by omega)
        refine ⟨i, ?_, h4, by omega, h6, ?_⟩
        · simp only [bisectLeftGo, hlt, if_true, hget, hy, if_false]; exact e
        · intro j hj hij hjh
          rcases lt_or_ge j ((lo + hi) / 2) with h | h
          · exact h7 j hj hij h
          · rcases eq_or_lt_of_le h with h' | h'
            · have : a[j] = a[(lo + hi) / 2] := by congr 1; exact h'.symm
              rw [this]; exact not_lt.1 hy
            · exact (not_lt.1 hy).trans (List.pairwise_iff_getElem.1 ha _ _ hm hj h')
    · refine ⟨lo, by simp [bisectLeftGo, hlt], le_rfl, h2, fun j _ _ h4 => absurd h4 (by omega),
        fun j _ _ h4 => by omega⟩

theorem bisectLeft_spec {a : List K} (ha : a.Pairwise (· ≤ ·)) (x : K) {lo hi : ℕ} (h : lo ≤ hi)
    (hhi : hi ≤ a.length) :
    ∃ i, bisectLeft a x lo hi = .ok i ∧ lo ≤ i ∧ i ≤ hi ∧
      (∀ j (h : j < a.length), lo ≤ j → j < i → a[j] < x) ∧
      (∀ j (h : j < a.length), i ≤ j → j < hi → x ≤ a[j]) :=
  bisectLeftGo_spec ha x (hi - lo) lo hi le_rfl h hhi

theorem bisectRightGo_spec {a : List K} (ha : a.Pairwise (· ≤ ·)) (x : K) :
    ∀ n lo hi, hi - lo ≤ n → lo ≤ hi → hi ≤ a.length →
      ∃ i, bisectRightGo a x n lo hi = .ok i ∧ lo ≤ i ∧ i ≤ hi ∧
        (∀ j (h : j < a.length), lo ≤ j → j < i → a[j] ≤ x) ∧
        (∀ j (h : j < a.length), i ≤ j → j < hi → x < a[j]) := by
  intro n
  induction n with
  | zero =>
    intro lo hi h1 h2 _
    exact ⟨lo, rfl, le_rfl, h2, fun j _ h3 h4 => absurd h4 (by omega), fun j _ h3 h4 => by omega⟩
  | succ n ih =>
    intro lo hi h1 h2 h3
    by_cases hlt : lo < hi
    · have hm : (lo + hi) / 2 < a.length := by omega
      have hget : a[(lo + hi) / 2]? = some a[(lo + hi) / 2] := List.getElem?_eq_getElem hm
      by_cases hy : x < a[(lo + hi) / 2]
      · obtain ⟨i, e, h4, h5, h6, h7⟩ := ih lo ((lo + hi) / 2) (by omega) (by omega) (by omega)
        refine ⟨i, ?_, h4, by omega, h6, ?_⟩
        · simp only [bisectRightGo, hlt, if_true, hget, hy]; exact e
        · intro j hj hij hjh
          rcases lt_or_ge j ((lo + hi) / 2) with h | h
          · exact h7 j hj hij h
          · rcases eq_or_lt_of_le h with h' | h'
            · have : a[j] = a[(lo + hi) / 2] := by congr 1; exact h'.symm
              rw [this]; exact hy
            · exact hy.trans_le (List.pairwise_iff_getElem.1 ha _ _ hm hj h')
      · obtain ⟨i, e, h4, h5, h6, h7⟩ := ih ((lo + hi) / 2 + 1) hi (by omega) (by omega) h3
        refine ⟨i, ?_, by omega, h5, ?_, h7⟩
        · simp only [bisectRightGo, hlt, if_true, hget, hy, if_false]; exact e
        · intro j hj hlj hji
          rcases lt_or_ge j ((lo + hi) / 2 + 1) with h | h
          · rcases eq_or_lt_of_le (Nat.lt_succ_iff.1 h) with h' | h'
            · subst h'; exact not_lt.1 hy
            · exact le_trans (List.pairwise_iff_getElem.1 ha j _ hj hm h') (not_lt.1 hy)
          · exact h6 j hj h hji
    · refine ⟨lo, by simp [bisectRightGo, hlt], le_rfl, h2, fun j _ _ h4 => absurd h4 (by omega),
        fun j _ _ h4 => by omega⟩

theorem bisectRight_spec {a : List K} (ha : a.Pairwise (· ≤ ·)) (x : K) {lo hi : ℕ} (h : lo ≤ hi)
    (hhi : hi ≤ a.length) :
    ∃ i, bisectRight a x lo hi = .ok i ∧ lo ≤ i ∧ i ≤ hi ∧
      (∀ j (h : j < a.length), lo ≤ j → j < i → a[j] ≤ x) ∧
      (∀ j (h : j < a.length), i ≤ j → j < hi → x < a[j]) :=
  bisectRightGo_spec ha x (hi - lo) lo hi le_rfl h hhi

/-! ### Sorting pairs -/

instance : Std.Total (pairLe (K := K)) := ⟨fun p q => by
  unfold pairLe
  rcases lt_trichotomy p.1 q.1 with h | h | h
  · exact .inl (.inl h)
  · rcases le_total p.2 q.2 with h' | h'
    · exact .inl (.inr ⟨h, h'⟩)
    · exact .inr (.inr ⟨h.symm, h'⟩)
  · exact .inr (.inl h)⟩

instance : IsTrans (K × K) (pairLe (K := K)) := ⟨fun p q r h1 h2 => by
  unfold pairLe at *
  rcases h1 with h1 | ⟨h1, h1'⟩ <;> rcases h2 with h2 | ⟨h2, h2'⟩
  · exact .inl (h1.trans h2)
  · exact .inl (h1.trans_eq h2)
  · exact .inl (h1.trans_lt h2)
  · exact .inr ⟨h1.trans h2, h1'.trans h2'⟩⟩

instance : Std.Antisymm (pairLe (K := K)) := ⟨fun p q h1 h2 => by
  unfold pairLe at *
  rcases h1 with h1 | ⟨h1, h1'⟩ <;> rcases h2 with h2 | ⟨h2, h2'⟩
  · exact absurd h2 h1.not_gt
  · exact absurd h2 h1.ne'
  · exact absurd h1 h2.ne'
  · exact Prod.ext h1 (le_antisymm h1' h2')⟩

theorem sortPairs_perm (l : List (K × K)) : (sortPairs l).Perm l := List.perm_insertionSort _ _

theorem sortPairs_pairwise (l : List (K × K)) : (sortPairs l).Pairwise pairLe :=
  List.pairwise_insertionSort _ _

/-- The abscissae increase strictly. -/
def StrictX (l : List (K × K)) : Prop := l.Pairwise fun p q => p.1 < q.1

theorem sortPairs_strict {l : List (K × K)} (h : (l.map Prod.fst).Nodup) :
    StrictX (sortPairs l) := by
  have h1 := sortPairs_pairwise l
  have h2 : ((sortPairs l).map Prod.fst).Nodup := ((sortPairs_perm l).map _).nodup_iff.2 h
  rw [List.nodup_iff_pairwise_ne, List.pairwise_map] at h2
  refine (h1.and h2).imp ?_
  rintro p q ⟨h3 | h3, h4⟩
  · exact h3
  · exact absurd h3.1 h4

theorem sortPairs_congr {l l' : List (K × K)} (h : l.Perm l') : sortPairs l = sortPairs l' :=
  ((sortPairs_perm l).trans (h.trans (sortPairs_perm l').symm)).eq_of_pairwise'
    (sortPairs_pairwise l) (sortPairs_pairwise l')

theorem StrictX.pairLe {l : List (K × K)} (h : StrictX l) : l.Pairwise pairLe :=
  h.imp fun h => .inl h

theorem sortPairs_eq_self {l : List (K × K)} (h : StrictX l) : sortPairs l = l :=
  (sortPairs_perm l).eq_of_pairwise' (sortPairs_pairwise l) h.pairLe

theorem StrictX.nodup {l : List (K × K)} (h : StrictX l) : (l.map Prod.fst).Nodup := by
  rw [List.nodup_iff_pairwise_ne, List.pairwise_map]
  exact h.imp fun h => h.ne

theorem StrictX.sorted {l : List (K × K)} (h : StrictX l) :
    (l.map Prod.fst).Pairwise (· ≤ ·) := by
  rw [List.pairwise_map]
  exact h.imp fun h => h.le

theorem StrictX.lt {l : List (K × K)} (h : StrictX l) {i j : ℕ} (hj : j < l.length) (hij : i < j) :
    l[i].1 < l[j].1 := List.pairwise_iff_getElem.1 h i j _ hj hij

theorem sortedSet_mem {l : List K} {x : K} : x ∈ sortedSet l ↔ x ∈ l := by
  unfold sortedSet
  rw [(List.perm_insertionSort _ _).mem_iff, List.mem_dedup]

theorem sortedSet_strict (l : List K) : (sortedSet l).Pairwise (· < ·) := by
  have h1 : (sortedSet l).Pairwise (· ≤ ·) := List.pairwise_insertionSort _ _
  have h2 : (sortedSet l).Nodup := (List.perm_insertionSort _ _).nodup_iff.2 (List.nodup_dedup l)
  rw [List.nodup_iff_pairwise_ne] at h2
  exact (h1.and h2).imp fun ⟨h, h'⟩ => lt_of_le_of_ne h h'

end Dcf
