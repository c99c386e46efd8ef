import Verif.Props.Refine

/-! # Changing one point of a curve: C155 -/

set_option linter.unusedSectionVars false
set_option linter.unusedSimpArgs false
set_option linter.unusedVariables false

namespace Dcf

open Spec

/-- `z` is separated from `x` by one of the nodes, or is such a node. -/
def Spec.Beyond {D : Type} [LinearOrder D] (xs : List D) (x z : D) : Prop :=
  (∃ a ∈ xs, a < x ∧ z ≤ a) ∨ ∃ b ∈ xs, x < b ∧ b ≤ z

/-- The interpolations by neighbouring points everywhere: all single classes but the three that continue their first and
last slope, and the predefined schemes. -/
def Spec.Local : FuncSpec → Prop
  | .base k => k ≠ .linear ∧ k ≠ .loglinear ∧ k ≠ .loglinearrate
  | .scheme l m r _ => (l, m, r) ∈ [(Kind.constant, Kind.linear, Kind.constant), (.constant, .loglinear, .constant),
      (.logconstantrate, .loglinearrate, .logconstantrate), (.zero, .linear, .constant)]

/-- The grid points that count: for interpolated rates those other than the origin. -/
def Spec.gridOf {D : Type} [LinearOrder D] (s : FuncSpec) (o : D) (xs : List D) : List D :=
  let rate : Kind → Bool := fun k => k = .loglinearrate ∨ k = .logconstantrate
  match s with
  | .base k => if rate k then xs.filter (· ≠ o) else xs
  | .scheme l m r _ => if rate l || rate m || rate r then xs.filter (· ≠ o) else xs

/-- The points agree but for those at `x`. -/
def AgreeOff {D : Type} (P Q : List (D × ℝ)) (x : D) : Prop := ∀ p : D × ℝ, p.1 ≠ x → (p ∈ P ↔ p ∈ Q)

theorem AgreeOff.symm {D : Type} {P Q : List (D × ℝ)} {x : D} (h : AgreeOff P Q x) : AgreeOff Q P x := fun p hp => (h p hp).symm

theorem beyond_agree {D : Type} [LinearOrder D] {P Q : List (D × ℝ)} {x z : D} (h : AgreeOff P Q x) (hb : Beyond (P.map Prod.fst) x z) :
    (∃ a, a ∈ P ∧ a ∈ Q ∧ a.1 < x ∧ z ≤ a.1) ∨ ∃ b, b ∈ P ∧ b ∈ Q ∧ x < b.1 ∧ b.1 ≤ z := by
  rcases hb with ⟨_, ha, h1, h2⟩ | ⟨_, hb, h1, h2⟩
  · obtain ⟨a, ha', rfl⟩ := List.mem_map.1 ha
    exact .inl ⟨a, ha', (h a h1.ne).1 ha', h1, h2⟩
  · obtain ⟨b, hb', rfl⟩ := List.mem_map.1 hb
    exact .inr ⟨b, hb', (h b h1.ne').1 hb', h1, h2⟩

theorem Spec.Beyond.ne {D : Type} [LinearOrder D] {xs : List D} {x z : D} (h : Beyond xs x z) : z ≠ x := by
  rcases h with ⟨a, -, h1, h2⟩ | ⟨b, -, h1, h2⟩
  · exact (h2.trans_lt h1).ne
  · exact (h1.trans_le h2).ne'

/-! ### Steps -/

section Raw
variable {S T : List (ℝ × ℝ)} {x z : ℝ}

theorem isLeft_local (h : AgreeOff S T x) (hb : Beyond (S.map Prod.fst) x z) {y : ℝ} (hy : IsLeftValue S z y) : IsLeftValue T z y := by
  obtain ⟨p, hp, rfl, hl⟩ := hy
  rcases beyond_agree h hb with ⟨a, ha, ha', h1, h2⟩ | ⟨b, hb, hb', h1, h2⟩
  · rcases hl with ⟨h3, h4⟩ | ⟨h3, h4⟩
    · refine ⟨p, (h p ((h3.trans h2).trans_lt h1).ne).1 hp, rfl, .inl ⟨h3, fun q hq hqz => ?_⟩⟩
      exact h4 q ((h q ((hqz.trans h2).trans_lt h1).ne).2 hq) hqz
    · have hpa := h4 a ha
      refine ⟨p, (h p (hpa.trans_lt h1).ne).1 hp, rfl, .inr ⟨fun q hq => ?_, fun q hq => ?_⟩⟩
      · by_cases e : q.1 = x
        · rw [e]; exact h2.trans_lt h1
        · exact h3 q ((h q e).2 hq)
      · by_cases e : q.1 = x
        · rw [e]; exact (hpa.trans_lt h1).le
        · exact h4 q ((h q e).2 hq)
  · rcases hl with ⟨h3, h4⟩ | ⟨h3, h4⟩
    · have hbp := h4 b hb h2
      refine ⟨p, (h p (h1.trans_le hbp).ne').1 hp, rfl, .inl ⟨h3, fun q hq hqz => ?_⟩⟩
      by_cases e : q.1 = x
      · rw [e]; exact (h1.trans_le hbp).le
      · exact h4 q ((h q e).2 hq) hqz
    · exact absurd (h3 b hb) (not_lt.2 h2)

theorem isRight_local (h : AgreeOff S T x) (hb : Beyond (S.map Prod.fst) x z) {y : ℝ} (hy : IsRightValue S z y) : IsRightValue T z y := by
  obtain ⟨p, hp, rfl, hl⟩ := hy
  rcases beyond_agree h hb with ⟨a, ha, ha', h1, h2⟩ | ⟨b, hb, hb', h1, h2⟩
  · rcases hl with ⟨h3, h4⟩ | ⟨h3, h4⟩
    · have hpa := h4 a ha h2
      refine ⟨p, (h p (hpa.trans_lt h1).ne).1 hp, rfl, .inl ⟨h3, fun q hq hqz => ?_⟩⟩
      by_cases e : q.1 = x
      · rw [e]; exact (hpa.trans_lt h1).le
      · exact h4 q ((h q e).2 hq) hqz
    · exact absurd (h3 a ha) (not_lt.2 h2)
  · rcases hl with ⟨h3, h4⟩ | ⟨h3, h4⟩
    · refine ⟨p, (h p (h1.trans_le (h2.trans h3)).ne').1 hp, rfl, .inl ⟨h3, fun q hq hqz => ?_⟩⟩
      exact h4 q ((h q (h1.trans_le (h2.trans hqz)).ne').2 hq) hqz
    · have hbp := h4 b hb
      refine ⟨p, (h p (h1.trans_le hbp).ne').1 hp, rfl, .inr ⟨fun q hq => ?_, fun q hq => ?_⟩⟩
      · by_cases e : q.1 = x
        · rw [e]; exact h1.trans_le h2
        · exact h3 q ((h q e).2 hq)
      · by_cases e : q.1 = x
        · rw [e]; exact (h1.trans_le hbp).le
        · exact h4 q ((h q e).2 hq)

theorem isNearest_local (h : AgreeOff S T x) (hb : Beyond (S.map Prod.fst) x z) {y : ℝ} (hy : IsNearestValue S z y) : IsNearestValue T z y := by
  obtain ⟨p, hp, rfl, hl⟩ := hy
  have key : |p.1 - z| < |x - z| := by
    rcases beyond_agree h hb with ⟨a, ha, -, h1, h2⟩ | ⟨b, hb, -, h1, h2⟩
    · refine (hl a ha).1.trans_lt ?_
      rw [abs_of_nonneg (by linarith), abs_of_nonneg (by linarith)]
      linarith
    · refine (hl b hb).1.trans_lt ?_
      rw [abs_of_nonpos (by linarith), abs_of_nonpos (by linarith)]
      linarith
  have hpx : p.1 ≠ x := fun e => by rw [e] at key; exact lt_irrefl _ key
  refine ⟨p, (h p hpx).1 hp, rfl, fun q hq => ?_⟩
  by_cases e : q.1 = x
  · rw [e]; exact ⟨key.le, fun h => absurd h key.ne⟩
  · exact hl q ((h q e).2 hq)

theorem nearestCall_sorted (hn : (S.map Prod.fst).Nodup) (hne : S ≠ []) (x : ℝ) :
    ∃ y, nearestCall (ptsOf (sortPairs S)) x = .ok y ∧ IsNearestValue S x y := by
  obtain ⟨y, h1, h2⟩ := nearestCall_spec (sortPairs_strict hn) (sortPairs_ne_nil hne) x
  exact ⟨y, h1, h2.perm (sortPairs_perm S)⟩

theorem beyond_ne_nil (h : AgreeOff S T x) (hb : Beyond (S.map Prod.fst) x z) : S ≠ [] ∧ T ≠ [] := by
  rcases beyond_agree h hb with ⟨a, ha, ha', -⟩ | ⟨b, hb, hb', -⟩
  · exact ⟨List.ne_nil_of_mem ha, List.ne_nil_of_mem ha'⟩
  · exact ⟨List.ne_nil_of_mem hb, List.ne_nil_of_mem hb'⟩

theorem left_local (hS : (S.map Prod.fst).Nodup) (hT : (T.map Prod.fst).Nodup) (h : AgreeOff S T x)
    (hb : Beyond (S.map Prod.fst) x z) : leftCall (ptsOf (sortPairs T)) z = leftCall (ptsOf (sortPairs S)) z := by
  obtain ⟨h1, h2⟩ := beyond_ne_nil h hb
  obtain ⟨y, e1, hy⟩ := leftCall_sorted hS h1 z
  obtain ⟨y', e2, hy'⟩ := leftCall_sorted hT h2 z
  rw [e1, e2, (C12_unique T hT z y y').1 (isLeft_local h hb hy) hy']

theorem right_local (hS : (S.map Prod.fst).Nodup) (hT : (T.map Prod.fst).Nodup) (h : AgreeOff S T x)
    (hb : Beyond (S.map Prod.fst) x z) : rightCall (ptsOf (sortPairs T)) z = rightCall (ptsOf (sortPairs S)) z := by
  obtain ⟨h1, h2⟩ := beyond_ne_nil h hb
  obtain ⟨y, e1, hy⟩ := rightCall_sorted hS h1 z
  obtain ⟨y', e2, hy'⟩ := rightCall_sorted hT h2 z
  rw [e1, e2, (C12_unique T hT z y y').2.1 (isRight_local h hb hy) hy']

theorem nearest_local (hS : (S.map Prod.fst).Nodup) (hT : (T.map Prod.fst).Nodup) (h : AgreeOff S T x)
    (hb : Beyond (S.map Prod.fst) x z) : nearestCall (ptsOf (sortPairs T)) z = nearestCall (ptsOf (sortPairs S)) z := by
  obtain ⟨h1, h2⟩ := beyond_ne_nil h hb
  obtain ⟨y, e1, hy⟩ := nearestCall_sorted hS h1 z
  obtain ⟨y', e2, hy'⟩ := nearestCall_sorted hT h2 z
  rw [e1, e2, (C12_unique T hT z y y').2.2 (isNearest_local h hb hy) hy']

/-! ### Lines -/

theorem flin_take {l1 l2 : List (ℝ × ℝ)} {a : ℝ × ℝ} {x : ℝ} (hx : x ≤ a.1) : flin (l1 ++ a :: l2) x = flin (l1 ++ [a]) x := by
  induction l1 with
  | nil => rw [List.nil_append, List.nil_append, flin_le_first hx, flin_le_first hx]
  | cons c l1 ih =>
    cases l1 with
    | nil =>
      simp only [List.cons_append, List.nil_append, flin]
      split_ifs
      · rfl
      · rfl
    | cons q l1 =>
      simp only [List.cons_append, flin] at ih ⊢
      rw [ih]

theorem flin_part {l : List (ℝ × ℝ)} (hl : StrictX l) {a : ℝ × ℝ} (ha : a ∈ l) {x : ℝ} :
    (x ≤ a.1 → flin l x = flin (l.filter fun p => p.1 ≤ a.1) x) ∧ (a.1 ≤ x → flin l x = flin (l.filter fun p => a.1 ≤ p.1) x) := by
  obtain ⟨l1, l2, rfl⟩ := List.append_of_mem ha
  have h1 : ∀ p ∈ l1, p.1 < a.1 := fun p hp => (List.pairwise_append.1 hl).2.2 p hp a (by simp)
  have h2 : ∀ p ∈ l2, a.1 < p.1 := fun p hp => (List.pairwise_cons.1 (List.pairwise_append.1 hl).2.1).1 p hp
  constructor
  · intro hx
    have e1 : l1.filter (fun p => p.1 ≤ a.1) = l1 := List.filter_eq_self.2 fun p hp => by simpa using (h1 p hp).le
    have e2 : l2.filter (fun p => p.1 ≤ a.1) = [] := List.filter_eq_nil_iff.2 fun p hp => by simpa using h2 p hp
    have e : (l1 ++ a :: l2).filter (fun p => p.1 ≤ a.1) = l1 ++ [a] := by
      rw [List.filter_append, List.filter_cons_of_pos (by simp), e1, e2]
    rw [e, flin_take hx]
  · intro hx
    have e1 : l1.filter (fun p => a.1 ≤ p.1) = [] := List.filter_eq_nil_iff.2 fun p hp => by simpa using h1 p hp
    have e2 : l2.filter (fun p => a.1 ≤ p.1) = l2 := List.filter_eq_self.2 fun p hp => by simpa using (h2 p hp).le
    have e : (l1 ++ a :: l2).filter (fun p => a.1 ≤ p.1) = a :: l2 := by
      rw [List.filter_append, List.filter_cons_of_pos (by simp), e1, e2, List.nil_append]
    rw [e, flin_drop hl hx]

theorem filter_strict_eq {A B : List (ℝ × ℝ)} (hA : StrictX A) (hB : StrictX B) (q : ℝ → Prop) [DecidablePred q]
    (h : ∀ p : ℝ × ℝ, q p.1 → (p ∈ A ↔ p ∈ B)) : (A.filter fun p => q p.1) = B.filter fun p => q p.1 := by
  have hA' : StrictX (A.filter fun p => q p.1) := List.Pairwise.filter _ hA
  have hB' : StrictX (B.filter fun p => q p.1) := List.Pairwise.filter _ hB
  have hp : (A.filter fun p => q p.1).Perm (B.filter fun p => q p.1) := by
    refine (List.perm_ext_iff_of_nodup (hA'.nodup.of_map _) (hB'.nodup.of_map _)).2 fun p => ?_
    simp only [List.mem_filter, decide_eq_true_eq]
    constructor
    · rintro ⟨h1, h2⟩; exact ⟨(h p h2).1 h1, h2⟩
    · rintro ⟨h1, h2⟩; exact ⟨(h p h2).2 h1, h2⟩
  rw [← sortPairs_eq_self hA', ← sortPairs_eq_self hB']
  exact sortPairs_congr hp

theorem flin_local {A B : List (ℝ × ℝ)} (hA : StrictX A) (hB : StrictX B) (h : AgreeOff A B x)
    (hb : Beyond (A.map Prod.fst) x z) : flin B z = flin A z := by
  rcases beyond_agree h hb with ⟨a, ha, ha', h1, h2⟩ | ⟨b, hb, hb', h1, h2⟩
  · rw [(flin_part hA ha).1 h2, (flin_part hB ha').1 h2]
    exact congrArg (flin · z) (filter_strict_eq hB hA (· ≤ a.1) fun p hp => (h p (hp.trans_lt h1).ne).symm)
  · rw [(flin_part hA hb).2 h2, (flin_part hB hb').2 h2]
    exact congrArg (flin · z) (filter_strict_eq hB hA (b.1 ≤ ·) fun p hp => (h p (h1.trans_le hp).ne').symm)

theorem agree_sort (h : AgreeOff S T x) : AgreeOff (sortPairs S) (sortPairs T) x := fun p hp => by
  rw [(sortPairs_perm S).mem_iff, (sortPairs_perm T).mem_iff, h p hp]

theorem beyond_perm {xs ys : List ℝ} (h : xs.Perm ys) (hb : Beyond xs x z) : Beyond ys x z := by
  simpa only [Beyond, h.mem_iff] using hb

theorem flin_sorted_local (hS : (S.map Prod.fst).Nodup) (hT : (T.map Prod.fst).Nodup) (h : AgreeOff S T x)
    (hb : Beyond (S.map Prod.fst) x z) : flin (sortPairs T) z = flin (sortPairs S) z :=
  flin_local (sortPairs_strict hS) (sortPairs_strict hT) (agree_sort h) (beyond_perm ((sortPairs_perm S).map _).symm hb)

end Raw

/-! ### Classes and schemes -/

theorem agree_rate {P Q : List (ℝ × ℝ)} {x : ℝ} (h : AgreeOff P Q x) (f : ℝ → ℝ → ℝ) :
    AgreeOff ((P.filter fun p => p.1 ≠ 0).map fun p => (p.1, f p.1 p.2)) ((Q.filter fun p => p.1 ≠ 0).map fun p => (p.1, f p.1 p.2)) x := by
  have key : ∀ {P Q : List (ℝ × ℝ)}, AgreeOff P Q x → ∀ p : ℝ × ℝ, p.1 ≠ x →
      p ∈ ((P.filter fun p => p.1 ≠ 0).map fun p => (p.1, f p.1 p.2)) → p ∈ ((Q.filter fun p => p.1 ≠ 0).map fun p => (p.1, f p.1 p.2)) := by
    intro P Q h p hp hm
    obtain ⟨q, hq, rfl⟩ := List.mem_map.1 hm
    obtain ⟨hq, h0⟩ := List.mem_filter.1 hq
    exact List.mem_map.2 ⟨q, List.mem_filter.2 ⟨(h q hp).1 hq, h0⟩, rfl⟩
  exact fun p hp => ⟨key h p hp, key h.symm p hp⟩

theorem beyond_rate {P : List (ℝ × ℝ)} {x z : ℝ} (hb : Beyond ((P.map Prod.fst).filter (· ≠ 0)) x z) (f : ℝ → ℝ → ℝ) :
    Beyond (((P.filter fun p => p.1 ≠ 0).map fun p => (p.1, f p.1 p.2)).map Prod.fst) x z := by
  have e : ((P.filter fun p => p.1 ≠ 0).map fun p => (p.1, f p.1 p.2)).map Prod.fst = (P.map Prod.fst).filter (· ≠ 0) := by
    rw [map_filter_fst, List.map_map]; rfl
  rw [e]; exact hb

theorem agree_log {P Q : List (ℝ × ℝ)} {x : ℝ} (h : AgreeOff P Q x) : AgreeOff (logPts P) (logPts Q) x := by
  have key : ∀ {P Q : List (ℝ × ℝ)}, AgreeOff P Q x → ∀ p : ℝ × ℝ, p.1 ≠ x → p ∈ logPts P → p ∈ logPts Q := by
    intro P Q h p hp hm
    obtain ⟨q, hq, rfl⟩ := List.mem_map.1 hm
    exact List.mem_map.2 ⟨q, (h q hp).1 hq, rfl⟩
  exact fun p hp => ⟨key h p hp, key h.symm p hp⟩

theorem find_local {P Q : List (ℝ × ℝ)} (hP : (P.map Prod.fst).Nodup) (hQ : (Q.map Prod.fst).Nodup) {x : ℝ} (hx : x ≠ 0)
    (h : AgreeOff P Q x) : (Q.find? fun p => p.1 = 0).map Prod.snd = (P.find? fun p => p.1 = 0).map Prod.snd := by
  by_cases h0 : ∃ p ∈ P, p.1 = 0
  · obtain ⟨⟨a, y⟩, hp, rfl⟩ := h0
    rw [find_zero_eq hP hp, find_zero_eq hQ ((h _ (Ne.symm hx)).1 hp)]
  · have h1 : ∀ p ∈ P, p.1 ≠ 0 := fun p hp e => h0 ⟨p, hp, e⟩
    rw [find_zero_none h1, find_zero_none fun q hq e => h1 q ((h q (by rw [e]; exact Ne.symm hx)).2 hq) e]

theorem default_local {P Q : List (ℝ × ℝ)} (hP : (P.map Prod.fst).Nodup) (hQ : (Q.map Prod.fst).Nodup) {x z : ℝ}
    (h : AgreeOff P Q x) (hz : z ≠ x) (k : Kind) (hk : k = .no ∨ k = .zero) : (interpOf k Q).call z = (interpOf k P).call z := by
  have hl : k.isLog → False := by rcases hk with rfl | rfl <;> simp [Kind.isLog]
  by_cases hm : ∃ y, (z, y) ∈ P
  · obtain ⟨y, hy⟩ := hm
    rw [show (interpOf k P).call z = .ok (some y) from Interp_node k hP (fun h => (hl h).elim) hy,
      show (interpOf k Q).call z = .ok (some y) from Interp_node k hQ (fun h => (hl h).elim) ((h (z, y) hz).1 hy)]
  · have a : ∀ L : List (ℝ × ℝ), (¬ ∃ y, (z, y) ∈ L) → z ∉ (ptsOf (sortPairs L)).xs := fun L hn hm => by
      obtain ⟨⟨_, y⟩, hq, rfl⟩ := List.mem_map.1 (((sortPairs_perm L).map Prod.fst).mem_iff.1 hm)
      exact hn ⟨y, hq⟩
    have hm' : ¬ ∃ y, (z, y) ∈ Q := fun ⟨y, hy⟩ => hm ⟨y, (h (z, y) hz).2 hy⟩
    rcases hk with rfl | rfl <;>
    · exact (if_neg (a Q hm')).trans (if_neg (a P hm)).symm

theorem funcOf_local {s : FuncSpec} (hs : Local s) {P Q : List (ℝ × ℝ)} (hP : (P.map Prod.fst).Nodup)
    (hQ : (Q.map Prod.fst).Nodup) (hpos : s.isLog → ∀ p ∈ P, 0 < p.2) (hpos' : s.isLog → ∀ p ∈ Q, 0 < p.2) {x z : ℝ}
    (h : AgreeOff P Q x) (hb : Beyond (gridOf s 0 (P.map Prod.fst)) x z) : (funcOf s Q).call z = (funcOf s P).call z := by
  have hzx : z ≠ x := hb.ne
  cases s with
  | base k =>
    show (interpOf k Q).call z = (interpOf k P).call z
    simp only [Local] at hs
    cases k with
    | linear => exact absurd rfl hs.1
    | loglinear => exact absurd rfl hs.2.1
    | loglinearrate => exact absurd rfl hs.2.2
    | no => exact default_local hP hQ h hzx _ (.inl rfl)
    | zero => exact default_local hP hQ h hzx _ (.inr rfl)
    | left => exact congrArg (fun r => some <$> r) (left_local hP hQ h hb)
    | constant => exact congrArg (fun r => some <$> r) (left_local hP hQ h hb)
    | right => exact congrArg (fun r => some <$> r) (right_local hP hQ h hb)
    | nearest => exact congrArg (fun r => some <$> r) (nearest_local hP hQ h hb)
    | logconstantrate =>
      have hb' : Beyond ((P.map Prod.fst).filter (· ≠ 0)) x z := hb
      by_cases hz : z = 0
      · subst hz
        simp only [interpOf, Interp.call, storedZero, Kind.isRate, if_true, find_local hP hQ hzx.symm h]
      · simp only [interpOf, Interp.call, hz, if_false]
        exact congrArg _ (left_local (storedPts_nodup .logconstantrate hP) (storedPts_nodup .logconstantrate hQ)
          (agree_rate h fun a y => -Real.log y / a) (beyond_rate hb' fun a y => -Real.log y / a))
  | scheme l m r str =>
    simp only [Local, List.mem_cons, Prod.mk.injEq, List.not_mem_nil, or_false] at hs
    rcases hs with ⟨rfl, rfl, rfl⟩ | ⟨rfl, rfl, rfl⟩ | ⟨rfl, rfl, rfl⟩ | ⟨rfl, rfl, rfl⟩
    · have hb' : Beyond (P.map Prod.fst) x z := hb
      obtain ⟨h1, h2⟩ := beyond_ne_nil h hb'
      show (funcOf linearScheme Q).call z = (funcOf linearScheme P).call z
      rw [funcOf_linear_call hP h1, funcOf_linear_call hQ h2, flin_sorted_local hP hQ h hb']
    · have hb' : Beyond (P.map Prod.fst) x z := hb
      obtain ⟨h1, h2⟩ := beyond_ne_nil h hb'
      show (funcOf logLinearScheme Q).call z = (funcOf logLinearScheme P).call z
      rw [funcOf_loglinear_call hP h1 (hpos rfl), funcOf_loglinear_call hQ h2 (hpos' rfl), ← sort_logPts hP, ← sort_logPts hQ,
        flin_sorted_local (by rw [logPts_fst]; exact hP) (by rw [logPts_fst]; exact hQ) (agree_log h) (by rw [logPts_fst]; exact hb')]
    · have hb' : Beyond ((P.map Prod.fst).filter (· ≠ 0)) x z := hb
      have hr := agree_rate h fun a y => -Real.log y / a
      have hbr := beyond_rate hb' fun a y => -Real.log y / a
      have hnz : ∀ {L : List (ℝ × ℝ)}, ratePts L ≠ [] → ∃ p ∈ L, p.1 ≠ 0 := by
        intro L hL
        obtain ⟨q, hq⟩ := List.exists_mem_of_ne_nil _ hL
        obtain ⟨p, hp, rfl⟩ := List.mem_map.1 hq
        obtain ⟨hp, h0⟩ := List.mem_filter.1 hp
        exact ⟨p, hp, by simpa using h0⟩
      obtain ⟨h1, h2⟩ := beyond_ne_nil hr hbr
      show (funcOf logLinearRateScheme Q).call z = (funcOf logLinearRateScheme P).call z
      by_cases hz : z = 0
      · subst hz
        rw [funcOf_rate_zero hP (hnz h1), funcOf_rate_zero hQ (hnz h2), find_local hP hQ hzx.symm h]
      · rw [funcOf_rate_call hP (hnz h1) hz, funcOf_rate_call hQ (hnz h2) hz]
        rw [flin_sorted_local (ratePts_nodup hP) (ratePts_nodup hQ) hr hbr]
    · have hb' : Beyond (P.map Prod.fst) x z := hb
      obtain ⟨h1, h2⟩ := beyond_ne_nil h hb'
      obtain ⟨f, g, hf, hg, e⟩ := C15_zero_linear P hP h1
      obtain ⟨f', g', hf', hg', e'⟩ := C15_zero_linear Q hQ h2
      rw [Func_new_eq _ hP (by simp [zeroLinearScheme, FuncSpec.isLog, Kind.isLog])] at hf
      rw [Func_new_eq _ hQ (by simp [zeroLinearScheme, FuncSpec.isLog, Kind.isLog])] at hf'
      rw [Func_new_eq _ hP (by simp [linearScheme, FuncSpec.isLog, Kind.isLog])] at hg
      rw [Func_new_eq _ hQ (by simp [linearScheme, FuncSpec.isLog, Kind.isLog])] at hg'
      obtain rfl := Except.ok.inj hf
      obtain rfl := Except.ok.inj hf'
      obtain rfl := Except.ok.inj hg
      obtain rfl := Except.ok.inj hg'
      show (funcOf zeroLinearScheme Q).call z = (funcOf zeroLinearScheme P).call z
      have hiff : (∃ p ∈ P, p.1 ≤ z) ↔ ∃ p ∈ Q, p.1 ≤ z := by
        have key : ∀ {P Q : List (ℝ × ℝ)}, AgreeOff P Q x → (∃ b ∈ Q, x < b.1 ∧ b.1 ≤ z) ∨ z < x → (∃ p ∈ P, p.1 ≤ z) → ∃ p ∈ Q, p.1 ≤ z := by
          intro P Q h hc ⟨p, hp, hpz⟩
          rcases hc with ⟨b, hb, -, hbz⟩ | hlt
          · exact ⟨b, hb, hbz⟩
          · exact ⟨p, (h p (hpz.trans_lt hlt).ne).1 hp, hpz⟩
        rcases beyond_agree h hb' with ⟨a, ha, ha', h3, h4⟩ | ⟨b, hb, hb', h3, h4⟩
        · exact ⟨key h (.inr (h4.trans_lt h3)), key h.symm (.inr (h4.trans_lt h3))⟩
        · exact ⟨key h (.inl ⟨b, hb', h3, h4⟩), key h.symm (.inl ⟨b, hb, h3, h4⟩)⟩
      by_cases hz : ∃ p ∈ P, p.1 ≤ z
      · rw [(e z).2 hz, (e' z).2 (hiff.1 hz), funcOf_linear_call hP h1, funcOf_linear_call hQ h2, flin_sorted_local hP hQ h hb']
      · have hz' := fun h => hz (hiff.2 h)
        push Not at hz
        replace hz' : ∀ p ∈ Q, z < p.1 := fun p hp => not_le.1 fun h => hz' ⟨p, hp, h⟩
        rw [(e z).1 hz, (e' z).1 hz']

theorem kind_isRate (k : Kind) : k.isRate = decide (k = .loglinearrate ∨ k = .logconstantrate) := by cases k <;> rfl

theorem gridOf_eq {D : Type} [LinearOrder D] (s : FuncSpec) (o : D) (xs : List D) :
    gridOf s o xs = if s.isRate then xs.filter (· ≠ o) else xs := by
  cases s with
  | base k => simp only [gridOf, FuncSpec.isRate, kind_isRate]
  | scheme l m r _ => simp only [gridOf, FuncSpec.isRate, kind_isRate]

/-- C155 (functions): the points of two functions agree but at one place. Beyond a neighbouring point their values agree. -/
theorem C155_function {s : FuncSpec} (hs : Local s) {P Q : List (ℝ × ℝ)} (hP : (P.map Prod.fst).Nodup)
    (hQ : (Q.map Prod.fst).Nodup) (hpos : s.isLog → ∀ p ∈ P, 0 < p.2) (hpos' : s.isLog → ∀ p ∈ Q, 0 < p.2) {x : ℝ}
    (h : ∀ p : ℝ × ℝ, p.1 ≠ x → (p ∈ P ↔ p ∈ Q)) :
    ∃ f g, Func.new s (P.map Prod.fst) (P.map Prod.snd) = .ok f ∧ Func.new s (Q.map Prod.fst) (Q.map Prod.snd) = .ok g ∧
      ∀ z, Beyond (gridOf s 0 (P.map Prod.fst)) x z → g.call z = f.call z :=
  ⟨_, _, Func_new_eq s hP hpos, Func_new_eq s hQ hpos', fun _ hb => funcOf_local hs hP hQ hpos hpos' h hb⟩

theorem agree_put {D : Type} [LinearOrder D] (pts : List (D × ℝ)) (x : D) (v : ℝ) : AgreeOff pts (putPt pts x v) x := fun p hp => by
  rw [putPt_mem]
  constructor
  · intro h; exact .inr ⟨h, hp⟩
  · rintro (rfl | ⟨h, -⟩)
    · exact absurd rfl hp
    · exact h

theorem put_pos {D : Type} [LinearOrder D] {pts : List (D × ℝ)} {x : D} {v : ℝ} {l : Bool} (hpos : l → ∀ p ∈ pts, 0 < p.2) (hv : l → 0 < v) :
    l → ∀ p ∈ putPt pts x v, 0 < p.2 := fun h p hp => by
  rcases putPt_mem.1 hp with rfl | ⟨hp, -⟩
  · exact hv h
  · exact hpos h p hp

/-- C155 (curves): assigning a value at one point changes a curve between the neighbouring points only. -/
theorem C155_curve {i : Option FuncSpec} (hs : Local (i.getD linearScheme)) {P : List (ℝ × ℝ)} (hP : (P.map Prod.fst).Nodup)
    (hpos : (i.getD linearScheme).isLog → ∀ p ∈ P, 0 < p.2) {c : Curve}
    (hc : Curve.new (P.map Prod.fst) (P.map Prod.snd) i = .ok c) {x v : ℝ} (hv : (i.getD linearScheme).isLog → 0 < v)
    (h0 : (i.getD linearScheme).isRate → ∃ p ∈ P, p.1 ≠ 0) :
    ∃ c', c.setitem x v = .ok c' ∧ ∀ z, Beyond (gridOf (i.getD linearScheme) 0 (P.map Prod.fst)) x z → c'.call z = c.call z := by
  rw [Curve_new_eq i hP hpos] at hc
  obtain rfl := Except.ok.inj hc
  refine ⟨_, Curve_setitem_eq i hP hpos (fun h => h0 ?_) x v hv, fun z hb => ?_⟩
  · revert h
    cases i.getD linearScheme with
    | base k => intro h; cases h
    | scheme l m r _ => simp [FuncSpec.isRate, FuncSpec.needsNonzero]; tauto
  · exact funcOf_local hs hP (putPt_nodup hP x v) hpos (put_pos hpos hv) (agree_put P x v) hb

section Date
variable {D P : Type} [LinearOrder D] {cal : Cal D P}

theorem beyond_time {τ : D → D → ℝ} (hτ : GoodDayCount τ) (s : FuncSpec) (o : D) {pts : List (D × ℝ)} {x z : D}
    (hb : Beyond (gridOf s o (pts.map Prod.fst)) x z) :
    Beyond (gridOf s 0 ((timePts τ o pts).map Prod.fst)) (τ o x) (τ o z) := by
  have hle : ∀ a b, a ≤ b → τ o a ≤ τ o b := fun a b h => by
    rcases h.lt_or_eq with h | rfl
    · exact ((hτ.lt_iff o _ _).2 h).le
    · exact le_rfl
  have hm : ∀ a, a ∈ gridOf s o (pts.map Prod.fst) → τ o a ∈ gridOf s 0 ((timePts τ o pts).map Prod.fst) := by
    intro a ha
    rw [gridOf_eq] at ha ⊢
    rw [timePts_fst]
    split_ifs at ha ⊢
    · obtain ⟨h1, h2⟩ := List.mem_filter.1 ha
      exact List.mem_filter.2 ⟨List.mem_map.2 ⟨a, h1, rfl⟩, by simpa using hτ.ne_zero (Ne.symm (by simpa using h2))⟩
    · exact List.mem_map.2 ⟨a, ha, rfl⟩
  rcases hb with ⟨a, ha, h1, h2⟩ | ⟨b, hb, h1, h2⟩
  · exact .inl ⟨_, hm a ha, (hτ.lt_iff o _ _).2 h1, hle _ _ h2⟩
  · exact .inr ⟨_, hm b hb, (hτ.lt_iff o _ _).2 h1, hle _ _ h2⟩

theorem dateCurveOf_local {i : Option FuncSpec} {dflt : FuncSpec} (hs : Local (i.getD dflt)) {o? : Option D} {o : D}
    {dc : DayCountArg D} (hd : dc.Usable) (hτ : GoodDayCount (dc.fn cal)) {pts : List (D × ℝ)} (hn : (pts.map Prod.fst).Nodup)
    (ho : o?.or (pts.map Prod.fst).head? = some o) (hpos : (i.getD dflt).isLog → ∀ p ∈ pts, 0 < p.2)
    (h0 : (i.getD dflt).isRate → ∃ p ∈ pts, p.1 ≠ o) {x : D} {v : ℝ} (hv : (i.getD dflt).isLog → 0 < v) :
    (dateCurveOf (dc.fn cal) o o? dc i dflt pts).setitem cal x v = .ok (dateCurveOf (dc.fn cal) o o? dc i dflt (putPt pts x v)) ∧
      ∀ z, Beyond (gridOf (i.getD dflt) o (pts.map Prod.fst)) x z →
        (dateCurveOf (dc.fn cal) o o? dc i dflt (putPt pts x v)).call cal z =
          (dateCurveOf (dc.fn cal) o o? dc i dflt pts).call cal z := by
  have hposT : ∀ {pts : List (D × ℝ)}, ((i.getD dflt).isLog → ∀ p ∈ pts, 0 < p.2) →
      (i.getD dflt).isLog → ∀ p ∈ timePts (dc.fn cal) o pts, 0 < p.2 := fun hpos h p hp => by
    obtain ⟨q, hq, rfl⟩ := List.mem_map.1 hp
    exact hpos h q hq
  have hpos' := put_pos (x := x) hpos hv
  have hnz : (i.getD dflt).needsNonzero → (i.getD dflt).isRate := by
    cases i.getD dflt with
    | base k => intro h; cases h
    | scheme l m r _ => simp [FuncSpec.isRate, FuncSpec.needsNonzero]; tauto
  refine ⟨?_, fun z hb => ?_⟩
  · set c := dateCurveOf (dc.fn cal) o o? dc i dflt pts with hc
    have hnode : ∀ p ∈ pts, c.num cal p.1 = .ok p.2 := fun p hp => by
      have : c.call cal p.1 = .ok (some p.2) := by
        rw [hc, dateCurveOf_call cal ho hd]
        refine funcOf_node _ (timePts_nodup hτ o hn) (hposT hpos) (fun h => ?_) (List.mem_map.2 ⟨p, hp, rfl⟩)
        obtain ⟨q, hq, h1⟩ := h0 (hnz h)
        exact ⟨_, List.mem_map.2 ⟨q, hq, rfl⟩, hτ.ne_zero (Ne.symm h1)⟩
      simp [DateCurve.num, this, pyNum]
    have hvals : pyMap (c.num cal) c.domain = .ok (pts.map Prod.snd) := by
      have : ∀ l : List (D × ℝ), (∀ p ∈ l, p ∈ pts) → pyMap (c.num cal) (l.map Prod.fst) = .ok (l.map Prod.snd) := by
        intro l
        induction l with
        | nil => intro _; rfl
        | cons p l ih =>
          intro h
          rw [List.map_cons, pyMap_cons, hnode p (h p (by simp)), Py.ok_bind, ih fun q hq => h q (by simp [hq])]; rfl
      exact this pts fun p hp => hp
    unfold DateCurve.setitem DateCurve.setitemWith
    rw [hvals, Py.ok_bind]
    simp only [show c.domain = pts.map Prod.fst from rfl, setPoint_eq hn]
    rw [update_eq cal (c := c) (o := o) ho hd (timePts_nodup hτ o (putPt_nodup hn x v)) hpos']
    rfl
  · rw [dateCurveOf_call cal ho hd, dateCurveOf_call cal (putPt_head ho x v) hd, timePts_put hτ]
    refine funcOf_local hs (timePts_nodup hτ o hn) (putPt_nodup (timePts_nodup hτ o hn) _ _) (hposT hpos) ?_ (agree_put _ _ _)
      (beyond_time hτ _ o hb)
    rw [← timePts_put hτ]
    exact hposT hpos'

/-- C155 (date curves): the same between dates. -/
theorem C155_date_curve {i : Option FuncSpec} {dflt : FuncSpec} (hs : Local (i.getD dflt)) {o? : Option D} {o : D}
    {dc : DayCountArg D} (hd : dc.Usable) (hτ : GoodDayCount (dc.fn cal)) {pts : List (D × ℝ)} (hn : (pts.map Prod.fst).Nodup)
    (ho : o?.or (pts.map Prod.fst).head? = some o) (hpos : (i.getD dflt).isLog → ∀ p ∈ pts, 0 < p.2)
    (h0 : (i.getD dflt).isRate → ∃ p ∈ pts, p.1 ≠ o) {c : DateCurve D}
    (hc : DateCurve.new cal (pts.map Prod.fst) (pts.map Prod.snd) i o? dc dflt = .ok c) {x : D} {v : ℝ}
    (hv : (i.getD dflt).isLog → 0 < v) :
    ∃ c', c.setitem cal x v = .ok c' ∧ ∀ z, Beyond (gridOf (i.getD dflt) o (pts.map Prod.fst)) x z → c'.call cal z = c.call cal z := by
  rw [DateCurve_new_eq cal i o? dc dflt ho hd (timePts_nodup hτ o hn) hpos] at hc
  obtain rfl := Except.ok.inj hc
  exact ⟨_, dateCurveOf_local hs hd hτ hn ho hpos h0 hv⟩

theorem rate_local {i : Option FuncSpec} {dflt : FuncSpec} (hs : Local (i.getD dflt)) {o? : Option D} {o : D}
    {dc : DayCountArg D} (hd : dc.Usable) (hτ : GoodDayCount (dc.fn cal)) {pts : List (D × ℝ)} (hn : (pts.map Prod.fst).Nodup)
    (ho : o?.or (pts.map Prod.fst).head? = some o) (hpos : (i.getD dflt).isLog → ∀ p ∈ pts, 0 < p.2)
    (h0 : (i.getD dflt).isRate → ∃ p ∈ pts, p.1 ≠ o) (tenor : Option P) {x : D} {v : ℝ} (hv : (i.getD dflt).isLog → 0 < v) :
    (⟨dateCurveOf (dc.fn cal) o o? dc i dflt pts, tenor, none⟩ : RateCurve D P).setitem cal x v =
        .ok ⟨dateCurveOf (dc.fn cal) o o? dc i dflt (putPt pts x v), tenor, none⟩ ∧
      ∀ z, Beyond (gridOf (i.getD dflt) o (pts.map Prod.fst)) x z →
        (⟨dateCurveOf (dc.fn cal) o o? dc i dflt (putPt pts x v), tenor, none⟩ : RateCurve D P).call cal z =
          (⟨dateCurveOf (dc.fn cal) o o? dc i dflt pts, tenor, none⟩ : RateCurve D P).call cal z := by
  obtain ⟨h1, h2⟩ := dateCurveOf_local hs hd hτ hn ho hpos h0 (x := x) hv
  refine ⟨by rw [RateCurve_setitem_none rfl, h1]; rfl, fun z hz => ?_⟩
  rw [rate_of_base rfl, rate_of_base rfl]
  simp only [DateCurve.num, h2 z hz]

/-- C155 (interest rate curves): the same for every class of interest rate curves; discount factors of zero rates and discount
factors beyond the neighbouring dates stay as well. -/
theorem C155_rate_curve {cls : IRClass} {i : Option FuncSpec} (hs : Local (i.getD cls.dflt)) {o? : Option D} {o : D}
    {dc : DayCountArg D} (hd : dc.Usable) (hτ : GoodDayCount (dc.fn cal)) {pts : List (D × ℝ)} (hn : (pts.map Prod.fst).Nodup)
    (ho : o?.or (pts.map Prod.fst).head? = some o) (hpos : (i.getD cls.dflt).isLog → ∀ p ∈ pts, 0 < p.2)
    (h0 : (i.getD cls.dflt).isRate → ∃ p ∈ pts, p.1 ≠ o) {tenor : Option P}
    {c : IRCurve D P} (hc : IRCurve.new cal cls (pts.map Prod.fst) (pts.map Prod.snd) i o? dc tenor = .ok c) {x : D} {v : ℝ}
    (hv : (i.getD cls.dflt).isLog → 0 < v) :
    ∃ c', c.toRateCurve.setitem cal x v = .ok c' ∧ ∀ z, Beyond (gridOf (i.getD cls.dflt) o (pts.map Prod.fst)) x z →
      c'.call cal z = c.call cal z ∧ (cls = .zero ∨ cls = .discount → (⟨c', cls⟩ : IRCurve D P).discount cal z = c.discount cal z) := by
  rw [IRCurve_new_eq cal hn hpos ho hd hτ] at hc
  obtain rfl := Except.ok.inj hc
  obtain ⟨h1, h2⟩ := rate_local hs hd hτ hn ho hpos h0 tenor (x := x) hv
  refine ⟨_, h1, fun z hz => ⟨h2 z hz, ?_⟩⟩
  have hoc : ∀ pts' : List (D × ℝ), o?.or (pts'.map Prod.fst).head? = some o →
      (dateCurveOf (dc.fn cal) o o? dc i cls.dflt pts').origin = some o := fun pts' h => h
  have h3 := h2 z hz
  rintro (rfl | rfl)
  · simp only [IRCurve.discount, IRCurve.factor, IRCurve.rate, IRCurve.zeroRateOf, irOf, hoc _ (putPt_head ho x v), hoc _ ho, pyDate,
      Py.ok_bind, if_true, IRCurve.call]
    by_cases hzo : o = z
    · simp [hzo]
    · simp only [hzo, if_false, false_and]
      rw [h3]
      rfl
  · simp only [IRCurve.discount, IRCurve.factor, IRCurve.discountFactorOf, irOf, hoc _ (putPt_head ho x v), hoc _ ho, pyDate,
      Py.ok_bind, if_true, IRCurve.call]
    exact h3

/-- C155 (credit curves): and of credit curves; an assigned value is not clamped. -/
theorem C155_credit_curve {cls : CRClass} {i : Option FuncSpec} (hs : Local (i.getD cls.dflt)) {o? : Option D} {o : D}
    {dc : DayCountArg D} (hd : dc.Usable) (hτ : GoodDayCount (dc.fn cal)) {pts : List (D × ℝ)} (hn : (pts.map Prod.fst).Nodup)
    (ho : o?.or (pts.map Prod.fst).head? = some o) (hpos : cls.isProb = false → (i.getD cls.dflt).isLog → ∀ p ∈ pts, 0 < p.2)
    (h0 : (i.getD cls.dflt).isRate → ∃ p ∈ pts, p.1 ≠ o) {tenor : Option P} {c : CRCurve D P}
    (hc : CRCurve.new cal cls (pts.map Prod.fst) (pts.map Prod.snd) i o? dc tenor = .ok c) {x : D} {v : ℝ}
    (hv : (i.getD cls.dflt).isLog → 0 < v) :
    ∃ c', c.toRateCurve.setitem cal x v = .ok c' ∧
      ∀ z, Beyond (gridOf (i.getD cls.dflt) o (pts.map Prod.fst)) x z → c'.call cal z = c.call cal z := by
  cases hp : cls.isProb with
  | false =>
    rw [CRCurve_new_rate hp, CRCurve_make_eq cal hn (hpos hp) ho hd hτ] at hc
    obtain rfl := Except.ok.inj hc
    exact ⟨_, rate_local hs hd hτ hn ho (hpos hp) h0 tenor hv⟩
  | true =>
    rw [CRCurve_new_eq hp hn ho hd hτ] at hc
    obtain rfl := Except.ok.inj hc
    set pts' := pts.map fun p => (p.1, storedProb cls p.2) with hpts'
    have e1 : pts'.map Prod.fst = pts.map Prod.fst := by
      rw [hpts', List.map_map]; rfl
    have hpos' : (i.getD cls.dflt).isLog → ∀ q ∈ pts', 0 < q.2 := fun _ q hq => by
      obtain ⟨p, -, rfl⟩ := List.mem_map.1 hq
      exact storedProb_pos cls p.2
    have h0' : (i.getD cls.dflt).isRate → ∃ p ∈ pts', p.1 ≠ o := fun h => by
      obtain ⟨p, hp, h1⟩ := h0 h
      exact ⟨_, List.mem_map.2 ⟨p, hp, rfl⟩, h1⟩
    rw [← e1] at hn ho ⊢
    exact ⟨_, rate_local hs hd hτ hn ho hpos' h0' tenor hv⟩

end Date

/-- Between the first and the last point lines do not depend on their continuation. -/
theorem linear_local {S T : List (ℝ × ℝ)} {x z : ℝ} (hS : (S.map Prod.fst).Nodup) (hT : (T.map Prod.fst).Nodup) (h : AgreeOff S T x)
    (hb : Beyond (S.map Prod.fst) x z) (hlo : ∃ p ∈ S, p.1 ≠ x ∧ p.1 ≤ z) (hhi : ∃ p ∈ S, p.1 ≠ x ∧ z ≤ p.1) :
    linearCall (ptsOf (sortPairs T)) z = linearCall (ptsOf (sortPairs S)) z := by
  obtain ⟨h1, h2⟩ := beyond_ne_nil h hb
  have key : ∀ {L : List (ℝ × ℝ)} (hL : (L.map Prod.fst).Nodup) (hne : L ≠ []), (∃ p ∈ L, p.1 ≤ z) → (∃ p ∈ L, z ≤ p.1) →
      linearCall (ptsOf (sortPairs L)) z = .ok (flin (sortPairs L) z) := by
    intro L hL hne ⟨p, hp, hpz⟩ ⟨q, hq, hqz⟩
    have hs := sortPairs_strict hL
    have hne' := sortPairs_ne_nil hne
    have hx : ((sortPairs L).map Prod.fst).Pairwise (· < ·) := by
      rw [List.pairwise_map]; exact hs
    rw [linearCall_eq hs hne', flin_eq_plin hs hne']
    · have := strict_head_le hx (by simpa using hne') (List.mem_map.2 ⟨p, (sortPairs_perm L).mem_iff.2 hp, rfl⟩)
      rw [List.head_map] at this
      exact this.trans hpz
    · have := strict_le_last hx (by simpa using hne') (List.mem_map.2 ⟨q, (sortPairs_perm L).mem_iff.2 hq, rfl⟩)
      rw [List.getLast_map] at this
      exact hqz.trans this
  obtain ⟨p, hp, hpx, hpz⟩ := hlo
  obtain ⟨q, hq, hqx, hqz⟩ := hhi
  rw [key hS h1 ⟨p, hp, hpz⟩ ⟨q, hq, hqz⟩, key hT h2 ⟨p, (h p hpx).1 hp, hpz⟩ ⟨q, (h q hqx).1 hq, hqz⟩, flin_sorted_local hS hT h hb]

/-- C155 (lines): the classes that continue their first and last slope are local between the other points. -/
theorem C155_linear {k : Kind} (hk : k = .linear ∨ k = .loglinear ∨ k = .loglinearrate) {P Q : List (ℝ × ℝ)}
    (hP : (P.map Prod.fst).Nodup) (hQ : (Q.map Prod.fst).Nodup) (hpos : k.isLog → ∀ p ∈ P, 0 < p.2)
    (hpos' : k.isLog → ∀ p ∈ Q, 0 < p.2) {x : ℝ} (h : ∀ p : ℝ × ℝ, p.1 ≠ x → (p ∈ P ↔ p ∈ Q)) :
    ∃ f g, Func.new (.base k) (P.map Prod.fst) (P.map Prod.snd) = .ok f ∧ Func.new (.base k) (Q.map Prod.fst) (Q.map Prod.snd) = .ok g ∧
      ∀ z, Beyond (gridOf (.base k) 0 (P.map Prod.fst)) x z →
        (∃ a ∈ gridOf (.base k) 0 (P.map Prod.fst), a ≠ x ∧ a ≤ z) →
        (∃ a ∈ gridOf (.base k) 0 (P.map Prod.fst), a ≠ x ∧ z ≤ a) → g.call z = f.call z := by
  refine ⟨_, _, Func_new_eq (.base k) hP hpos, Func_new_eq (.base k) hQ hpos', fun z hb hlo hhi => ?_⟩
  have hmem : ∀ {L : List (ℝ × ℝ)} {q : ℝ → Prop}, (∃ a ∈ L.map Prod.fst, a ≠ x ∧ q a) → ∃ p ∈ L, p.1 ≠ x ∧ q p.1 := by
    rintro L q ⟨a, ha, h⟩
    obtain ⟨p, hp, rfl⟩ := List.mem_map.1 ha
    exact ⟨p, hp, h⟩
  show (interpOf k Q).call z = (interpOf k P).call z
  rcases hk with rfl | rfl | rfl
  · exact congrArg (fun r => some <$> r) (linear_local hP hQ h hb (hmem hlo) (hmem hhi))
  · have hb' : Beyond (P.map Prod.fst) x z := hb
    have hlo' : ∃ a ∈ P.map Prod.fst, a ≠ x ∧ a ≤ z := hlo
    have hhi' : ∃ a ∈ P.map Prod.fst, a ≠ x ∧ z ≤ a := hhi
    refine congrArg (fun r => (fun l => some (Real.exp l)) <$> r) (linear_local (S := logPts P) (T := logPts Q) ?_ ?_ (agree_log h) ?_ ?_ ?_)
    · rw [logPts_fst]; exact hP
    · rw [logPts_fst]; exact hQ
    · rw [logPts_fst]; exact hb'
    · exact hmem (q := (· ≤ z)) (by rw [logPts_fst]; exact hlo')
    · exact hmem (q := (z ≤ ·)) (by rw [logPts_fst]; exact hhi')
  · have hzx : z ≠ x := hb.ne
    by_cases hz : z = 0
    · subst hz
      simp only [interpOf, Interp.call, storedZero, Kind.isRate, if_true, find_local hP hQ hzx.symm h]
    · simp only [interpOf, Interp.call, hz, if_false]
      have e : ((P.filter fun p => p.1 ≠ 0).map fun p => (p.1, Real.log p.2 / p.1)).map Prod.fst = (P.map Prod.fst).filter (· ≠ 0) := by
        rw [map_filter_fst, List.map_map]; rfl
      have hlo' : ∃ a ∈ (P.map Prod.fst).filter (· ≠ 0), a ≠ x ∧ a ≤ z := hlo
      have hhi' : ∃ a ∈ (P.map Prod.fst).filter (· ≠ 0), a ≠ x ∧ z ≤ a := hhi
      rw [← e] at hlo' hhi'
      exact congrArg _ (linear_local (storedPts_nodup .loglinearrate hP) (storedPts_nodup .loglinearrate hQ)
        (agree_rate h fun a y => Real.log y / a) (beyond_rate hb fun a y => Real.log y / a) (hmem (q := (· ≤ z)) hlo') (hmem (q := (z ≤ ·)) hhi'))

/-- C155 (refuted for the class `linear`): beyond the last point the line through the last two points moves, whatever lies between. -/
theorem C155_linear_violated : ∃ c c', Curve.new [0, 1] [0, 0] (some (.base .linear)) = .ok c ∧ c.setitem 0 1 = .ok c' ∧
    c.call 2 = .ok (some 0) ∧ c'.call 2 = .ok (some (-1)) ∧ Beyond [(0 : ℝ), 1] 0 2 := by
  have hn : (([(0, 0), (1, 0)] : List (ℝ × ℝ)).map Prod.fst).Nodup := by norm_num
  have hset := Curve_setitem_eq (some (.base .linear)) hn (by simp [FuncSpec.isLog, Kind.isLog])
    (by simp [FuncSpec.needsNonzero]) 0 1 (by simp [FuncSpec.isLog, Kind.isLog])
  have hput : putPt [((0 : ℝ), (0 : ℝ)), (1, 0)] 0 1 = [(0, 1), (1, 0)] := by norm_num [putPt]
  rw [hput] at hset
  refine ⟨_, _, Curve_new_eq (some (.base .linear)) hn (by simp [FuncSpec.isLog, Kind.isLog]), hset, ?_, ?_, .inr ⟨1, by simp, by norm_num, by norm_num⟩⟩
  · show some <$> linearCall (ptsOf (sortPairs [((0 : ℝ), (0 : ℝ)), (1, 0)])) _ = _
    rw [sortPairs_eq_self (l := [((0 : ℝ), (0 : ℝ)), (1, 0)]) (by simp [StrictX]), linearCall_eq (by simp [StrictX]) (by simp)]
    norm_num [plin, chord]
  · show some <$> linearCall (ptsOf (sortPairs [((0 : ℝ), (1 : ℝ)), (1, 0)])) _ = _
    rw [sortPairs_eq_self (l := [((0 : ℝ), (1 : ℝ)), (1, 0)]) (by simp [StrictX]), linearCall_eq (by simp [StrictX]) (by simp)]
    norm_num [plin, chord]

/-- Zero rates meet the hypotheses: the first of three rates changes, discount factors from the second on do not. -/
example : ∃ (c : IRCurve ℤ ℤ) (c' : RateCurve ℤ ℤ), IRCurve.new dayCal .zero [0, 365, 730] [1 / 100, 2 / 100, 3 / 100] none none .default none = .ok c ∧
    c.toRateCurve.setitem dayCal 0 (5 / 100) = .ok c' ∧ ∀ z, 365 ≤ z →
      c'.call dayCal z = c.call dayCal z ∧ (⟨c', .zero⟩ : IRCurve ℤ ℤ).discount dayCal z = c.discount dayCal z := by
  have hn : (([(0, 1 / 100), (365, 2 / 100), (730, 3 / 100)] : List (ℤ × ℝ)).map Prod.fst).Nodup := by norm_num
  have hl : ((none : Option FuncSpec).getD IRClass.zero.dflt).isLog = false := rfl
  have hr : ((none : Option FuncSpec).getD IRClass.zero.dflt).isRate = false := rfl
  have hnew := IRCurve_new_eq dayCal (pts := [(0, 1 / 100), (365, 2 / 100), (730, 3 / 100)]) (i := none) (o? := none) (dc := .default)
    (o := 0) (cls := .zero) (tenor := none) hn (by rw [hl]; simp) rfl trivial goodDayCount_int
  obtain ⟨c', h1, h2⟩ := C155_rate_curve (cal := dayCal) (by simp [Local, IRClass.dflt, linearScheme]) (dc := .default) trivial
    goodDayCount_int hn rfl (by rw [hl]; simp) (by rw [hr]; simp) hnew (x := 0) (v := 5 / 100) (by rw [hl]; simp)
  refine ⟨_, c', hnew, h1, fun z hz => ?_⟩
  obtain ⟨h3, h4⟩ := h2 z (.inr ⟨365, by rw [gridOf_eq, hr]; simp, by norm_num, hz⟩)
  exact ⟨h3, h4 (.inl rfl)⟩

/-! ### The hypotheses can be met: each theorem applied -/

theorem exLocal : Local linearScheme := by simp [Local, linearScheme]

/-- Three points and the same with another first value: nothing changes beyond the second. -/
example := C155_function (s := linearScheme) exLocal (P := [(0, 1), (1, 2), (2, 5)]) (Q := [(0, 7), (1, 2), (2, 5)]) (by norm_num) (by norm_num)
  (by simp [linearScheme, FuncSpec.isLog, Kind.isLog]) (by simp [linearScheme, FuncSpec.isLog, Kind.isLog]) (x := 0) (by
    rintro ⟨a, b⟩ h
    simp only at h
    simp [h])
example := C155_linear (k := .linear) (.inl rfl) (P := [(0, 1), (1, 2), (2, 5)]) (Q := [(0, 7), (1, 2), (2, 5)]) (by norm_num) (by norm_num)
  (by simp [Kind.isLog]) (by simp [Kind.isLog]) (x := 0) (by
    rintro ⟨a, b⟩ h
    simp only at h
    simp [h])
example : ∃ c c', Curve.new [0, 1, 2] [1, 2, 5] none = .ok c ∧ c.setitem 0 7 = .ok c' ∧
    ∀ z, Beyond (gridOf linearScheme 0 [0, 1, 2]) (0 : ℝ) z → c'.call z = c.call z := by
  have hn : (([(0, 1), (1, 2), (2, 5)] : List (ℝ × ℝ)).map Prod.fst).Nodup := by norm_num
  have hc := Curve_new_eq (pts := [(0, 1), (1, 2), (2, 5)]) (i := none) hn (by simp [linearScheme, FuncSpec.isLog, Kind.isLog])
  obtain ⟨c', h1, h2⟩ := C155_curve (i := none) exLocal hn (by simp [linearScheme, FuncSpec.isLog, Kind.isLog]) hc (x := 0) (v := 7)
    (by simp [linearScheme, FuncSpec.isLog, Kind.isLog]) (by simp [linearScheme, FuncSpec.isRate, Kind.isRate])
  exact ⟨_, c', hc, h1, h2⟩
example : ∃ c c', DateCurve.new dayCal [0, 365, 730] [1, 2, 5] none none .default linearScheme = .ok c ∧ c.setitem dayCal 0 7 = .ok c' ∧
    ∀ z, Beyond (gridOf linearScheme 0 [0, 365, 730]) (0 : ℤ) z → c'.call dayCal z = c.call dayCal z := by
  have hn : (([(0, 1), (365, 2), (730, 5)] : List (ℤ × ℝ)).map Prod.fst).Nodup := by norm_num
  have hc := DateCurve_new_eq dayCal (pts := [(0, 1), (365, 2), (730, 5)]) (i := none) (o? := none) (o := 0) (dc := .default) (dflt := linearScheme) rfl trivial
    (timePts_nodup goodDayCount_int 0 hn) (by simp [linearScheme, FuncSpec.isLog, Kind.isLog])
  obtain ⟨c', h1, h2⟩ := C155_date_curve (cal := dayCal) (i := none) (dflt := linearScheme) exLocal (dc := .default) trivial goodDayCount_int hn rfl
    (by simp [linearScheme, FuncSpec.isLog, Kind.isLog]) (by simp [linearScheme, FuncSpec.isRate, Kind.isRate]) hc (x := 0) (v := 7)
    (by simp [linearScheme, FuncSpec.isLog, Kind.isLog])
  exact ⟨_, c', hc, h1, h2⟩
/-- Intensities: the first of three changes. -/
example : ∃ (c : CRCurve ℤ ℤ) (c' : RateCurve ℤ ℤ), CRCurve.new dayCal .flat [0, 365, 730] [1 / 100, 2 / 100, 5 / 100] none none .default none = .ok c ∧
    c.toRateCurve.setitem dayCal 0 (7 / 100) = .ok c' ∧
    ∀ z, Beyond (gridOf CRClass.flat.dflt 0 [0, 365, 730]) (0 : ℤ) z → c'.call dayCal z = c.call dayCal z := by
  have hn : (([(0, 1 / 100), (365, 2 / 100), (730, 5 / 100)] : List (ℤ × ℝ)).map Prod.fst).Nodup := by norm_num
  have hl : ((none : Option FuncSpec).getD CRClass.flat.dflt).isLog = false := rfl
  have hr : ((none : Option FuncSpec).getD CRClass.flat.dflt).isRate = false := rfl
  have hc := (CRCurve_new_rate (cls := .flat) rfl _ _ _ _ _ _).trans (CRCurve_make_eq dayCal (pts := [(0, 1 / 100), (365, 2 / 100), (730, 5 / 100)]) (cls := .flat) (i := none)
    (o? := none) (o := 0) (dc := .default) (tenor := none) hn (by rw [hl]; simp) rfl trivial goodDayCount_int)
  obtain ⟨c', h1, h2⟩ := C155_credit_curve (cal := dayCal) (cls := .flat) (i := none) (by simp [Local, CRClass.dflt, linearScheme]) (dc := .default) trivial
    goodDayCount_int hn rfl (by rw [hl]; simp) (by rw [hr]; simp) hc (x := 0) (v := 7 / 100) (by rw [hl]; simp)
  exact ⟨_, c', hc, h1, h2⟩

end Dcf
