import Verif.Model.Interpolation
import Verif.Spec.Interpolation
import Verif.Lemmas.Bisect
import Mathlib.Tactic.FieldSimp
import Mathlib.Tactic.Ring
import Mathlib.Tactic.Linarith
import Mathlib.Topology.Order.OrderClosed
import Mathlib.Topology.Algebra.Monoid

/-! # Interpolation lemmas -/

set_option linter.unusedSectionVars false
set_option linter.unusedSimpArgs false
set_option linter.unusedVariables false

namespace Dcf

open Spec

variable {K : Type} [Field K] [LinearOrder K] [IsStrictOrderedRing K]

/-- The two lists of a list of points. -/
def ptsOf (l : List (K × K)) : Pts K := ⟨l.map Prod.fst, l.map Prod.snd⟩

theorem zip_unzip' {α β} (l : List (α × β)) : (l.map Prod.fst).zip (l.map Prod.snd) = l := by
  induction l with
  | nil => rfl
  | cons a l ih => simp [ih]

theorem Pts_new_eq (pts : List (K × K)) :
    Pts.new (pts.map Prod.fst) (pts.map Prod.snd) = ptsOf (sortPairs pts) := by
  unfold Pts.new Pts.update
  by_cases h : pts = []
  · simp [h, sortPairs, ptsOf]
  · rw [if_neg (by simpa using h)]
    simp [zip_unzip', ptsOf]

theorem ptsOf_xs_get {l : List (K × K)} {i : ℕ} (h : i < l.length) :
    pyIndex (ptsOf l).xs i = .ok l[i].1 := by
  rw [pyIndex_ok (by simpa [ptsOf] using h)]; simp [ptsOf]

theorem ptsOf_ys_get {l : List (K × K)} {i : ℕ} (h : i < l.length) :
    pyIndex (ptsOf l).ys i = .ok l[i].2 := by
  rw [pyIndex_ok (by simpa [ptsOf] using h)]; simp [ptsOf]

theorem ptsOf_ys_length (l : List (K × K)) : (ptsOf l).ys.length = l.length := by simp [ptsOf]
theorem ptsOf_xs_length (l : List (K × K)) : (ptsOf l).xs.length = l.length := by simp [ptsOf]

/-- If `x` is a node then `idxOf` finds its position. -/
theorem idxOf_node {l : List (K × K)} {x : K} (h : x ∈ (ptsOf l).xs) :
    ∃ hi : (ptsOf l).xs.idxOf x < l.length, l[(ptsOf l).xs.idxOf x].1 = x := by
  have h1 : (ptsOf l).xs.idxOf x < (ptsOf l).xs.length := List.idxOf_lt_length_of_mem h
  have h2 : (ptsOf l).xs[(ptsOf l).xs.idxOf x] = x := List.getElem_idxOf h1
  have h3 : (ptsOf l).xs.idxOf x < l.length := by rwa [ptsOf_xs_length] at h1
  refine ⟨h3, ?_⟩
  rw [show (ptsOf l).xs[(ptsOf l).xs.idxOf x] = l[(ptsOf l).xs.idxOf x].1 from List.getElem_map _] at h2
  exact h2

theorem StrictX.le {l : List (K × K)} (h : StrictX l) {i j : ℕ} (hj : j < l.length) (hij : i ≤ j) :
    l[i].1 ≤ l[j].1 := by
  rcases eq_or_lt_of_le hij with h' | h'
  · subst h'; exact le_rfl
  · exact (h.lt hj h').le

theorem StrictX.eq_of_fst {l : List (K × K)} (h : StrictX l) {p q : K × K} (hp : p ∈ l) (hq : q ∈ l)
    (e : p.1 = q.1) : p = q := by
  obtain ⟨i, hi, rfl⟩ := List.getElem_of_mem hp
  obtain ⟨j, hj, rfl⟩ := List.getElem_of_mem hq
  rcases lt_trichotomy i j with h' | h' | h'
  · exact absurd e (h.lt hj h').ne
  · subst h'; rfl
  · exact absurd e (h.lt hi h').ne'

theorem nodup_fst_eq {l : List (K × K)} (h : (l.map Prod.fst).Nodup) {p q : K × K} (hp : p ∈ l)
    (hq : q ∈ l) (e : p.1 = q.1) : p = q :=
  (sortPairs_strict h).eq_of_fst ((sortPairs_perm l).mem_iff.2 hp) ((sortPairs_perm l).mem_iff.2 hq) e

/-! ### Single calls -/

theorem defaultCall_spec {l : List (K × K)} (hl : StrictX l) (d : Option K) (x : K) :
    (∀ y, (x, y) ∈ l → defaultCall (ptsOf l) d x = .ok (some y)) ∧
      ((∀ p ∈ l, p.1 ≠ x) → defaultCall (ptsOf l) d x = .ok d) := by
  constructor
  · intro y hy
    have hx : x ∈ (ptsOf l).xs := List.mem_map.2 ⟨_, hy, rfl⟩
    obtain ⟨hi, e⟩ := idxOf_node hx
    unfold defaultCall
    rw [if_pos hx, ptsOf_ys_get hi, Py.map_ok, hl.eq_of_fst (List.getElem_mem hi) hy e]
  · intro h
    unfold defaultCall
    rw [if_neg]
    simp only [ptsOf, List.mem_map, not_exists, not_and]
    exact h

theorem leftCall_spec {l : List (K × K)} (hl : StrictX l) (hne : l ≠ []) (x : K) :
    ∃ y, leftCall (ptsOf l) x = .ok y ∧ IsLeftValue l x y := by
  have hpos : 0 < l.length := List.length_pos_iff.2 hne
  unfold leftCall
  rw [ptsOf_ys_length, if_neg hpos.ne']
  by_cases hx : x ∈ (ptsOf l).xs
  · obtain ⟨hi, e⟩ := idxOf_node hx
    simp only [hx, if_true, Py.ok_bind, ptsOf_ys_get hi]
    exact ⟨_, rfl, _, List.getElem_mem hi, rfl, .inl ⟨e.le, fun q _ hq => hq.trans_eq e.symm⟩⟩
  · simp only [hx, if_false, Py.ok_bind]
    obtain ⟨i, e, h1, h2, h3, h4⟩ := bisectLeft_spec (a := (ptsOf l).xs) (by simpa [ptsOf] using hl.sorted) x
      (lo := 1) (hi := (ptsOf l).xs.length) (by rw [ptsOf_xs_length]; omega) le_rfl
    rw [ptsOf_xs_length] at h2 e
    have hi1 : i - 1 < l.length := by omega
    rw [ptsOf_xs_length, e, Py.map_ok, Py.ok_bind, ptsOf_ys_get hi1]
    refine ⟨_, rfl, _, List.getElem_mem hi1, rfl, ?_⟩
    have hnode : ∀ j (hj : j < l.length), l[j].1 ≠ x := fun j hj e =>
      hx (List.mem_map.2 ⟨_, List.getElem_mem hj, e⟩)
    have h3' : ∀ j (hj : j < l.length), 1 ≤ j → j < i → l[j].1 < x := by
      intro j hj a b; simpa [ptsOf] using h3 j (by simpa [ptsOf] using hj) a b
    have h4' : ∀ j (hj : j < l.length), i ≤ j → x ≤ l[j].1 := by
      intro j hj a; simpa [ptsOf] using h4 j (by simpa [ptsOf] using hj) a (by simpa [ptsOf] using hj)
    rcases lt_or_ge x l[i - 1].1 with hlt | hle
    · right
      have hi0 : i - 1 = 0 := by
        by_contra hcon
        exact absurd (h3' (i - 1) hi1 (by omega) (by omega)) hlt.not_gt
      have hfirst : ∀ q ∈ l, l[i - 1].1 ≤ q.1 := by
        intro q hq
        obtain ⟨j, hj, rfl⟩ := List.getElem_of_mem hq
        exact hl.le hj (by omega)
      exact ⟨fun q hq => hlt.trans_le (hfirst q hq), hfirst⟩
    · left
      refine ⟨hle, ?_⟩
      intro q hq hqx
      obtain ⟨j, hj, rfl⟩ := List.getElem_of_mem hq
      rcases lt_or_ge j i with h | h
      · exact hl.le hi1 (by omega)
      · exact absurd (le_antisymm hqx (h4' j hj h)) (hnode j hj)

theorem rightCall_spec {l : List (K × K)} (hl : StrictX l) (hne : l ≠ []) (x : K) :
    ∃ y, rightCall (ptsOf l) x = .ok y ∧ IsRightValue l x y := by
  have hpos : 0 < l.length := List.length_pos_iff.2 hne
  unfold rightCall
  rw [ptsOf_ys_length, if_neg hpos.ne']
  by_cases hx : x ∈ (ptsOf l).xs
  · obtain ⟨hi, e⟩ := idxOf_node hx
    simp only [hx, if_true, Py.ok_bind, ptsOf_ys_get hi]
    exact ⟨_, rfl, _, List.getElem_mem hi, rfl, .inl ⟨e.ge, fun q _ hq => e.le.trans hq⟩⟩
  · simp only [hx, if_false, Py.ok_bind]
    obtain ⟨i, e, h1, h2, h3, h4⟩ := bisectRight_spec (a := (ptsOf l).xs) (by simpa [ptsOf] using hl.sorted) x
      (lo := 0) (hi := (ptsOf l).xs.length - 1) (by omega) (by omega)
    rw [ptsOf_xs_length] at h2 e
    have hi1 : i < l.length := by omega
    rw [ptsOf_xs_length, e, Py.ok_bind, ptsOf_ys_get hi1]
    refine ⟨_, rfl, _, List.getElem_mem hi1, rfl, ?_⟩
    have hnode : ∀ j (hj : j < l.length), l[j].1 ≠ x := fun j hj e =>
      hx (List.mem_map.2 ⟨_, List.getElem_mem hj, e⟩)
    have h3' : ∀ j (hj : j < l.length), j < i → l[j].1 ≤ x := by
      intro j hj b; simpa [ptsOf] using h3 j (by simpa [ptsOf] using hj) (by omega) b
    have h4' : ∀ j (hj : j < l.length), i ≤ j → j < l.length - 1 → x < l[j].1 := by
      intro j hj a b; simpa [ptsOf] using h4 j (by simpa [ptsOf] using hj) a (by simpa [ptsOf] using b)
    rcases lt_or_ge l[i].1 x with hlt | hle
    · right
      have hin : i = l.length - 1 := by
        by_contra hcon
        exact absurd (h4' i hi1 le_rfl (by omega)) hlt.not_gt
      have hlast : ∀ q ∈ l, q.1 ≤ l[i].1 := by
        intro q hq
        obtain ⟨j, hj, rfl⟩ := List.getElem_of_mem hq
        exact hl.le hi1 (by omega)
      exact ⟨fun q hq => (hlast q hq).trans_lt hlt, hlast⟩
    · left
      refine ⟨hle, ?_⟩
      intro q hq hqx
      obtain ⟨j, hj, rfl⟩ := List.getElem_of_mem hq
      rcases lt_or_ge j i with h | h
      · exact absurd (le_antisymm (h3' j hj h) hqx) (hnode j hj)
      · exact hl.le hj h

theorem nearestCall_spec {l : List (K × K)} (hl : StrictX l) (hne : l ≠ []) (x : K) :
    ∃ y, nearestCall (ptsOf l) x = .ok y ∧ IsNearestValue l x y := by
  have hpos : 0 < l.length := List.length_pos_iff.2 hne
  unfold nearestCall
  rw [ptsOf_ys_length, if_neg hpos.ne']
  simp only [Py.pure_eq, Py.ok_bind]
  by_cases h1 : l.length = 1
  · rw [if_pos h1, ptsOf_ys_get (by omega)]
    refine ⟨_, rfl, _, List.getElem_mem _, rfl, ?_⟩
    intro q hq
    obtain ⟨j, hj, rfl⟩ := List.getElem_of_mem hq
    have : j = 0 := by omega
    subst this
    simp
  rw [if_neg h1]
  by_cases hx : x ∈ (ptsOf l).xs
  · obtain ⟨hi, e⟩ := idxOf_node hx
    simp only [hx, if_true, Py.ok_bind, ptsOf_ys_get hi]
    refine ⟨_, rfl, _, List.getElem_mem hi, rfl, ?_⟩
    intro q hq
    rw [e, sub_self, abs_zero]
    refine ⟨abs_nonneg _, fun h => ?_⟩
    have := abs_eq_zero.1 h.symm
    exact (sub_eq_zero.1 this).ge
  · simp only [hx, if_false]
    obtain ⟨i, e, h1', h2, h3, h4⟩ := bisectLeft_spec (a := (ptsOf l).xs) (by simpa [ptsOf] using hl.sorted) x
      (lo := 1) (hi := (ptsOf l).xs.length - 1) (by rw [ptsOf_xs_length]; omega) (by omega)
    rw [ptsOf_xs_length] at h2 e
    have hi : i < l.length := by omega
    have hi1 : i - 1 < l.length := by omega
    rw [ptsOf_xs_length, e, Py.ok_bind, ptsOf_xs_get hi1, Py.ok_bind, ptsOf_xs_get hi, Py.ok_bind]
    have hlt : l[i - 1].1 < l[i].1 := hl.lt hi (by omega)
    have hd : l[i - 1].1 - l[i].1 < 0 := by linarith
    rw [pyDiv_ok hd.ne, Py.ok_bind]
    have h3' : ∀ j (hj : j < l.length), 1 ≤ j → j < i → l[j].1 < x := by
      intro j hj a b; simpa [ptsOf] using h3 j (by simpa [ptsOf] using hj) a b
    have h4' : ∀ j (hj : j < l.length), i ≤ j → j < l.length - 1 → x ≤ l[j].1 := by
      intro j hj a b; simpa [ptsOf] using h4 j (by simpa [ptsOf] using hj) a (by simpa [ptsOf] using b)
    have hnode : ∀ j (hj : j < l.length), l[j].1 ≠ x := fun j hj e =>
      hx (List.mem_map.2 ⟨_, List.getElem_mem hj, e⟩)
    have hup : ∀ j (hj : j < l.length), i ≤ j → l[i].1 ≤ l[j].1 := fun j hj h => hl.le hj h
    have hdn : ∀ j (hj : j < l.length), j ≤ i - 1 → l[j].1 ≤ l[i - 1].1 := fun j hj h => hl.le hi1 h
    -- x < first node forces i = 1, x > last node forces i = n - 1
    have hcase1 : x < l[i - 1].1 → i = 1 := by
      intro h; by_contra hcon
      exact absurd (h3' (i - 1) hi1 (by omega) (by omega)) h.not_gt
    have hcase2 : l[i].1 < x → i = l.length - 1 := by
      intro h; by_contra hcon
      exact absurd (h4' i hi le_rfl (by omega)) h.not_ge
    have hq : (l[i - 1].1 - x) / (l[i - 1].1 - l[i].1) ≤ 1 / 2 ↔ 2 * x ≤ l[i - 1].1 + l[i].1 := by
      rw [div_le_iff_of_neg hd]; constructor <;> intro h <;> linarith
    by_cases hc : (l[i - 1].1 - x) / (l[i - 1].1 - l[i].1) ≤ 1 / 2
    · rw [if_pos hc, ptsOf_ys_get hi1]
      refine ⟨_, rfl, _, List.getElem_mem hi1, rfl, ?_⟩
      rw [hq] at hc
      intro q hqm
      obtain ⟨j, hj, rfl⟩ := List.getElem_of_mem hqm
      rcases le_or_gt j (i - 1) with h | h
      · have hj1 := hdn j hj h
        rcases lt_or_ge x l[i - 1].1 with hxl | hxl
        · have : j = i - 1 := by have := hcase1 hxl; omega
          subst this; exact ⟨le_rfl, fun _ => le_rfl⟩
        · rw [abs_of_nonpos (by linarith : l[i - 1].1 - x ≤ 0), abs_of_nonpos (by linarith : l[j].1 - x ≤ 0)]
          exact ⟨by linarith, fun hh => by linarith⟩
      · have hj1 := hup j hj (by omega)
        refine ⟨?_, fun _ => by linarith⟩
        rw [abs_of_nonneg (by linarith : 0 ≤ l[j].1 - x)]
        exact abs_le.2 ⟨by linarith, by linarith⟩
    · rw [if_neg hc, ptsOf_ys_get hi]
      refine ⟨_, rfl, _, List.getElem_mem hi, rfl, ?_⟩
      rw [hq, not_le] at hc
      intro q hqm
      obtain ⟨j, hj, rfl⟩ := List.getElem_of_mem hqm
      rcases le_or_gt j (i - 1) with h | h
      · have hj1 := hdn j hj h
        have : |l[i].1 - x| < |l[j].1 - x| := by
          rw [abs_of_nonpos (by linarith : l[j].1 - x ≤ 0)]
          exact abs_lt.2 ⟨by linarith, by linarith⟩
        exact ⟨this.le, fun hh => absurd hh this.ne⟩
      · have hj1 := hup j hj (by omega)
        refine ⟨?_, fun _ => hj1⟩
        rcases lt_or_ge l[i].1 x with hxl | hxl
        · have : j = i := by have := hcase2 hxl; omega
          subst this; exact le_rfl
        · rw [abs_of_nonneg (by linarith : 0 ≤ l[i].1 - x), abs_of_nonneg (by linarith : 0 ≤ l[j].1 - x)]
          linarith

/-! ### Piecewise linear functions by recursion -/

/-- Piecewise linear function through the points with the outer chords continued. -/
def plin : List (K × K) → K → K
  | [], _ => 0
  | [p], _ => p.2
  | [p, q], x => chord p q x
  | p :: q :: r :: t, x => if x ≤ q.1 then chord p q x else plin (q :: r :: t) x

/-- Piecewise linear function through the points, flat outside. -/
def flin : List (K × K) → K → K
  | [], _ => 0
  | [p], _ => p.2
  | p :: q :: t, x => if x ≤ p.1 then p.2 else if x ≤ q.1 then chord p q x else flin (q :: t) x

theorem chord_left (p q : K × K) : chord p q p.1 = p.2 := by simp [chord]

theorem chord_right {p q : K × K} (h : p.1 < q.1) : chord p q q.1 = q.2 := by
  have : q.1 - p.1 ≠ 0 := by linarith [sub_pos.2 h]
  unfold chord; field_simp; ring

theorem plin_eq_chord {l : List (K × K)} (x : K) :
    ∀ i, 1 ≤ i → (hi : i < l.length) →
      (∀ j (hj : j < l.length), 1 ≤ j → j < i → l[j].1 < x) →
      (∀ j (hj : j < l.length), i ≤ j → j < l.length - 1 → x ≤ l[j].1) →
      plin l x = chord l[i - 1] l[i] x := by
  induction l with
  | nil => intro i _ hi; simp at hi
  | cons p l ih =>
    intro i h1 hi h3 h4
    match l, ih, hi, h3, h4 with
    | [], _, hi, _, _ => simp at hi; omega
    | [q], _, hi, _, _ =>
      have : i = 1 := by simp at hi; omega
      subst this; rfl
    | q :: r :: t, ih, hi, h3, h4 =>
      unfold plin
      rcases Nat.eq_or_lt_of_le h1 with h | h
      · subst h
        have := h4 1 (by simp) le_rfl (by simp)
        simp only [List.getElem_cons_succ, List.getElem_cons_zero] at this
        rw [if_pos this]; rfl
      · have := h3 1 (by simp) le_rfl h
        simp only [List.getElem_cons_succ, List.getElem_cons_zero] at this
        rw [if_neg this.not_ge]
        obtain ⟨k, rfl⟩ : ∃ k, i = k + 2 := ⟨i - 2, by omega⟩
        have := ih (k + 1) (by omega) (by simpa using hi) ?_ ?_
        · rw [this]; rfl
        · intro j hj hj1 hjk
          have := h3 (j + 1) (by simpa using hj) (by omega) (by omega)
          simpa using this
        · intro j hj hj1 hjk
          have := h4 (j + 1) (by simpa using hj) (by omega) (by simp at hjk ⊢; omega)
          simpa using this

theorem linearCall_index {l : List (K × K)} (hl : StrictX l) (h2 : 2 ≤ l.length) (x : K) :
    ∃ i, ∃ hi : i < l.length, 1 ≤ i ∧
      (∀ j (hj : j < l.length), 1 ≤ j → j < i → l[j].1 < x) ∧
      (∀ j (hj : j < l.length), i ≤ j → j < l.length - 1 → x ≤ l[j].1) ∧
      linearCall (ptsOf l) x = .ok (chord l[i - 1] l[i] x) := by
  obtain ⟨i, e, h1', h2', h3, h4⟩ := bisectLeft_spec (a := (ptsOf l).xs) (by simpa [ptsOf] using hl.sorted) x
      (lo := 1) (hi := (ptsOf l).xs.length - 1) (by rw [ptsOf_xs_length]; omega) (by omega)
  rw [ptsOf_xs_length] at h2' e
  have hi : i < l.length := by omega
  have hi1 : i - 1 < l.length := by omega
  have hlt : l[i - 1].1 < l[i].1 := hl.lt hi (by omega)
  refine ⟨i, hi, h1', ?_, ?_, ?_⟩
  · intro j hj a b; simpa [ptsOf] using h3 j (by simpa [ptsOf] using hj) a b
  · intro j hj a b; simpa [ptsOf] using h4 j (by simpa [ptsOf] using hj) a (by simpa [ptsOf] using b)
  · unfold linearCall
    rw [ptsOf_ys_length, if_neg (by omega), if_neg (by omega), ptsOf_xs_length, e]
    simp only [Py.pure_eq, Py.ok_bind, ptsOf_ys_get hi1, ptsOf_ys_get hi, ptsOf_xs_get hi1,
      ptsOf_xs_get hi]
    have hd : l[i - 1].1 - l[i].1 ≠ 0 := by linarith [sub_neg.2 hlt]
    have hd' : l[i].1 - l[i - 1].1 ≠ 0 := by linarith [sub_pos.2 hlt]
    rw [pyDiv_ok hd, Py.ok_bind]
    congr 1
    unfold chord
    rw [div_mul_eq_mul_div, ← neg_sub l[i - 1].1 l[i].1, div_neg, ← neg_sub l[i - 1].1 x, mul_neg,
      neg_div, neg_neg]

theorem linearCall_eq {l : List (K × K)} (hl : StrictX l) (hne : l ≠ []) (x : K) :
    linearCall (ptsOf l) x = .ok (plin l x) := by
  match l, hl, hne with
  | [p], _, _ => rfl
  | p :: q :: t, hl, _ =>
    obtain ⟨i, hi, h1, h3, h4, e⟩ := linearCall_index hl (by simp) x
    rw [e, plin_eq_chord x i h1 hi h3 h4]

theorem plin_linear_value {l : List (K × K)} (hl : StrictX l) (h2 : 2 ≤ l.length) (x : K) :
    IsLinearValue l x (plin l x) := by
  obtain ⟨i, hi, h1, h3, h4, -⟩ := linearCall_index hl h2 x
  have hi1 : i - 1 < l.length := by omega
  refine ⟨l[i - 1], l[i], ⟨List.getElem_mem hi1, List.getElem_mem hi, hl.lt hi (by omega), ?_⟩,
    plin_eq_chord x i h1 hi h3 h4, ?_, ?_⟩
  · intro r hr
    obtain ⟨j, hj, rfl⟩ := List.getElem_of_mem hr
    rcases le_or_gt j (i - 1) with h | h
    · exact .inl (hl.le hi1 h)
    · exact .inr (hl.le hj (by omega))
  · rcases Nat.eq_or_lt_of_le h1 with h | h
    · right
      intro r hr
      obtain ⟨j, hj, rfl⟩ := List.getElem_of_mem hr
      exact hl.le hj (by omega)
    · exact .inl (h3 (i - 1) hi1 (by omega) (by omega)).le
  · rcases lt_or_ge i (l.length - 1) with h | h
    · exact .inl (h4 i hi le_rfl h)
    · right
      intro r hr
      obtain ⟨j, hj, rfl⟩ := List.getElem_of_mem hr
      exact hl.le hi (by omega)

theorem flin_le_first {p : K × K} {t : List (K × K)} {x : K} (h : x ≤ p.1) :
    flin (p :: t) x = p.2 := by
  cases t with
  | nil => rfl
  | cons q t => simp [flin, h]

theorem flin_ge_last {l : List (K × K)} (hl : StrictX l) (hne : l ≠ []) {x : K}
    (h : (l.getLast hne).1 ≤ x) : flin l x = (l.getLast hne).2 := by
  induction l with
  | nil => exact absurd rfl hne
  | cons p t ih =>
    cases t with
    | nil => rfl
    | cons q t =>
      have hpq : p.1 < q.1 := (List.pairwise_cons.1 hl).1 q (by simp)
      have hl' : StrictX (q :: t) := (List.pairwise_cons.1 hl).2
      rw [List.getLast_cons (by simp)] at h ⊢
      have hqlast : q.1 ≤ ((q :: t).getLast (by simp)).1 := by
        rw [List.getLast_eq_getElem]; exact hl'.le (i := 0) (by simp) (by omega)
      unfold flin
      rw [if_neg (by linarith)]
      by_cases hq : x ≤ q.1
      · have hxq : x = q.1 := le_antisymm hq (hqlast.trans h)
        rw [if_pos hq, hxq, chord_right hpq, ← ih hl' (by simp) h, flin_le_first hq]
      · rw [if_neg hq]; exact ih hl' (by simp) h

theorem flin_eq_plin {l : List (K × K)} (hl : StrictX l) (hne : l ≠ []) {x : K}
    (h1 : (l.head hne).1 ≤ x) (h2 : x ≤ (l.getLast hne).1) : flin l x = plin l x := by
  induction l with
  | nil => exact absurd rfl hne
  | cons p t ih =>
    match t, hl, ih with
    | [], _, _ => rfl
    | [q], hl, _ =>
      simp only [List.head_cons, List.getLast_cons_cons, List.getLast_singleton] at h1 h2
      simp only [flin, plin]
      by_cases h : x ≤ p.1
      · rw [if_pos h, le_antisymm h h1, chord_left]
      · rw [if_neg h, if_pos h2]
    | q :: r :: t, hl, ih =>
      have hpq : p.1 < q.1 := (List.pairwise_cons.1 hl).1 q (by simp)
      have hl' : StrictX (q :: r :: t) := (List.pairwise_cons.1 hl).2
      simp only [List.head_cons] at h1
      rw [flin, plin]
      by_cases h : x ≤ p.1
      · rw [if_pos h, if_pos (h.trans hpq.le), le_antisymm h h1, chord_left]
      · rw [if_neg h]
        by_cases hq : x ≤ q.1
        · rw [if_pos hq, if_pos hq]
        · rw [if_neg hq, if_neg hq]
          exact ih hl' (by simp) (by simpa using (not_le.1 hq).le) (by simpa using h2)

/-- If no node lies strictly between `a` and `b` then `flin` is a straight line on `[a, b]`. -/
theorem flin_affine {l : List (K × K)} (hl : StrictX l) (hne : l ≠ []) {a b : K} (hab : a < b)
    (hno : ∀ p ∈ l, p.1 ≤ a ∨ b ≤ p.1) :
    ∃ c m, ∀ x, a ≤ x → x ≤ b → flin l x = c + m * x := by
  induction l with
  | nil => exact absurd rfl hne
  | cons p t ih =>
    cases t with
    | nil => exact ⟨p.2, 0, fun x _ _ => by simp [flin]⟩
    | cons q t =>
      have hpq : p.1 < q.1 := (List.pairwise_cons.1 hl).1 q (by simp)
      have hl' : StrictX (q :: t) := (List.pairwise_cons.1 hl).2
      rcases hno p (by simp) with hp | hp
      · rcases hno q (by simp) with hq | hq
        · obtain ⟨c, m, h⟩ := ih hl' (by simp) (fun r hr => hno r (by simp at hr ⊢; tauto))
          refine ⟨c, m, fun x hx1 hx2 => ?_⟩
          rw [← h x hx1 hx2, flin, if_neg (by linarith)]
          by_cases hxq : x ≤ q.1
          · have : x = q.1 := le_antisymm hxq (hq.trans hx1)
            rw [if_pos hxq, flin_le_first hxq, this, chord_right hpq]
          · rw [if_neg hxq]
        · refine ⟨p.2 - (q.2 - p.2) / (q.1 - p.1) * p.1, (q.2 - p.2) / (q.1 - p.1), fun x hx1 hx2 => ?_⟩
          rw [flin]
          have : p.2 - (q.2 - p.2) / (q.1 - p.1) * p.1 + (q.2 - p.2) / (q.1 - p.1) * x = chord p q x := by
            unfold chord; ring
          rw [this]
          by_cases hxp : x ≤ p.1
          · rw [if_pos hxp, le_antisymm hxp (hp.trans hx1), chord_left]
          · rw [if_neg hxp, if_pos (hx2.trans hq)]
      · exact ⟨p.2, 0, fun x _ hx2 => by rw [flin_le_first (hx2.trans hp)]; ring⟩

/-- A function that is constant outside the nodes and a straight line between neighbouring nodes is
the flat extrapolated piecewise linear function through its own values. -/
theorem flin_unique {g : K → K} {xs : List K} (hs : xs.Pairwise (· < ·)) (hne : xs ≠ [])
    (hfirst : ∀ x, (∀ y ∈ xs, x ≤ y) → g x = g (xs.head hne))
    (hlast : ∀ x, (∀ y ∈ xs, y ≤ x) → g x = g (xs.getLast hne))
    (hmid : ∀ a ∈ xs, ∀ b ∈ xs, a < b → (∀ y ∈ xs, y ≤ a ∨ b ≤ y) →
      ∃ c m, ∀ x, a ≤ x → x ≤ b → g x = c + m * x) (x : K) :
    flin (xs.map fun x => (x, g x)) x = g x := by
  -- induction on a suffix, keeping only what is needed to the right of its head
  have key : ∀ (s : List K), s ≠ [] → s <:+ xs → (∀ y ∈ xs, y ∈ s ∨ ∀ z ∈ s, y ≤ z) →
      ∀ x, (∀ hs : s ≠ [], s.head hs ≤ x) → flin (s.map fun x => (x, g x)) x = g x := by
    intro s
    induction s with
    | nil => intro h; exact absurd rfl h
    | cons a t ih =>
      intro _ hsuf hmem x hx
      have hax : a ≤ x := hx (by simp)
      have hss : (a :: t).Pairwise (· < ·) := hs.sublist hsuf.sublist
      cases t with
      | nil =>
        have hall : ∀ y ∈ xs, y ≤ a := by
          intro y hy
          rcases hmem y hy with h | h
          · simp at h; exact h.le
          · exact h a (by simp)
        have : a = xs.getLast hne := by
          apply le_antisymm
          · have ha : a ∈ xs := hsuf.subset (by simp)
            obtain ⟨i, hi, rfl⟩ := List.getElem_of_mem ha
            rw [List.getLast_eq_getElem]
            rcases Nat.eq_or_lt_of_le (Nat.le_sub_one_of_lt hi) with h | h
            · simp only [h, le_refl]
            · exact (List.pairwise_iff_getElem.1 hs _ _ hi (by omega) h).le
          · exact hall _ (List.getLast_mem hne)
        simp only [List.map_cons, List.map_nil, flin]
        rw [hlast x (fun y hy => (hall y hy).trans hax), this]
      | cons b t =>
        have hab : a < b := (List.pairwise_cons.1 hss).1 b (by simp)
        have hbt := (List.pairwise_cons.1 hss).2
        simp only [List.map_cons, flin]
        by_cases hxa : x ≤ a
        · rw [if_pos hxa, le_antisymm hxa hax]
        rw [if_neg hxa]
        by_cases hxb : x ≤ b
        · rw [if_pos hxb]
          obtain ⟨c, m, h⟩ := hmid a (hsuf.subset (by simp)) b (hsuf.subset (by simp)) hab (by
            intro y hy
            rcases hmem y hy with h | h
            · rcases List.mem_cons.1 h with h | h
              · exact .inl h.le
              · rcases List.mem_cons.1 h with h | h
                · exact .inr h.ge
                · exact .inr ((List.pairwise_cons.1 hbt).1 y h).le
            · exact .inl (h a (by simp)))
          rw [h x hax hxb]
          unfold chord
          simp only
          rw [h a le_rfl hab.le, h b hab.le le_rfl]
          have : b - a ≠ 0 := (sub_pos.2 hab).ne'
          field_simp; ring
        · rw [if_neg hxb]
          have := ih (by simp) ((List.suffix_cons a (b :: t)).trans hsuf) ?_ x
            (by intro _; simpa using (not_le.1 hxb).le)
          · simpa using this
          · intro y hy
            rcases hmem y hy with h | h
            · rcases List.mem_cons.1 h with h | h
              · right; intro z hz
                rw [h]
                exact ((List.pairwise_cons.1 hss).1 z hz).le
              · exact .inl h
            · right; intro z hz; exact h z (List.mem_cons_of_mem _ hz)
  rcases le_or_gt (xs.head hne) x with h | h
  · exact key xs hne (List.suffix_refl _) (fun y hy => .inl hy) x (fun _ => h)
  · match xs, hs, hne with
    | a :: t, hs, hne =>
      simp only [List.head_cons] at h
      rw [List.map_cons, flin_le_first h.le]
      refine (hfirst x ?_).symm
      intro y hy
      rcases List.mem_cons.1 hy with h' | h'
      · rw [h']; exact h.le
      · exact h.le.trans ((List.pairwise_cons.1 hs).1 y h').le

end Dcf
