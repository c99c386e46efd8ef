import Verif.Lemmas.Interpolation
import Mathlib.Topology.Instances.Real.Lemmas
import Mathlib.Analysis.SpecialFunctions.Exp
import Mathlib.Topology.Piecewise

/-! # Construction of interpolation objects and schemes -/

set_option linter.unusedSectionVars false
set_option linter.unusedSimpArgs false
set_option linter.unusedVariables false

namespace Dcf

open Spec

/-- The kinds that take logarithms of their data. -/
def Kind.isLog : Kind → Bool
  | .loglinear | .loglinearrate | .logconstantrate => true
  | _ => false

/-- The kinds that interpolate rates and treat `x = 0` separately. -/
def Kind.isRate : Kind → Bool
  | .loglinearrate | .logconstantrate => true
  | _ => false

/-- Points the interpolation object actually stores (before sorting). -/
noncomputable def storedPts (k : Kind) (pts : List (ℝ × ℝ)) : List (ℝ × ℝ) :=
  match k with
  | .loglinear => pts.map fun p => (p.1, Real.log p.2)
  | .loglinearrate => (pts.filter fun p => p.1 ≠ 0).map fun p => (p.1, Real.log p.2 / p.1)
  | .logconstantrate => (pts.filter fun p => p.1 ≠ 0).map fun p => (p.1, -Real.log p.2 / p.1)
  | _ => pts

/-- The stored value at zero. -/
noncomputable def storedZero (k : Kind) (pts : List (ℝ × ℝ)) : Option ℝ :=
  if k.isRate then (pts.find? fun p => p.1 = 0).map Prod.snd else none

theorem yAtZeroOf_eq (pts : List (ℝ × ℝ)) :
    yAtZeroOf (pts.map Prod.fst) (pts.map Prod.snd) =
      .ok ((pts.find? fun p => p.1 = 0).map Prod.snd) := by
  unfold yAtZeroOf
  induction pts with
  | nil => simp
  | cons p l ih =>
    by_cases hp : p.1 = 0
    · simp [hp, pyIndex]
    · rw [List.find?_cons_of_neg (by simpa using hp), ← ih]
      have : (0 : ℝ) ≠ p.1 := fun h => hp h.symm
      simp only [List.map_cons, List.mem_cons, this, false_or]
      by_cases h : (0 : ℝ) ∈ l.map Prod.fst
      · rw [if_pos h, if_pos h, List.idxOf_cons_ne _ hp]
        simp [pyIndex]
      · rw [if_neg h, if_neg h]

theorem rateList_eq (pts : List (ℝ × ℝ)) (hpos : ∀ p ∈ pts, 0 < p.2) (s : ℝ) :
    rateList (pts.map Prod.fst) (pts.map Prod.snd) (fun x y => do pyDiv (s * (← pyLog y)) x) =
      .ok ((pts.filter fun p => p.1 ≠ 0).map fun p => s * Real.log p.2 / p.1) := by
  unfold rateList
  rw [zip_unzip']
  apply pyMap_ok
  intro p hp
  rw [List.mem_filter] at hp
  simp only
  rw [pyLog_ok (hpos p hp.1), Py.ok_bind, pyDiv_ok (by simpa using hp.2)]

theorem map_filter_fst (pts : List (ℝ × ℝ)) :
    (pts.map Prod.fst).filter (· ≠ 0) = (pts.filter fun p => p.1 ≠ 0).map Prod.fst := by
  rw [List.filter_map]; rfl

theorem Interp_new_eq (k : Kind) (pts : List (ℝ × ℝ)) (hpos : k.isLog → ∀ p ∈ pts, 0 < p.2) :
    Interp.new k (pts.map Prod.fst) (pts.map Prod.snd) =
      .ok ⟨k, ptsOf (sortPairs (storedPts k pts)), storedZero k pts⟩ := by
  have hall : (∀ p ∈ pts, 0 < p.2) → ¬ ¬ ∀ y ∈ pts.map Prod.snd, 0 < y := by
    intro h; rw [not_not]; intro y hy
    obtain ⟨p, hp, rfl⟩ := List.mem_map.1 hy
    exact h p hp
  cases k with
  | loglinear =>
    have hpos := hpos rfl
    have h1 : pyMap pyLog (pts.map Prod.snd) = .ok ((pts.map Prod.snd).map Real.log) :=
      pyMap_ok fun y hy => by
        obtain ⟨p, hp, rfl⟩ := List.mem_map.1 hy
        exact pyLog_ok (hpos p hp)
    have h2 := Pts_new_eq (pts.map fun p => (p.1, Real.log p.2))
    simp only [List.map_map, Function.comp_def] at h1 h2
    simp only [Interp.new]
    rw [if_neg (hall hpos), h1]
    simp only [Py.ok_bind, Py.pure_eq]
    rw [show Pts.new (pts.map Prod.fst) (pts.map fun x => Real.log x.2) = _ from h2]
    rfl
  | loglinearrate =>
    have hpos := hpos rfl
    have h1 := rateList_eq pts hpos 1
    have h2 := Pts_new_eq ((pts.filter fun p => p.1 ≠ 0).map fun p => (p.1, Real.log p.2 / p.1))
    simp only [List.map_map, Function.comp_def, one_mul] at h1 h2
    simp only [Interp.new]
    rw [if_neg (hall hpos), yAtZeroOf_eq]
    simp only [Py.ok_bind, Py.pure_eq, h1, map_filter_fst]
    rw [h2]; rfl
  | logconstantrate =>
    have hpos := hpos rfl
    have h1 := rateList_eq pts hpos (-1)
    have h2 := Pts_new_eq ((pts.filter fun p => p.1 ≠ 0).map fun p => (p.1, -Real.log p.2 / p.1))
    simp only [List.map_map, Function.comp_def, neg_mul, one_mul] at h1 h2
    simp only [Interp.new]
    rw [if_neg (hall hpos), yAtZeroOf_eq]
    simp only [Py.ok_bind, Py.pure_eq, h1, map_filter_fst]
    rw [h2]; rfl
  | no => simp [Interp.new, Pts_new_eq, storedPts, storedZero, Kind.isRate]
  | zero => simp [Interp.new, Pts_new_eq, storedPts, storedZero, Kind.isRate]
  | left => simp [Interp.new, Pts_new_eq, storedPts, storedZero, Kind.isRate]
  | constant => simp [Interp.new, Pts_new_eq, storedPts, storedZero, Kind.isRate]
  | right => simp [Interp.new, Pts_new_eq, storedPts, storedZero, Kind.isRate]
  | nearest => simp [Interp.new, Pts_new_eq, storedPts, storedZero, Kind.isRate]
  | linear => simp [Interp.new, Pts_new_eq, storedPts, storedZero, Kind.isRate]

theorem storedPts_nodup (k : Kind) {pts : List (ℝ × ℝ)} (h : (pts.map Prod.fst).Nodup) :
    ((storedPts k pts).map Prod.fst).Nodup := by
  have hf : ((pts.filter fun p => p.1 ≠ 0).map Prod.fst).Nodup := by
    rw [← map_filter_fst]; exact h.filter _
  cases k <;> simp only [storedPts, List.map_map, Function.comp_def] <;> assumption

theorem storedPts_perm (k : Kind) {pts pts' : List (ℝ × ℝ)} (h : pts.Perm pts') :
    (storedPts k pts).Perm (storedPts k pts') := by
  cases k <;> simp only [storedPts] <;>
    first | exact h.map _ | exact (h.filter _).map _ | exact h

theorem find_zero_eq {pts : List (ℝ × ℝ)} (h : (pts.map Prod.fst).Nodup) {y : ℝ}
    (hy : ((0 : ℝ), y) ∈ pts) : (pts.find? fun p => p.1 = 0).map Prod.snd = some y := by
  cases hf : pts.find? fun p => p.1 = 0 with
  | none =>
    have := List.find?_eq_none.1 hf _ hy
    simp at this
  | some p =>
    have h1 := List.find?_some hf
    have h2 := List.mem_of_find?_eq_some hf
    have h3 : p = (0, y) := nodup_fst_eq h h2 hy (by simpa using h1)
    simp [h3]

theorem find_zero_none {pts : List (ℝ × ℝ)} (h : ∀ p ∈ pts, p.1 ≠ 0) :
    (pts.find? fun p => p.1 = 0).map Prod.snd = none := by
  rw [Option.map_eq_none_iff, List.find?_eq_none]
  intro p hp
  simpa using h p hp

theorem storedZero_perm (k : Kind) {pts pts' : List (ℝ × ℝ)} (h : pts.Perm pts')
    (hn : (pts.map Prod.fst).Nodup) : storedZero k pts = storedZero k pts' := by
  have hn' : (pts'.map Prod.fst).Nodup := (h.map _).nodup_iff.1 hn
  unfold storedZero
  split_ifs
  · by_cases hz : ∃ y, ((0 : ℝ), y) ∈ pts
    · obtain ⟨y, hy⟩ := hz
      rw [find_zero_eq hn hy, find_zero_eq hn' (h.mem_iff.1 hy)]
    · rw [not_exists] at hz
      rw [find_zero_none, find_zero_none]
      · rintro ⟨a, b⟩ hp h0
        simp only at h0; subst h0
        exact hz b (h.mem_iff.2 hp)
      · rintro ⟨a, b⟩ hp h0
        simp only at h0; subst h0
        exact hz b hp
  · rfl

/-! ### Reproduction of nodes -/

theorem Spec.IsLeftValue.node {pts : List (ℝ × ℝ)} (h : (pts.map Prod.fst).Nodup) {x y y' : ℝ}
    (hm : (x, y) ∈ pts) (hl : IsLeftValue pts x y') : y' = y := by
  obtain ⟨p, hp, rfl, ⟨h1, h2⟩ | ⟨h1, h2⟩⟩ := hl
  · have h3 := h2 _ hm le_rfl
    rw [nodup_fst_eq h hp hm (le_antisymm h1 h3)]
  · exact absurd (h1 _ hm) (lt_irrefl _)

theorem Spec.IsRightValue.node {pts : List (ℝ × ℝ)} (h : (pts.map Prod.fst).Nodup) {x y y' : ℝ}
    (hm : (x, y) ∈ pts) (hl : IsRightValue pts x y') : y' = y := by
  obtain ⟨p, hp, rfl, ⟨h1, h2⟩ | ⟨h1, h2⟩⟩ := hl
  · have h3 := h2 _ hm le_rfl
    rw [nodup_fst_eq h hp hm (le_antisymm h3 h1)]
  · exact absurd (h1 _ hm) (lt_irrefl _)

theorem Spec.IsNearestValue.node {pts : List (ℝ × ℝ)} (h : (pts.map Prod.fst).Nodup) {x y y' : ℝ}
    (hm : (x, y) ∈ pts) (hl : IsNearestValue pts x y') : y' = y := by
  obtain ⟨p, hp, rfl, h1⟩ := hl
  have h2 := (h1 _ hm).1
  simp only [sub_self, abs_zero] at h2
  have h3 : p.1 = x := sub_eq_zero.1 (abs_eq_zero.1 (le_antisymm h2 (abs_nonneg _)))
  rw [nodup_fst_eq h hp hm h3]

theorem plin_node {l : List (ℝ × ℝ)} (hl : StrictX l) {x y : ℝ} (hm : (x, y) ∈ l) :
    plin l x = y := by
  match l, hl, hm with
  | [p], _, hm => simp at hm; rw [← hm]; rfl
  | p :: q :: t, hl, hm =>
    obtain ⟨a, b, ⟨ha, hb, hab, hno⟩, e, h1, h2⟩ := plin_linear_value hl (by simp) x
    rw [e]
    rcases hno _ hm with h | h
    · -- x ≤ a
      have hxa : a.1 = x := by
        rcases h1 with h1 | h1
        · exact le_antisymm h1 h
        · exact le_antisymm (h1 _ hm) h
      have := hl.eq_of_fst ha hm hxa
      subst this; rw [← hxa, chord_left]
    · have hxb : b.1 = x := by
        rcases h2 with h2 | h2
        · exact le_antisymm h h2
        · exact le_antisymm h (h2 _ hm)
      have := hl.eq_of_fst hb hm hxb
      rw [← hxb, chord_right hab, this]

theorem flin_node {l : List (ℝ × ℝ)} (hl : StrictX l) {x y : ℝ} (hm : (x, y) ∈ l) :
    flin l x = y := by
  have hne : l ≠ [] := List.ne_nil_of_mem hm
  rw [flin_eq_plin hl hne, plin_node hl hm]
  · obtain ⟨i, hi, e⟩ := List.getElem_of_mem hm
    rw [List.head_eq_getElem]
    exact (hl.le hi (Nat.zero_le i)).trans_eq (by rw [e])
  · obtain ⟨i, hi, e⟩ := List.getElem_of_mem hm
    rw [List.getLast_eq_getElem]
    exact (by rw [e] : x = l[i].1).trans_le (hl.le (by omega) (by omega))

theorem Spec.IsLeftValue.perm {pts pts' : List (ℝ × ℝ)} (h : pts.Perm pts') {x y : ℝ}
    (hl : IsLeftValue pts x y) : IsLeftValue pts' x y := by
  simpa only [IsLeftValue, h.mem_iff] using hl

theorem Spec.IsRightValue.perm {pts pts' : List (ℝ × ℝ)} (h : pts.Perm pts') {x y : ℝ}
    (hl : IsRightValue pts x y) : IsRightValue pts' x y := by
  simpa only [IsRightValue, h.mem_iff] using hl

theorem Spec.IsNearestValue.perm {pts pts' : List (ℝ × ℝ)} (h : pts.Perm pts') {x y : ℝ}
    (hl : IsNearestValue pts x y) : IsNearestValue pts' x y := by
  simpa only [IsNearestValue, h.mem_iff] using hl

theorem Spec.IsLinearValue.perm {pts pts' : List (ℝ × ℝ)} (h : pts.Perm pts') {x y : ℝ}
    (hl : IsLinearValue pts x y) : IsLinearValue pts' x y := by
  simpa only [IsLinearValue, Neighbours, h.mem_iff] using hl

theorem sortPairs_ne_nil {l : List (ℝ × ℝ)} (h : l ≠ []) : sortPairs l ≠ [] := by
  intro h'; have := (sortPairs_perm l).length_eq; rw [h'] at this
  exact h (List.length_eq_zero_iff.1 this.symm)

theorem leftCall_sorted {pts : List (ℝ × ℝ)} (hn : (pts.map Prod.fst).Nodup) (hne : pts ≠ [])
    (x : ℝ) : ∃ y, leftCall (ptsOf (sortPairs pts)) x = .ok y ∧ IsLeftValue pts x y := by
  obtain ⟨y, h1, h2⟩ := leftCall_spec (sortPairs_strict hn) (sortPairs_ne_nil hne) x
  exact ⟨y, h1, h2.perm (sortPairs_perm pts)⟩

theorem storedPts_mem {k : Kind} (hk : k.isRate = false) (hlog : k.isLog = false) (pts : List (ℝ × ℝ)) :
    storedPts k pts = pts := by
  cases k <;> simp_all [storedPts, Kind.isRate, Kind.isLog]

/-- Every interpolation object returns the given value at a given node. -/
theorem Interp_node (k : Kind) {pts : List (ℝ × ℝ)} (hn : (pts.map Prod.fst).Nodup)
    (hpos : k.isLog → ∀ p ∈ pts, 0 < p.2) {x y : ℝ} (hm : (x, y) ∈ pts) :
    (⟨k, ptsOf (sortPairs (storedPts k pts)), storedZero k pts⟩ : Interp).call x = .ok (some y) := by
  have hne : pts ≠ [] := List.ne_nil_of_mem hm
  have hms : (x, y) ∈ sortPairs pts := (sortPairs_perm pts).mem_iff.2 hm
  cases k with
  | no => exact (defaultCall_spec (sortPairs_strict hn) none x).1 y hms
  | zero => exact (defaultCall_spec (sortPairs_strict hn) (some 0) x).1 y hms
  | left =>
    obtain ⟨y', h1, h2⟩ := leftCall_sorted hn hne x
    simp only [Interp.call, storedPts, h1, Py.map_ok, h2.node hn hm]
  | constant =>
    obtain ⟨y', h1, h2⟩ := leftCall_sorted hn hne x
    simp only [Interp.call, storedPts, h1, Py.map_ok, h2.node hn hm]
  | right =>
    obtain ⟨y', h1, h2⟩ := rightCall_spec (sortPairs_strict hn) (sortPairs_ne_nil hne) x
    simp only [Interp.call, storedPts, h1, Py.map_ok, (h2.perm (sortPairs_perm pts)).node hn hm]
  | nearest =>
    obtain ⟨y', h1, h2⟩ := nearestCall_spec (sortPairs_strict hn) (sortPairs_ne_nil hne) x
    simp only [Interp.call, storedPts, h1, Py.map_ok, (h2.perm (sortPairs_perm pts)).node hn hm]
  | linear =>
    simp only [Interp.call, storedPts, linearCall_eq (sortPairs_strict hn) (sortPairs_ne_nil hne),
      Py.map_ok, plin_node (sortPairs_strict hn) hms]
  | loglinear =>
    have hs := sortPairs_strict (storedPts_nodup .loglinear hn)
    have hm' : (x, Real.log y) ∈ storedPts .loglinear pts := List.mem_map.2 ⟨_, hm, rfl⟩
    simp only [Interp.call, linearCall_eq hs (sortPairs_ne_nil (List.ne_nil_of_mem hm')), Py.map_ok,
      plin_node hs ((sortPairs_perm _).mem_iff.2 hm'), Real.exp_log (hpos rfl _ hm)]
  | loglinearrate =>
    by_cases hx : x = 0
    · subst hx
      simp [Interp.call, storedZero, Kind.isRate, find_zero_eq hn hm]
    · have hs := sortPairs_strict (storedPts_nodup .loglinearrate hn)
      have hm' : (x, Real.log y / x) ∈ storedPts .loglinearrate pts :=
        List.mem_map.2 ⟨_, List.mem_filter.2 ⟨hm, by simpa using hx⟩, rfl⟩
      simp only [Interp.call, hx, if_false, linearCall_eq hs (sortPairs_ne_nil (List.ne_nil_of_mem hm')),
        Py.map_ok, plin_node hs ((sortPairs_perm _).mem_iff.2 hm')]
      rw [div_mul_cancel₀ _ hx, Real.exp_log (hpos rfl _ hm)]
  | logconstantrate =>
    by_cases hx : x = 0
    · subst hx
      simp [Interp.call, storedZero, Kind.isRate, find_zero_eq hn hm]
    · have hn' := storedPts_nodup .logconstantrate hn
      have hm' : (x, -Real.log y / x) ∈ storedPts .logconstantrate pts :=
        List.mem_map.2 ⟨_, List.mem_filter.2 ⟨hm, by simpa using hx⟩, rfl⟩
      obtain ⟨y', h1, h2⟩ := leftCall_sorted hn' (List.ne_nil_of_mem hm') x
      simp only [Interp.call, hx, if_false, h1, Py.map_ok, h2.node hn' hm']
      rw [neg_div, neg_neg, div_mul_cancel₀ _ hx, Real.exp_log (hpos rfl _ hm)]

theorem Func_new_scheme (l m r : Kind) (str : Bool) {pts : List (ℝ × ℝ)} (hn : (pts.map Prod.fst).Nodup)
    (hpos : l.isLog ∨ m.isLog ∨ r.isLog → ∀ p ∈ pts, 0 < p.2) :
    Func.new (.scheme l m r str) (pts.map Prod.fst) (pts.map Prod.snd) =
      .ok (.scheme ⟨l, ptsOf (sortPairs (storedPts l pts)), storedZero l pts⟩
        ⟨m, ptsOf (sortPairs (storedPts m pts)), storedZero m pts⟩
        ⟨r, ptsOf (sortPairs (storedPts r pts)), storedZero r pts⟩) := by
  simp only [Func.new]
  rw [if_neg (by simp), if_neg (by simpa using hn), Interp_new_eq m pts (fun h => hpos (.inr (.inl h))),
    Interp_new_eq r pts (fun h => hpos (.inr (.inr h))), Interp_new_eq l pts (fun h => hpos (.inl h))]
  rfl

/-- First abscissa of the sorted stored points. -/
theorem first_xs {l : List (ℝ × ℝ)} (hne : l ≠ []) :
    pyIndex (ptsOf l).xs 0 = .ok (l.head hne).1 := by
  rw [ptsOf_xs_get (List.length_pos_iff.2 hne), List.head_eq_getElem]

theorem last_xs {l : List (ℝ × ℝ)} (hne : l ≠ []) :
    pyLast (ptsOf l).xs = .ok (l.getLast hne).1 := by
  unfold pyLast ptsOf
  rw [List.getLast?_map, List.getLast?_eq_getLast_of_ne_nil hne]; rfl

theorem storedPts_ne_nil (k : Kind) {pts : List (ℝ × ℝ)} (h : ∃ p ∈ pts, p.1 ≠ 0) :
    storedPts k pts ≠ [] := by
  obtain ⟨p, hp, h0⟩ := h
  have h1 : pts ≠ [] := List.ne_nil_of_mem hp
  have h2 : pts.filter (fun p => decide (p.1 ≠ 0)) ≠ [] :=
    List.ne_nil_of_mem (List.mem_filter.2 ⟨hp, by simpa using h0⟩)
  cases k <;> simp only [storedPts] <;> first | exact h1 | (intro h; exact h1 (List.map_eq_nil_iff.1 h)) |
    (intro h; exact h2 (List.map_eq_nil_iff.1 h))

/-! ### The default linear scheme -/

theorem linearScheme_new {pts : List (ℝ × ℝ)} (hn : (pts.map Prod.fst).Nodup) :
    Func.new linearScheme (pts.map Prod.fst) (pts.map Prod.snd) =
      .ok (.scheme ⟨.constant, ptsOf (sortPairs pts), none⟩ ⟨.linear, ptsOf (sortPairs pts), none⟩
        ⟨.constant, ptsOf (sortPairs pts), none⟩) :=
  Func_new_scheme _ _ _ _ hn (by simp [Kind.isLog])

/-- The function object of the default linear scheme. -/
def linFunc (l : List (ℝ × ℝ)) : Func :=
  .scheme ⟨.constant, ptsOf l, none⟩ ⟨.linear, ptsOf l, none⟩ ⟨.constant, ptsOf l, none⟩

theorem head_le_of_strict {l : List (ℝ × ℝ)} (hl : StrictX l) (hne : l ≠ []) {p : ℝ × ℝ} (hp : p ∈ l) :
    (l.head hne).1 ≤ p.1 := by
  obtain ⟨i, hi, rfl⟩ := List.getElem_of_mem hp
  rw [List.head_eq_getElem]; exact hl.le hi (Nat.zero_le _)

theorem le_last_of_strict {l : List (ℝ × ℝ)} (hl : StrictX l) (hne : l ≠ []) {p : ℝ × ℝ} (hp : p ∈ l) :
    p.1 ≤ (l.getLast hne).1 := by
  obtain ⟨i, hi, rfl⟩ := List.getElem_of_mem hp
  rw [List.getLast_eq_getElem]; exact hl.le (by omega) (by omega)

theorem leftCall_first {l : List (ℝ × ℝ)} (hl : StrictX l) (hne : l ≠ []) {x : ℝ}
    (h : x < (l.head hne).1) : leftCall (ptsOf l) x = .ok (l.head hne).2 := by
  obtain ⟨y, h1, p, hp, rfl, ⟨h2, h3⟩ | ⟨h2, h3⟩⟩ := leftCall_spec hl hne x
  · exact absurd (head_le_of_strict hl hne hp) (by linarith)
  · rw [h1, hl.eq_of_fst hp (List.head_mem hne)
      (le_antisymm (h3 _ (List.head_mem hne)) (head_le_of_strict hl hne hp))]

theorem leftCall_last {l : List (ℝ × ℝ)} (hl : StrictX l) (hne : l ≠ []) {x : ℝ}
    (h : (l.getLast hne).1 ≤ x) : leftCall (ptsOf l) x = .ok (l.getLast hne).2 := by
  obtain ⟨y, h1, p, hp, rfl, ⟨h2, h3⟩ | ⟨h2, h3⟩⟩ := leftCall_spec hl hne x
  · rw [h1, hl.eq_of_fst hp (List.getLast_mem hne)
      (le_antisymm (le_last_of_strict hl hne hp) (h3 _ (List.getLast_mem hne) h))]
  · exact absurd (h2 _ (List.getLast_mem hne)) (by linarith)

theorem linFunc_call {l : List (ℝ × ℝ)} (hl : StrictX l) (hne : l ≠ []) (x : ℝ) :
    (linFunc l).call x = .ok (some (flin l x)) := by
  simp only [linFunc, Func.call, first_xs hne, last_xs hne, Py.ok_bind, Interp.call]
  split_ifs with h1 h2
  · rw [leftCall_first hl hne h1, Py.map_ok]
    match l, hne with
    | p :: t, _ => rw [flin_le_first (by simpa using h1.le)]; rfl
  · rw [leftCall_last hl hne h2.le, Py.map_ok, flin_ge_last hl hne h2.le]
  · rw [linearCall_eq hl hne, Py.map_ok, flin_eq_plin hl hne (not_lt.1 h1) (not_lt.1 h2)]

/-! ### Continuity and bounds -/

theorem chord_continuous (p q : ℝ × ℝ) : Continuous (chord p q) := by
  unfold chord; fun_prop

theorem plin_continuous {l : List (ℝ × ℝ)} (hl : StrictX l) : Continuous (plin l) := by
  induction l with
  | nil => exact continuous_const
  | cons p t ih =>
    match t, hl, ih with
    | [], _, _ => exact continuous_const
    | [q], _, _ => exact chord_continuous p q
    | q :: r :: t, hl, ih =>
      have hpq : p.1 < q.1 := (List.pairwise_cons.1 hl).1 q (by simp)
      have hl' : StrictX (q :: r :: t) := (List.pairwise_cons.1 hl).2
      have e : plin (p :: q :: r :: t) =
          fun x => if x ≤ q.1 then chord p q x else plin (q :: r :: t) x := by
        funext x; rw [plin]
      rw [e]
      apply Continuous.if_le (chord_continuous p q) (ih hl') continuous_id continuous_const
      intro x hx
      simp only [id] at hx
      rw [hx, chord_right hpq, plin_node hl' (x := q.1) (y := q.2) (by simp)]

theorem flin_continuous {l : List (ℝ × ℝ)} (hl : StrictX l) : Continuous (flin l) := by
  induction l with
  | nil => exact continuous_const
  | cons p t ih =>
    match t, hl, ih with
    | [], _, _ => exact continuous_const
    | q :: t, hl, ih =>
      have hpq : p.1 < q.1 := (List.pairwise_cons.1 hl).1 q (by simp)
      have hl' : StrictX (q :: t) := (List.pairwise_cons.1 hl).2
      have e : flin (p :: q :: t) =
          fun x => if x ≤ p.1 then p.2 else if x ≤ q.1 then chord p q x else flin (q :: t) x := by
        funext x; rw [flin]
      rw [e]
      apply Continuous.if_le continuous_const _ continuous_id continuous_const
      · intro x hx
        simp only [id] at hx
        rw [hx, if_pos hpq.le, chord_left]
      · apply Continuous.if_le (chord_continuous p q) (ih hl') continuous_id continuous_const
        intro x hx
        simp only [id] at hx
        rw [hx, chord_right hpq, flin_le_first le_rfl]

theorem chord_mem {p q : ℝ × ℝ} {x a b : ℝ} (hpq : p.1 < q.1) (h1 : p.1 ≤ x) (h2 : x ≤ q.1)
    (ha1 : a ≤ p.2) (ha2 : a ≤ q.2) (hb1 : p.2 ≤ b) (hb2 : q.2 ≤ b) :
    a ≤ chord p q x ∧ chord p q x ≤ b := by
  have hd : 0 < q.1 - p.1 := sub_pos.2 hpq
  have e : chord p q x = p.2 * ((q.1 - x) / (q.1 - p.1)) + q.2 * ((x - p.1) / (q.1 - p.1)) := by
    unfold chord; field_simp; ring
  have hs : (q.1 - x) / (q.1 - p.1) + (x - p.1) / (q.1 - p.1) = 1 := by field_simp; ring
  have hu : 0 ≤ (q.1 - x) / (q.1 - p.1) := div_nonneg (by linarith) hd.le
  have hv : 0 ≤ (x - p.1) / (q.1 - p.1) := div_nonneg (by linarith) hd.le
  rw [e]
  generalize (q.1 - x) / (q.1 - p.1) = u at *
  generalize (x - p.1) / (q.1 - p.1) = v at *
  have e1 : a = a * u + a * v := by rw [← mul_add, hs, mul_one]
  have e2 : b = b * u + b * v := by rw [← mul_add, hs, mul_one]
  constructor
  · have := mul_le_mul_of_nonneg_right ha1 hu
    have := mul_le_mul_of_nonneg_right ha2 hv
    linarith
  · have := mul_le_mul_of_nonneg_right hb1 hu
    have := mul_le_mul_of_nonneg_right hb2 hv
    linarith

theorem flin_bounds {l : List (ℝ × ℝ)} (hl : StrictX l) (hne : l ≠ []) {a b : ℝ}
    (h : ∀ p ∈ l, a ≤ p.2 ∧ p.2 ≤ b) (x : ℝ) : a ≤ flin l x ∧ flin l x ≤ b := by
  induction l with
  | nil => exact absurd rfl hne
  | cons p t ih =>
    match t, hl, ih with
    | [], _, _ => exact h p (by simp)
    | q :: t, hl, ih =>
      have hpq : p.1 < q.1 := (List.pairwise_cons.1 hl).1 q (by simp)
      have hl' : StrictX (q :: t) := (List.pairwise_cons.1 hl).2
      rw [flin]
      split_ifs with h1 h2
      · exact h p (by simp)
      · exact chord_mem hpq (not_le.1 h1).le h2 (h p (by simp)).1 (h q (by simp)).1 (h p (by simp)).2
          (h q (by simp)).2
      · exact ih hl' (by simp) (fun r hr => h r (List.mem_cons_of_mem _ hr))

end Dcf
