import Verif.Lemmas.Interp
import Verif.Model.Curve
import Verif.Spec.Dates

/-! # Lemmas on curves -/

set_option linter.unusedSectionVars false
set_option linter.unusedSimpArgs false
set_option linter.unusedVariables false

namespace Dcf

open Spec

/-! ### Construction of the interpolation function -/

noncomputable def interpOf (k : Kind) (pts : List (ℝ × ℝ)) : Interp :=
  ⟨k, ptsOf (sortPairs (storedPts k pts)), storedZero k pts⟩

/-- The function object built from points. -/
noncomputable def funcOf (s : FuncSpec) (pts : List (ℝ × ℝ)) : Func :=
  match s with
  | .base k => .base (interpOf k pts)
  | .scheme l m r _ => .scheme (interpOf l pts) (interpOf m pts) (interpOf r pts)

/-- The interpolations that survive when a curve is built from another one: the class default, single classes, strings and
the scheme classes named like the variable they are kept in. -/
def KeptInterp (i : Option FuncSpec) : Prop :=
  ∀ l m r, i = some (.scheme l m r false) → (l = .constant ∧ m = .linear ∧ r = .constant) ∨
    (l = .logconstantrate ∧ m = .loglinearrate ∧ r = .logconstantrate) ∨ (l = .zero ∧ m = .linear ∧ r = .constant)

theorem keepInterp_kept {i : Option FuncSpec} (h : KeptInterp i) : keepInterp none i = .ok i := by
  match i with
  | none => rfl
  | some (.base k) => rfl
  | some (.scheme l m r true) => simp [keepInterp, FuncSpec.again]
  | some (.scheme l m r false) =>
    have := h l m r rfl
    simp only [keepInterp, FuncSpec.again]
    rw [if_pos]
    · rfl
    · right
      simp only [schemeNames, List.mem_cons, Prod.mk.injEq, List.not_mem_nil, or_false]
      exact this

theorem keepInterp_lost {i : Option FuncSpec} (h : ¬ KeptInterp i) : keepInterp none i = .error .type := by
  match i with
  | none => exact absurd (fun l m r h => by simp at h) h
  | some (.base k) => exact absurd (fun l m r h => by simp at h) h
  | some (.scheme l m r true) => exact absurd (fun l m r h => by simp at h) h
  | some (.scheme l m r false) =>
    simp only [keepInterp, FuncSpec.again]
    rw [if_neg]
    · rfl
    · intro h'
      apply h
      rintro l' m' r' ⟨⟩
      simpa [schemeNames] using h'

theorem KeptInterp.none : KeptInterp none := fun l m r h => by simp at h

/-- What is used if an argument may be given. -/
theorem keepInterp_ok {i own j : Option FuncSpec} (h : keepInterp i own = .ok j) : j = i.or own := by
  match i, own with
  | some i, _ => simp [keepInterp] at h; simp [← h]
  | none, none => simp [keepInterp] at h; simp [h]
  | none, some o =>
    by_cases hk : KeptInterp (some o)
    · rw [keepInterp_kept hk] at h; simp at h; simp [h]
    · rw [keepInterp_lost hk] at h; simp at h

theorem keepInterp_error {i own : Option FuncSpec} {e : PyErr} (h : keepInterp i own = .error e) : e = .type := by
  match i, own with
  | some i, _ => simp [keepInterp] at h
  | none, none => simp [keepInterp] at h
  | none, some o =>
    by_cases hk : KeptInterp (some o)
    · rw [keepInterp_kept hk] at h; simp at h
    · rw [keepInterp_lost hk] at h; simp at h; simp [h]

/-- Some part takes logarithms. -/
def FuncSpec.isLog : FuncSpec → Bool
  | .base k => k.isLog
  | .scheme l m r _ => l.isLog || m.isLog || r.isLog

/-- Some part interpolates rates, zero is special. -/
def FuncSpec.isRate : FuncSpec → Bool
  | .base k => k.isRate
  | .scheme l m r _ => l.isRate || m.isRate || r.isRate

/-- A point with non-zero abscissa is needed to call the function. -/
def FuncSpec.needsNonzero : FuncSpec → Bool
  | .base _ => false
  | .scheme l _ r _ => l.isRate || r.isRate

theorem Func_new_eq (s : FuncSpec) {pts : List (ℝ × ℝ)} (hn : (pts.map Prod.fst).Nodup)
    (hpos : s.isLog → ∀ p ∈ pts, 0 < p.2) :
    Func.new s (pts.map Prod.fst) (pts.map Prod.snd) = .ok (funcOf s pts) := by
  cases s with
  | base k => simp only [Func.new, Interp_new_eq k pts hpos]; rfl
  | scheme l m r str =>
    rw [Func_new_scheme l m r str hn (by intro h; apply hpos; simp [FuncSpec.isLog]; tauto)]; rfl

theorem interpOf_perm (k : Kind) {pts pts' : List (ℝ × ℝ)} (h : pts.Perm pts')
    (hn : (pts.map Prod.fst).Nodup) : interpOf k pts = interpOf k pts' := by
  unfold interpOf
  rw [sortPairs_congr (storedPts_perm k h), storedZero_perm k h hn]

theorem funcOf_perm (s : FuncSpec) {pts pts' : List (ℝ × ℝ)} (h : pts.Perm pts')
    (hn : (pts.map Prod.fst).Nodup) : funcOf s pts = funcOf s pts' := by
  cases s <;> simp only [funcOf, interpOf_perm _ h hn]

theorem fitFunc_eq (s : FuncSpec) {pts : List (ℝ × ℝ)} (hn : (pts.map Prod.fst).Nodup)
    (hpos : s.isLog → ∀ p ∈ pts, 0 < p.2) :
    fitFunc s (pts.map Prod.fst) (pts.map Prod.snd) =
      .ok ((sortPairs pts).map Prod.fst, funcOf s pts) := by
  have hp := sortPairs_perm pts
  simp only [fitFunc]
  rw [zip_unzip', Func_new_eq s ((hp.map _).nodup_iff.2 hn)
    (fun h p hm => hpos h p (hp.mem_iff.1 hm)), funcOf_perm s hp ((hp.map _).nodup_iff.2 hn)]
  rfl

theorem storedPts_ne_nil' {k : Kind} {pts : List (ℝ × ℝ)} (hne : pts ≠ [])
    (h : k.isRate → ∃ p ∈ pts, p.1 ≠ 0) : storedPts k pts ≠ [] := by
  cases hk : k.isRate with
  | true => exact storedPts_ne_nil k (h hk)
  | false => cases k <;> simp_all [storedPts, Kind.isRate]

theorem funcOf_node (s : FuncSpec) {pts : List (ℝ × ℝ)} (hn : (pts.map Prod.fst).Nodup)
    (hpos : s.isLog → ∀ p ∈ pts, 0 < p.2) (h0 : s.needsNonzero → ∃ p ∈ pts, p.1 ≠ 0)
    {x y : ℝ} (hm : (x, y) ∈ pts) : (funcOf s pts).call x = .ok (some y) := by
  have hne := List.ne_nil_of_mem hm
  cases s with
  | base k => exact Interp_node k hn hpos hm
  | scheme l m r str =>
    have h1 : storedPts l pts ≠ [] :=
      storedPts_ne_nil' hne fun h => h0 (by simp [FuncSpec.needsNonzero, h])
    have h2 : storedPts r pts ≠ [] :=
      storedPts_ne_nil' hne fun h => h0 (by simp [FuncSpec.needsNonzero, h])
    simp only [funcOf, Func.call, interpOf, first_xs (sortPairs_ne_nil h1),
      last_xs (sortPairs_ne_nil h2), Py.ok_bind]
    split_ifs
    · exact Interp_node l hn (fun h => hpos (by simp [FuncSpec.isLog, h])) hm
    · exact Interp_node r hn (fun h => hpos (by simp [FuncSpec.isLog, h])) hm
    · exact Interp_node m hn (fun h => hpos (by simp [FuncSpec.isLog, h])) hm

theorem funcOf_linear (pts : List (ℝ × ℝ)) : funcOf linearScheme pts = linFunc (sortPairs pts) := by
  simp [funcOf, linearScheme, interpOf, linFunc, storedPts, storedZero, Kind.isRate]

theorem funcOf_linear_call {pts : List (ℝ × ℝ)} (hn : (pts.map Prod.fst).Nodup) (hne : pts ≠ [])
    (x : ℝ) : (funcOf linearScheme pts).call x = .ok (some (flin (sortPairs pts) x)) := by
  rw [funcOf_linear]
  exact linFunc_call (sortPairs_strict hn) (sortPairs_ne_nil hne) x

/-! ### Plain curves -/

/-- A curve built from points. -/
noncomputable def curveOf (i : Option FuncSpec) (pts : List (ℝ × ℝ)) : Curve :=
  ⟨(sortPairs pts).map Prod.fst, i, funcOf (i.getD linearScheme) pts⟩

theorem Curve_new_eq (i : Option FuncSpec) {pts : List (ℝ × ℝ)} (hn : (pts.map Prod.fst).Nodup)
    (hpos : (i.getD linearScheme).isLog → ∀ p ∈ pts, 0 < p.2) :
    Curve.new (pts.map Prod.fst) (pts.map Prod.snd) i = .ok (curveOf i pts) := by
  simp only [Curve.new]
  rw [if_neg (by simp), fitFunc_eq _ hn hpos]
  rfl

theorem curveOf_perm (i : Option FuncSpec) {pts pts' : List (ℝ × ℝ)} (h : pts.Perm pts')
    (hn : (pts.map Prod.fst).Nodup) : curveOf i pts = curveOf i pts' := by
  unfold curveOf; rw [sortPairs_congr h, funcOf_perm _ h hn]

theorem curveOf_node (i : Option FuncSpec) {pts : List (ℝ × ℝ)} (hn : (pts.map Prod.fst).Nodup)
    (hpos : (i.getD linearScheme).isLog → ∀ p ∈ pts, 0 < p.2)
    (h0 : (i.getD linearScheme).needsNonzero → ∃ p ∈ pts, p.1 ≠ 0) {x y : ℝ} (hm : (x, y) ∈ pts) :
    (curveOf i pts).call x = .ok (some y) := funcOf_node _ hn hpos h0 hm

theorem curveOf_values (i : Option FuncSpec) {pts : List (ℝ × ℝ)} (hn : (pts.map Prod.fst).Nodup)
    (hpos : (i.getD linearScheme).isLog → ∀ p ∈ pts, 0 < p.2)
    (h0 : (i.getD linearScheme).needsNonzero → ∃ p ∈ pts, p.1 ≠ 0) :
    pyMap (curveOf i pts).num (curveOf i pts).domain = .ok ((sortPairs pts).map Prod.snd) := by
  have : ∀ l : List (ℝ × ℝ), (∀ p ∈ l, p ∈ pts) →
      pyMap (curveOf i pts).num (l.map Prod.fst) = .ok (l.map Prod.snd) := by
    intro l
    induction l with
    | nil => intro _; rfl
    | cons p l ih =>
      intro h
      have hp : (curveOf i pts).num p.1 = .ok p.2 := by
        simp [Curve.num, curveOf_node i hn hpos h0 (h p (by simp)), pyNum]
      rw [List.map_cons, pyMap_cons, hp, Py.ok_bind, ih fun q hq => h q (by simp [hq])]; rfl
  exact this _ fun p hp => (sortPairs_perm pts).mem_iff.1 hp

/-! ### Assignment -/

section SetPoint
variable {D : Type} [DecidableEq D]

/-- Points after an assignment. -/
def putPt (l : List (D × ℝ)) (k : D) (v : ℝ) : List (D × ℝ) :=
  if k ∈ l.map Prod.fst then l.map (fun p => if p.1 = k then (k, v) else p) else l ++ [(k, v)]

theorem setPoint_eq {l : List (D × ℝ)} (hn : (l.map Prod.fst).Nodup) (k : D) (v : ℝ) :
    setPoint (l.map Prod.fst) (l.map Prod.snd) k v =
      ((putPt l k v).map Prod.fst, (putPt l k v).map Prod.snd) := by
  unfold setPoint putPt
  split_ifs with h
  · have e1 : (l.map fun p => if p.1 = k then (k, v) else p).map Prod.fst = l.map Prod.fst := by
      rw [List.map_map]
      apply List.map_congr_left
      intro p _
      simp only [Function.comp]
      split_ifs with h <;> simp [h]
    rw [e1]
    congr 1
    induction l with
    | nil => simp at h
    | cons p l ih =>
      simp only [List.map_cons, List.nodup_cons] at hn
      by_cases hp : p.1 = k
      · have hno : l.map (fun q => if q.1 = k then (k, v) else q) = l := by
          conv_rhs => rw [← List.map_id l]
          apply List.map_congr_left
          intro q hq
          have : q.1 ≠ k := fun e => hn.1 (List.mem_map.2 ⟨q, hq, e.trans hp.symm⟩)
          simp [this]
        simp [hp, hno]
      · have hk : k ∈ l.map Prod.fst := by
          rcases List.mem_cons.1 h with h | h
          · exact absurd h.symm hp
          · exact h
        have e2 : (l.map fun p => if p.1 = k then (k, v) else p).map Prod.fst = l.map Prod.fst := by
          rw [List.map_map]
          apply List.map_congr_left
          intro p _
          simp only [Function.comp]
          split_ifs with h <;> simp [h]
        simp only [List.map_cons, List.idxOf_cons_ne _ hp, List.set_cons_succ, if_neg hp]
        rw [ih hn.2 hk e2]
  · simp

theorem putPt_mem {l : List (D × ℝ)} {k : D} {v : ℝ} {p : D × ℝ} :
    p ∈ putPt l k v ↔ p = (k, v) ∨ (p ∈ l ∧ p.1 ≠ k) := by
  unfold putPt
  split_ifs with h
  · rw [List.mem_map]
    constructor
    · rintro ⟨q, hq, rfl⟩
      split_ifs with e
      · exact .inl rfl
      · exact .inr ⟨hq, e⟩
    · rintro (rfl | ⟨hp, e⟩)
      · obtain ⟨q, hq, e⟩ := List.mem_map.1 h
        exact ⟨q, hq, by simp [e]⟩
      · exact ⟨p, hp, by simp [e]⟩
  · simp only [List.mem_append, List.mem_singleton]
    constructor
    · rintro (hp | rfl)
      · exact .inr ⟨hp, fun e => h (List.mem_map.2 ⟨p, hp, e⟩)⟩
      · exact .inl rfl
    · rintro (rfl | ⟨hp, -⟩)
      · exact .inr rfl
      · exact .inl hp

theorem putPt_nodup {l : List (D × ℝ)} (hn : (l.map Prod.fst).Nodup) (k : D) (v : ℝ) :
    ((putPt l k v).map Prod.fst).Nodup := by
  unfold putPt
  split_ifs with h
  · have e1 : (l.map fun p => if p.1 = k then (k, v) else p).map Prod.fst = l.map Prod.fst := by
      rw [List.map_map]
      apply List.map_congr_left
      intro p _
      simp only [Function.comp]
      split_ifs with h <;> simp [h]
    rw [e1]; exact hn
  · rw [List.map_append, List.nodup_append]
    refine ⟨hn, by simp, ?_⟩
    intro a ha b hb e
    simp only [List.map_cons, List.map_nil, List.mem_singleton] at hb
    subst hb; subst e; exact h ha

theorem putPt_perm_nodup {l l' : List (D × ℝ)} (h : l.Perm l') (hn : (l.map Prod.fst).Nodup) (k : D) (v : ℝ) :
    (putPt l k v).Perm (putPt l' k v) := by
  have hn' := (h.map Prod.fst).nodup_iff.1 hn
  apply (List.perm_ext_iff_of_nodup (List.Nodup.of_map _ (putPt_nodup hn k v))
    (List.Nodup.of_map _ (putPt_nodup hn' k v))).2
  intro p
  rw [putPt_mem, putPt_mem, h.mem_iff]

end SetPoint

theorem Curve_setitem_eq (i : Option FuncSpec) {pts : List (ℝ × ℝ)} (hn : (pts.map Prod.fst).Nodup)
    (hpos : (i.getD linearScheme).isLog → ∀ p ∈ pts, 0 < p.2)
    (h0 : (i.getD linearScheme).needsNonzero → ∃ p ∈ pts, p.1 ≠ 0) (k v : ℝ)
    (hv : (i.getD linearScheme).isLog → 0 < v) :
    (curveOf i pts).setitem k v = .ok (curveOf i (putPt pts k v)) := by
  have hp := sortPairs_perm pts
  have hns := (hp.map Prod.fst).nodup_iff.2 hn
  unfold Curve.setitem
  rw [curveOf_values i hn hpos h0, Py.ok_bind]
  simp only [show (curveOf i pts).domain = (sortPairs pts).map Prod.fst from rfl, setPoint_eq hns,
    show (curveOf i pts).interp = i from rfl]
  rw [fitFunc_eq _ (putPt_nodup hns k v), Py.ok_bind]
  · have hpp := putPt_perm_nodup hp hns k v
    simp only [curveOf, sortPairs_congr hpp, funcOf_perm _ hpp (putPt_nodup hns k v)]
  · intro hl p hm
    rcases putPt_mem.1 hm with rfl | ⟨hm, -⟩
    · exact hv hl
    · exact hpos hl p (hp.mem_iff.1 hm)

/-! ### Linear curves -/

/-- Value of a default curve. -/
theorem curveOf_linear {i : Option FuncSpec} (hi : i.getD linearScheme = linearScheme)
    {pts : List (ℝ × ℝ)} (hn : (pts.map Prod.fst).Nodup) (hne : pts ≠ []) (x : ℝ) :
    (curveOf i pts).call x = .ok (some (flin (sortPairs pts) x)) := by
  simp only [curveOf, Curve.call, hi, funcOf_linear_call hn hne]

/-! ### Translation -/

/-- Move points along the x axis. -/
def shiftPts (h : ℝ) (pts : List (ℝ × ℝ)) : List (ℝ × ℝ) := pts.map fun p => (p.1 + h, p.2)

theorem sortPairs_shift (h : ℝ) (l : List (ℝ × ℝ)) : sortPairs (shiftPts h l) = shiftPts h (sortPairs l) := by
  unfold sortPairs shiftPts
  rw [List.map_insertionSort (r := pairLe) (s := pairLe)]
  intro a _ b _
  simp [pairLe]

theorem storedPts_shift (h : ℝ) {k : Kind} (hk : k.isRate = false) (pts : List (ℝ × ℝ)) :
    storedPts k (shiftPts h pts) = shiftPts h (storedPts k pts) := by
  cases k <;> simp_all [storedPts, shiftPts, Kind.isRate]

theorem bisectLeft_shift (h x : ℝ) (a : List ℝ) (lo hi : ℕ) :
    bisectLeft (a.map (· + h)) (x + h) lo hi = bisectLeft a x lo hi := by
  unfold bisectLeft
  generalize hi - lo = n
  induction n generalizing lo hi with
  | zero => rfl
  | succ n ih =>
    simp only [bisectLeftGo, List.getElem?_map]
    split_ifs
    · cases a[(lo + hi) / 2]? with
      | none => rfl
      | some y => simp only [Option.map_some, add_lt_add_iff_right, ih]
    · rfl

theorem bisectRight_shift (h x : ℝ) (a : List ℝ) (lo hi : ℕ) :
    bisectRight (a.map (· + h)) (x + h) lo hi = bisectRight a x lo hi := by
  unfold bisectRight
  generalize hi - lo = n
  induction n generalizing lo hi with
  | zero => rfl
  | succ n ih =>
    simp only [bisectRightGo, List.getElem?_map]
    split_ifs
    · cases a[(lo + hi) / 2]? with
      | none => rfl
      | some y => simp only [Option.map_some, add_lt_add_iff_right, ih]
    · rfl

theorem ptsOf_shift (h : ℝ) (l : List (ℝ × ℝ)) :
    ptsOf (shiftPts h l) = ⟨(ptsOf l).xs.map (· + h), (ptsOf l).ys⟩ := by
  simp [ptsOf, shiftPts, Function.comp_def]

theorem idxOf_shift (h x : ℝ) (a : List ℝ) : (a.map (· + h)).idxOf (x + h) = a.idxOf x := by
  induction a with
  | nil => rfl
  | cons b a ih =>
    by_cases hb : b = x
    · simp [hb]
    · rw [List.map_cons, List.idxOf_cons_ne _ (by simpa using hb), List.idxOf_cons_ne _ hb, ih]

theorem mem_shift (h x : ℝ) (a : List ℝ) : x + h ∈ a.map (· + h) ↔ x ∈ a := by simp

theorem pyIndex_map {α β} (f : α → β) (l : List α) (i : ℕ) : pyIndex (l.map f) i = f <$> pyIndex l i := by
  unfold pyIndex
  rw [List.getElem?_map]
  cases l[i]? <;> rfl

theorem pyLast_getLast {α} {l : List α} (h : l ≠ []) : pyLast l = .ok (l.getLast h) := by
  unfold pyLast; rw [List.getLast?_eq_some_getLast h]

theorem pyLast_congr {α} {l l' : List α} (h : l.getLast? = l'.getLast?) : pyLast l = pyLast l' := by
  unfold pyLast; rw [h]

theorem pyLast_map {α β} (f : α → β) (l : List α) : pyLast (l.map f) = f <$> pyLast l := by
  unfold pyLast
  rw [List.getLast?_map]
  cases l.getLast? <;> rfl

theorem leftCall_shift (h x : ℝ) (p : Pts ℝ) :
    leftCall ⟨p.xs.map (· + h), p.ys⟩ (x + h) = leftCall p x := by
  simp only [leftCall, mem_shift, idxOf_shift, bisectLeft_shift, List.length_map]

theorem rightCall_shift (h x : ℝ) (p : Pts ℝ) :
    rightCall ⟨p.xs.map (· + h), p.ys⟩ (x + h) = rightCall p x := by
  simp only [rightCall, mem_shift, idxOf_shift, bisectRight_shift, List.length_map]

theorem defaultCall_shift (h x : ℝ) (d : Option ℝ) (p : Pts ℝ) :
    defaultCall ⟨p.xs.map (· + h), p.ys⟩ d (x + h) = defaultCall p d x := by
  simp only [defaultCall, mem_shift, idxOf_shift]

theorem linearCall_shift (h x : ℝ) (p : Pts ℝ) :
    linearCall ⟨p.xs.map (· + h), p.ys⟩ (x + h) = linearCall p x := by
  simp only [linearCall, bisectLeft_shift, List.length_map, pyIndex_map]
  split_ifs <;> try rfl
  cases bisectLeft p.xs x 1 (p.xs.length - 1) with
  | error e => rfl
  | ok i =>
    simp only [Py.ok_bind]
    cases pyIndex p.ys (i - 1) with
    | error e => rfl
    | ok yl =>
      cases pyIndex p.ys i with
      | error e => rfl
      | ok yr =>
        cases pyIndex p.xs (i - 1) with
        | error e => rfl
        | ok xl =>
          cases pyIndex p.xs i with
          | error e => rfl
          | ok xr => simp

theorem nearestCall_shift (h x : ℝ) (p : Pts ℝ) :
    nearestCall ⟨p.xs.map (· + h), p.ys⟩ (x + h) = nearestCall p x := by
  simp only [nearestCall, bisectLeft_shift, mem_shift, idxOf_shift, List.length_map, pyIndex_map]
  split_ifs <;> try rfl
  cases bisectLeft p.xs x 1 (p.xs.length - 1) with
  | error e => rfl
  | ok i =>
    simp only [Py.ok_bind]
    cases pyIndex p.xs (i - 1) with
    | error e => rfl
    | ok xl =>
      cases pyIndex p.xs i with
      | error e => rfl
      | ok xr => simp

theorem interpOf_shift (h x : ℝ) {k : Kind} (hk : k.isRate = false) (pts : List (ℝ × ℝ)) :
    (interpOf k (shiftPts h pts)).call (x + h) = (interpOf k pts).call x := by
  unfold interpOf
  rw [storedPts_shift h hk, sortPairs_shift, ptsOf_shift]
  cases k <;> simp_all only [Interp.call, leftCall_shift, rightCall_shift, defaultCall_shift,
    linearCall_shift, nearestCall_shift, Kind.isRate, Bool.true_eq_false]

/-- Values do not change when nodes and argument move together. -/
theorem funcOf_shift (h x : ℝ) {s : FuncSpec} (hs : s.isRate = false) (pts : List (ℝ × ℝ)) :
    (funcOf s (shiftPts h pts)).call (x + h) = (funcOf s pts).call x := by
  cases s with
  | base k => exact interpOf_shift h x hs pts
  | scheme l m r str =>
    simp only [FuncSpec.isRate, Bool.or_eq_false_iff] at hs
    obtain ⟨⟨hl, hm⟩, hr⟩ := hs
    simp only [funcOf, Func.call, interpOf_shift h x hl, interpOf_shift h x hm, interpOf_shift h x hr]
    simp only [interpOf, storedPts_shift h hl, storedPts_shift h hr, sortPairs_shift, ptsOf_shift,
      pyIndex_map, pyLast_map]
    cases pyIndex (ptsOf (sortPairs (storedPts l pts))).xs 0 with
    | error e => rfl
    | ok x0 =>
      simp only [Py.map_ok, Py.ok_bind, add_lt_add_iff_right]
      split_ifs
      · rfl
      · cases pyLast (ptsOf (sortPairs (storedPts r pts))).xs with
        | error e => rfl
        | ok xn => simp only [Py.map_ok, Py.ok_bind, add_lt_add_iff_right]

/-- The same on the level of the constructor, including its errors. -/
theorem fitFunc_congr_perm (s : FuncSpec) {pts pts' : List (ℝ × ℝ)} (h : pts.Perm pts') :
    fitFunc s (pts.map Prod.fst) (pts.map Prod.snd) = fitFunc s (pts'.map Prod.fst) (pts'.map Prod.snd) := by
  unfold fitFunc
  rw [zip_unzip', zip_unzip', sortPairs_congr h]

/-! ### Date curves -/

section Date
variable {D P : Type} [DecidableEq D] (cal : Cal D P)

/-- Day count function of an argument that works. -/
def DayCountArg.fn {D P : Type} (cal : Cal D P) : DayCountArg D → D → D → ℝ
  | .default => cal.dayCount
  | .func f _ => f
  | .named (some f) => f
  | .named none => fun _ _ => 0

def DayCountArg.Usable {D : Type} : DayCountArg D → Prop
  | .named none => False
  | _ => True

theorem DayCountArg.eval_eq {d : DayCountArg D} (h : d.Usable) (s e : D) :
    d.eval cal s e = .ok (d.fn cal s e) := by
  match d, h with
  | .default, _ => rfl
  | .func _ _, _ => rfl
  | .named (some _), _ => rfl

/-- Points in time measured from `o`. -/
def timePts (τ : D → D → ℝ) (o : D) (pts : List (D × ℝ)) : List (ℝ × ℝ) :=
  pts.map fun p => (τ o p.1, p.2)

theorem timePts_fst (τ : D → D → ℝ) (o : D) (pts : List (D × ℝ)) :
    (timePts τ o pts).map Prod.fst = (pts.map Prod.fst).map (τ o) := by
  simp [timePts, Function.comp_def]

theorem timePts_snd (τ : D → D → ℝ) (o : D) (pts : List (D × ℝ)) :
    (timePts τ o pts).map Prod.snd = pts.map Prod.snd := by
  simp [timePts, Function.comp_def]

/-- A date curve built from points with origin `o`. -/
noncomputable def dateCurveOf (τ : D → D → ℝ) (o : D) (o? : Option D) (dc : DayCountArg D)
    (i : Option FuncSpec) (dflt : FuncSpec) (pts : List (D × ℝ)) : DateCurve D :=
  ⟨pts.map Prod.fst, o?, dc, i, dflt, [], funcOf (i.getD dflt) (timePts τ o pts)⟩

theorem time_eq {c : DateCurve D} {o : D} (ho : c.origin = some o) (hd : c.dc.Usable) (x : D) :
    c.time cal x = .ok (c.dc.fn cal o x) := by
  simp [DateCurve.time, ho, pyDate, DateCurve.dayCount, DayCountArg.eval_eq cal hd]

theorem update_eq {c : DateCurve D} {o : D} (ho : c.origin = some o) (hd : c.dc.Usable)
    {pts : List (D × ℝ)} (hn : ((timePts (c.dc.fn cal) o pts).map Prod.fst).Nodup)
    (hpos : (c.interp.getD c.dflt).isLog → ∀ p ∈ pts, 0 < p.2) :
    c.update cal (pts.map Prod.fst) (pts.map Prod.snd) =
      .ok { c with domain := pts.map Prod.fst,
                   func := funcOf (c.interp.getD c.dflt) (timePts (c.dc.fn cal) o pts) } := by
  unfold DateCurve.update
  rw [pyMap_ok (g := c.dc.fn cal o) fun x _ => time_eq cal ho hd x, Py.ok_bind, ← timePts_fst,
    ← timePts_snd (c.dc.fn cal) o pts, fitFunc_eq _ hn]
  · rfl
  · intro hl p hp
    obtain ⟨q, hq, rfl⟩ := List.mem_map.1 hp
    exact hpos hl q hq

theorem DateCurve_new_eq (i : Option FuncSpec) (o? : Option D) (dc : DayCountArg D) (dflt : FuncSpec)
    {pts : List (D × ℝ)} {o : D} (ho : o?.or (pts.map Prod.fst).head? = some o) (hd : dc.Usable)
    (hn : ((timePts (dc.fn cal) o pts).map Prod.fst).Nodup)
    (hpos : (i.getD dflt).isLog → ∀ p ∈ pts, 0 < p.2) :
    DateCurve.new cal (pts.map Prod.fst) (pts.map Prod.snd) i o? dc dflt =
      .ok (dateCurveOf (dc.fn cal) o o? dc i dflt pts) := by
  simp only [DateCurve.new]
  rw [if_neg (by simp), update_eq cal (o := o) (by simpa [DateCurve.origin] using ho) hd hn hpos]
  rfl

/-- The plain fields of a new date curve. -/
theorem DateCurve_new_fields {xs : List D} {ys : List ℝ} {i : Option FuncSpec} {o? : Option D} {dc : DayCountArg D}
    {dflt : FuncSpec} {c : DateCurve D} (h : DateCurve.new cal xs ys i o? dc dflt = .ok c) :
    c.domain = xs ∧ c.origin? = o? ∧ c.dc = dc ∧ c.interp = i ∧ c.dflt = dflt ∧ c.fixings = [] ∧
      xs.length = ys.length := by
  by_cases hl : xs.length = ys.length
  · simp only [DateCurve.new, hl, not_true_eq_false, if_false, Py.pure_eq, Py.ok_bind, DateCurve.update,
      Py.bind_eq_ok] at h
    obtain ⟨_, _, ⟨_, _⟩, _, h⟩ := h
    rw [← Except.ok.inj h]
    exact ⟨rfl, rfl, rfl, rfl, rfl, rfl, hl⟩
  · simp only [DateCurve.new, hl, not_false_eq_true, if_true, Py.throw_eq, Py.error_bind] at h
    cases h

theorem dateCurveOf_origin {τ : D → D → ℝ} {o : D} {o? : Option D} {dc : DayCountArg D}
    {i : Option FuncSpec} {dflt : FuncSpec} {pts : List (D × ℝ)}
    (ho : o?.or (pts.map Prod.fst).head? = some o) :
    (dateCurveOf τ o o? dc i dflt pts).origin = some o := ho

theorem DateCurve_call {c : DateCurve D} {o : D} (ho : c.origin = some o) (hd : c.dc.Usable) {x : D}
    (hx : c.fixings.get x = none) : c.call cal x = c.func.call (c.dc.fn cal o x) := by
  simp [DateCurve.call, hx, time_eq cal ho hd]

theorem dateCurveOf_call {o : D} {o? : Option D} {dc : DayCountArg D}
    {i : Option FuncSpec} {dflt : FuncSpec} {pts : List (D × ℝ)}
    (ho : o?.or (pts.map Prod.fst).head? = some o) (hd : dc.Usable) (x : D) :
    (dateCurveOf (dc.fn cal) o o? dc i dflt pts).call cal x =
      (funcOf (i.getD dflt) (timePts (dc.fn cal) o pts)).call (dc.fn cal o x) :=
  DateCurve_call cal (c := dateCurveOf (dc.fn cal) o o? dc i dflt pts) (dateCurveOf_origin ho) hd rfl

end Date

section Ordered
variable {D P : Type} [LinearOrder D] (cal : Cal D P)

theorem timePts_perm (τ : D → D → ℝ) (o : D) {pts pts' : List (D × ℝ)} (h : pts.Perm pts') :
    (timePts τ o pts).Perm (timePts τ o pts') := h.map _

theorem timePts_nodup {τ : D → D → ℝ} (hτ : GoodDayCount τ) (o : D) {pts : List (D × ℝ)}
    (hn : (pts.map Prod.fst).Nodup) : ((timePts τ o pts).map Prod.fst).Nodup := by
  rw [timePts_fst]; exact hn.map (hτ.inj o)

theorem timePts_shift {τ : D → D → ℝ} (hτ : GoodDayCount τ) (o o' : D) (pts : List (D × ℝ)) :
    timePts τ o pts = shiftPts (τ o o') (timePts τ o' pts) := by
  unfold timePts shiftPts
  rw [List.map_map]
  apply List.map_congr_left
  intro p _
  simp only [Function.comp, Prod.mk.injEq, and_true]
  rw [← hτ.add o o' p.1]; ring

/-- Values do not depend on the origin. -/
theorem dateCurve_origin_indep {τ : D → D → ℝ} (hτ : GoodDayCount τ) {s : FuncSpec} (hs : s.isRate = false)
    (o o' x : D) (pts : List (D × ℝ)) :
    (funcOf s (timePts τ o pts)).call (τ o x) = (funcOf s (timePts τ o' pts)).call (τ o' x) := by
  rw [timePts_shift hτ o o', ← hτ.add o o' x, add_comm (τ o o'), funcOf_shift _ _ hs]

theorem DateCurve_values {c : DateCurve D} {o : D} (ho : c.origin = some o) (hd : c.dc.Usable)
    (hτ : GoodDayCount (c.dc.fn cal)) (hfix : c.fixings = []) {pts : List (D × ℝ)}
    (hn : (pts.map Prod.fst).Nodup)
    (hf : c.func = funcOf (c.interp.getD c.dflt) (timePts (c.dc.fn cal) o pts))
    (hpos : (c.interp.getD c.dflt).isLog → ∀ p ∈ pts, 0 < p.2)
    (h0 : (c.interp.getD c.dflt).needsNonzero → ∃ p ∈ pts, p.1 ≠ o) {x : D} {y : ℝ} (hm : (x, y) ∈ pts) :
    c.call cal x = .ok (some y) := by
  rw [DateCurve_call cal ho hd (by rw [hfix]; rfl), hf]
  refine funcOf_node _ (timePts_nodup hτ o hn) (fun h p hp => ?_) (fun h => ?_)
    (List.mem_map.2 ⟨_, hm, rfl⟩)
  · obtain ⟨q, hq, rfl⟩ := List.mem_map.1 hp
    exact hpos h q hq
  · obtain ⟨p, hp, hne⟩ := h0 h
    exact ⟨_, List.mem_map.2 ⟨p, hp, rfl⟩, hτ.ne_zero (Ne.symm hne)⟩

end Ordered

end Dcf

namespace Dcf

/-! ### Combinations of piecewise linear functions -/

theorem flin_left {l : List (ℝ × ℝ)} (hne : l ≠ []) {x : ℝ} (h : ∀ p ∈ l, x ≤ p.1) :
    flin l x = (l.head hne).2 := by
  obtain ⟨p, t, rfl⟩ := List.exists_cons_of_ne_nil hne
  exact flin_le_first (h p (by simp))

theorem flin_right {l : List (ℝ × ℝ)} (hl : StrictX l) (hne : l ≠ []) {x : ℝ} (h : ∀ p ∈ l, p.1 ≤ x) :
    flin l x = (l.getLast hne).2 := flin_ge_last hl hne (h _ (List.getLast_mem hne))

theorem strict_head_le {xs : List ℝ} (hs : xs.Pairwise (· < ·)) (hne : xs ≠ []) {y : ℝ} (hy : y ∈ xs) :
    xs.head hne ≤ y := by
  obtain ⟨a, t, rfl⟩ := List.exists_cons_of_ne_nil hne
  rcases List.mem_cons.1 hy with rfl | h
  · exact le_rfl
  · exact ((List.pairwise_cons.1 hs).1 y h).le

theorem strict_le_last {xs : List ℝ} (hs : xs.Pairwise (· < ·)) (hne : xs ≠ []) {y : ℝ} (hy : y ∈ xs) :
    y ≤ xs.getLast hne := by
  obtain ⟨i, hi, rfl⟩ := List.getElem_of_mem hy
  rw [List.getLast_eq_getElem]
  rcases Nat.eq_or_lt_of_le (Nat.le_sub_one_of_lt hi) with h | h
  · simp only [h, le_refl]
  · exact (List.pairwise_iff_getElem.1 hs _ _ hi (by omega) h).le

/-- A combination of two flat extrapolated piecewise linear functions is the one through its values on
any grid containing both node sets. -/
theorem flin_comb {A B : List (ℝ × ℝ)} (hA : StrictX A) (hB : StrictX B) (hA0 : A ≠ []) (hB0 : B ≠ [])
    {xs : List ℝ} (hs : xs.Pairwise (· < ·)) (hAx : ∀ p ∈ A, p.1 ∈ xs) (hBx : ∀ p ∈ B, p.1 ∈ xs)
    (c d x : ℝ) :
    flin (xs.map fun x => (x, c * flin A x + d * flin B x)) x = c * flin A x + d * flin B x := by
  have hne : xs ≠ [] := List.ne_nil_of_mem (hAx _ (List.head_mem hA0))
  refine flin_unique (g := fun x => c * flin A x + d * flin B x) hs hne ?_ ?_ ?_ x
  · intro x hx
    rw [flin_left hA0 fun p hp => hx _ (hAx p hp), flin_left hB0 fun p hp => hx _ (hBx p hp),
      flin_left hA0 fun p hp => strict_head_le hs hne (hAx p hp),
      flin_left hB0 fun p hp => strict_head_le hs hne (hBx p hp)]
  · intro x hx
    rw [flin_right hA hA0 fun p hp => hx _ (hAx p hp), flin_right hB hB0 fun p hp => hx _ (hBx p hp),
      flin_right hA hA0 fun p hp => strict_le_last hs hne (hAx p hp),
      flin_right hB hB0 fun p hp => strict_le_last hs hne (hBx p hp)]
  · intro a _ b _ hab hno
    obtain ⟨c1, m1, h1⟩ := flin_affine hA hA0 hab fun p hp => hno _ (hAx p hp)
    obtain ⟨c2, m2, h2⟩ := flin_affine hB hB0 hab fun p hp => hno _ (hBx p hp)
    refine ⟨c * c1 + d * c2, c * m1 + d * m2, fun x hx1 hx2 => ?_⟩
    rw [h1 x hx1 hx2, h2 x hx1 hx2]; ring

theorem graph_strict {xs : List ℝ} (hs : xs.Pairwise (· < ·)) (g : ℝ → ℝ) :
    StrictX (xs.map fun x => (x, g x)) := by
  unfold StrictX; rw [List.pairwise_map]; exact hs

theorem graph_fst {D : Type} (xs : List D) (g : D → ℝ) : (xs.map fun x => (x, g x)).map Prod.fst = xs := by
  simp [Function.comp_def]

theorem graph_snd {D : Type} (xs : List D) (g : D → ℝ) :
    (xs.map fun x => (x, g x)).map Prod.snd = xs.map g := by
  simp [Function.comp_def]

end Dcf
