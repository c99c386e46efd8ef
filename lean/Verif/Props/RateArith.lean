import Verif.Model.RateArith
import Verif.Lemmas.FlatCurve
import Verif.Props.RateCast
import Verif.Props.CurveArith

/-! # Arithmetic of interest rate curves: C115 -/

set_option linter.unusedSectionVars false
set_option linter.unusedSimpArgs false
set_option linter.unusedVariables false

namespace Dcf

open Spec

section
variable {D P : Type} [LinearOrder D] [AddCommGroup D] (cal : Cal D P)

/-- Zero and short rate curves store what they quote. -/
theorem storage_self {cls : IRClass} (hcls : cls = .zero ∨ cls = .short) {c : IRCurve D P} (hc : c.cls = cls) {o : D}
    (ho : c.base.origin = some o) (limit : ℕ) (same : D → Bool) (x : D) :
    cls.storage cal (limit + 1) same c x = c.call cal x := by
  rcases hcls with rfl | rfl
  · simp only [IRClass.storage, IRCurve.zero, ho, pyDate, Py.ok_bind, IRCurve.rate, hc, IRCurve.zeroRateOf]
    split_ifs with h
    · rw [h.1]
    · rfl
  · simp [IRClass.storage, IRCurve.shortRate, hc]

/-- The interpolations in question: `linearScheme` and `constant`. -/
theorem dflt_plain {cls : IRClass} (hcls : cls = .zero ∨ cls = .short) : cls.dflt.isLog = false ∧ cls.dflt.needsNonzero = false := by
  rcases hcls with rfl | rfl <;> simp [IRClass.dflt, linearScheme, FuncSpec.isLog, FuncSpec.needsNonzero, Kind.isLog, Kind.isRate]

/-- Casting such a curve to its own class gives the same points. -/
theorem cast_self {cls : IRClass} (hcls : cls = .zero ∨ cls = .short) (hτ : GoodDayCount cal.dayCount) {pts : List (D × ℝ)}
    (hn : (pts.map Prod.fst).Nodup) {o : D} {o? : Option D} (ho : o?.or (pts.map Prod.fst).head? = some o) {i : Option FuncSpec}
    (hi : i.getD cls.dflt = cls.dflt) (t t' : Option P) (limit : ℕ) (same : D → Bool) :
    (irOf cal o o? .default i cls t pts).castOn cal cls (limit + 1) same (pts.map Prod.fst) none none .default t' =
      .ok (irOf cal o o? .default none cls t' pts) := by
  have hτ' : GoodDayCount (DayCountArg.fn cal .default) := hτ
  have hdata : pyMap (cls.storage cal (limit + 1) same (irOf cal o o? .default i cls t pts)) (pts.map Prod.fst) = .ok (pts.map Prod.snd) := by
    rw [pyMap_map]
    refine pyMap_ok fun p hp => ?_
    rw [storage_self cal hcls rfl (irOf_origin cal ho)]
    exact irOf_node cal (dc := .default) ho trivial hτ' hn (by rw [hi, (dflt_plain hcls).1]; simp) (by rw [hi, (dflt_plain hcls).2]; simp) hp
  simp only [IRCurve.castOn]
  rw [hdata, Py.ok_bind]
  exact IRCurve_new_eq cal hn (by simp [(dflt_plain hcls).1]) ho trivial hτ'

theorem cast_castOn {cls : IRClass} (hcls : cls = .zero ∨ cls = .short) (limit : ℕ) (same : D → Bool) (c : IRCurve D P)
    (t : Option P) : c.cast cal cls limit same none none .default t =
      c.castOn cal cls limit same c.base.domain none none .default t := by
  rcases hcls with rfl | rfl <;> rfl

/-- What arithmetic gives for two curves with one origin: the points are taken at all dates of both. -/
theorem binop_eq {cls : IRClass} (hcls : cls = .zero ∨ cls = .short) (hτ : GoodDayCount cal.dayCount) {A B : List (D × ℝ)}
    (hA : (A.map Prod.fst).Nodup) (hB : (B.map Prod.fst).Nodup) (hA0 : A ≠ []) {o : D} {oa ob : Option D}
    (hoa : oa.or (A.map Prod.fst).head? = some o) (hob : ob.or (B.map Prod.fst).head? = some o) {i j : Option FuncSpec}
    {dc : DayCountArg D} (hdu : dc.Usable) (hdg : GoodDayCount (dc.fn cal))
    (hi : i.getD cls.dflt = cls.dflt) (hj : j.getD cls.dflt = cls.dflt) (ta tb : Option P) {u v : D → ℝ}
    (hu : ∀ x, (irOf cal o oa dc i cls ta A).call cal x = .ok (u x))
    (hv : ∀ x, (irOf cal o ob .default j cls tb B).call cal x = .ok (v x))
    (op : ℝ → ℝ → ℝ) (limit : ℕ) (same₁ same₂ same₃ : D → Bool) :
    ∃ m, (sortedSet (A.map Prod.fst ++ B.map Prod.fst)).head? = some m ∧
      (irOf cal o oa dc i cls ta A).binop cal op (limit + 1) same₁ same₂ same₃ (irOf cal o ob .default j cls tb B) =
        .ok (irOf cal m none .default none cls ta
          ((sortedSet (A.map Prod.fst ++ B.map Prod.fst)).map fun x => (x, op (u x) (v x)))) := by
  have hτ' : GoodDayCount (DayCountArg.fn cal .default) := hτ
  set xs := sortedSet (A.map Prod.fst ++ B.map Prod.fst) with hxs
  have hnd : xs.Nodup := (sortedSet_strict _).imp fun h => h.ne
  have hne : xs ≠ [] := List.ne_nil_of_mem (sortedSet_mem.2 (List.mem_append_left _ (List.head_mem (by simpa using hA0))))
  obtain ⟨m, hm⟩ : ∃ m, xs.head? = some m := by
    obtain ⟨a, l, h⟩ := List.exists_cons_of_ne_nil hne; exact ⟨a, by rw [h]; rfl⟩
  refine ⟨m, hm, ?_⟩
  set g₂ : IRCurve D P := irOf cal o ob .default none cls none B with hg₂
  have hop : (irOf cal o oa dc i cls ta A).operand cal (limit + 1) same₁ same₂ (irOf cal o ob .default j cls tb B) = .ok g₂ := by
    simp only [IRCurve.operand]
    rw [show (irOf cal o oa dc i cls ta A).cls = cls from rfl, cast_castOn cal hcls,
      show (irOf cal o ob .default j cls tb B).base.domain = B.map Prod.fst from rfl, cast_self cal hcls hτ hB hob hj, Py.ok_bind]
    have hod : originDiff (irOf cal o oa dc i cls ta A).base (irOf cal o ob .default none cls none B : IRCurve D P).base = .ok 0 := by
      simp [originDiff, irOf_origin cal hoa, irOf_origin cal hob, pyDate]
    rw [hod, Py.ok_bind]
    simp only [ne_eq, not_true_eq_false, if_false]
    exact cast_self cal hcls hτ hB hob rfl none none limit same₂
  have hv₂ : ∀ x, g₂.call cal x = .ok (v x) := by
    intro x
    rw [← hv x, irOf_call cal (dc := .default) hob trivial, irOf_call cal (dc := .default) hob trivial, hj]
    rfl
  set pts := xs.map fun x => (x, op (u x) (v x)) with hpts
  have hfst : pts.map Prod.fst = xs := graph_fst _ _
  have hsnd : pts.map Prod.snd = xs.map fun x => op (u x) (v x) := graph_snd _ _
  have hmp : (none : Option D).or (pts.map Prod.fst).head? = some m := by rw [hfst]; exact hm
  have hpn : (pts.map Prod.fst).Nodup := by rw [hfst]; exact hnd
  have hnew := IRCurve_new_eq cal (pts := pts) (i := i) (o? := none) (dc := .default) (o := m) (cls := cls) (tenor := (none : Option P)) hpn
    (by rw [hi, (dflt_plain hcls).1]; simp) hmp trivial hτ'
  have hre := IRCurve_new_eq cal (pts := pts) (i := i) (o? := some o) (dc := dc) (o := o) (cls := cls) (tenor := (none : Option P)) hpn
    (by rw [hi, (dflt_plain hcls).1]; simp) rfl hdu hdg
  rw [hfst, hsnd] at hnew hre
  simp only [IRCurve.binop, hop, Py.ok_bind]
  have hd1 : (irOf cal o oa dc i cls ta A).base.domain = A.map Prod.fst := rfl
  have hd2 : g₂.base.domain = B.map Prod.fst := rfl
  rw [hd1, hd2, ← hxs, pyMap_ok (g := fun x => op (u x) (v x)) fun x _ => by simp [hu, hv₂], Py.ok_bind]
  have hcl : (irOf cal o oa dc i cls ta A).cls = cls := rfl
  have hin : (irOf cal o oa dc i cls ta A).base.interp = i := rfl
  have hdc : (irOf cal o oa dc i cls ta A).base.dc = dc := rfl
  rw [hcl, hin, hnew, Py.ok_bind, show (irOf cal m none .default i cls none pts : IRCurve D P).base.domain = xs from hfst,
    pyMap_ok (g := fun x => op (u x) (v x)) fun x hx => ?_, Py.ok_bind,
    show (irOf cal m none .default i cls none pts : IRCurve D P).base.interp = i from rfl, irOf_origin cal hoa, hdc, hre, Py.ok_bind,
    cast_castOn cal hcls]
  · have := cast_self cal hcls hτ hpn hmp hi none ta limit same₃
    rw [show (irOf cal m none .default i cls none pts : IRCurve D P).base.domain = pts.map Prod.fst from rfl]
    exact this
  · exact irOf_node cal (dc := .default) hmp trivial hτ' hpn (by rw [hi, (dflt_plain hcls).1]; simp) (by rw [hi, (dflt_plain hcls).2]; simp)
      (List.mem_map.2 ⟨x, hx, rfl⟩)

theorem linVal_origin {τ : D → D → ℝ} (hτ : GoodDayCount τ) {pts : List (D × ℝ)} (hn : (pts.map Prod.fst).Nodup) (hne : pts ≠ [])
    (o m x : D) : linVal τ m pts x = linVal τ o pts x := by
  have h := dateCurve_origin_indep hτ (s := linearScheme) rfl m o x pts
  rw [funcOf_linear_call (timePts_nodup hτ m hn) (by simpa [timePts] using hne),
    funcOf_linear_call (timePts_nodup hτ o hn) (by simpa [timePts] using hne)] at h
  exact Option.some.inj (Except.ok.inj h)

/-- A linear function of two linear interpolations is their linear interpolation on the common grid, whatever the origin. -/
theorem linVal_comb {τ : D → D → ℝ} (hτ : GoodDayCount τ) {A B : List (D × ℝ)} (hA : (A.map Prod.fst).Nodup)
    (hB : (B.map Prod.fst).Nodup) (hA0 : A ≠ []) (hB0 : B ≠ []) (o m : D) (a b : ℝ) (x : D) :
    linVal τ m ((sortedSet (A.map Prod.fst ++ B.map Prod.fst)).map fun x => (x, a * linVal τ o A x + b * linVal τ o B x)) x =
      a * linVal τ o A x + b * linVal τ o B x := by
  set xs := sortedSet (A.map Prod.fst ++ B.map Prod.fst) with hxs
  have hstr : xs.Pairwise (· < ·) := sortedSet_strict _
  have hnd : xs.Nodup := hstr.imp fun h => h.ne
  have hne : xs ≠ [] := List.ne_nil_of_mem (sortedSet_mem.2 (List.mem_append_left _ (List.head_mem (by simpa using hA0))))
  rw [linVal_origin hτ (by rw [graph_fst]; exact hnd) (by simpa using hne) o m]
  have hts : (xs.map (τ o)).Pairwise (· < ·) := by
    rw [List.pairwise_map]; exact hstr.imp fun h => (hτ.lt_iff o _ _).2 h
  have e2 : timePts τ o (xs.map fun x => (x, a * linVal τ o A x + b * linVal τ o B x)) =
      (xs.map (τ o)).map fun t => (t, a * flin (sortPairs (timePts τ o A)) t + b * flin (sortPairs (timePts τ o B)) t) := by
    simp [timePts, Function.comp_def, linVal]
  have hsub : ∀ {L : List (D × ℝ)}, (∀ p ∈ L, p.1 ∈ xs) → ∀ p ∈ sortPairs (timePts τ o L), p.1 ∈ xs.map (τ o) := by
    intro L hL p hp
    obtain ⟨q, hq, rfl⟩ := List.mem_map.1 ((sortPairs_perm _).subset hp)
    exact List.mem_map.2 ⟨_, hL q hq, rfl⟩
  have hAx : ∀ p ∈ A, p.1 ∈ xs := fun p hp => sortedSet_mem.2 (List.mem_append_left _ (List.mem_map.2 ⟨p, hp, rfl⟩))
  have hBx : ∀ p ∈ B, p.1 ∈ xs := fun p hp => sortedSet_mem.2 (List.mem_append_right _ (List.mem_map.2 ⟨p, hp, rfl⟩))
  have hA0' : timePts τ o A ≠ [] := by simpa [timePts] using hA0
  have hB0' : timePts τ o B ≠ [] := by simpa [timePts] using hB0
  have hst2 := graph_strict hts fun t => a * flin (sortPairs (timePts τ o A)) t + b * flin (sortPairs (timePts τ o B)) t
  show flin (sortPairs (timePts τ o _)) (τ o x) = _
  rw [e2, sortPairs_eq_self hst2, flin_comb (sortPairs_strict (timePts_nodup hτ o hA)) (sortPairs_strict (timePts_nodup hτ o hB))
    (sortPairs_ne_nil hA0') (sortPairs_ne_nil hB0') hts (hsub hAx) (hsub hBx)]
  rfl

/-- The value of the last date not after `x`, or of the first date if `x` is before all of them. -/
def IsLeftDate (pts : List (D × ℝ)) (x : D) (y : ℝ) : Prop :=
  ∃ p ∈ pts, p.2 = y ∧ ((p.1 ≤ x ∧ ∀ q ∈ pts, q.1 ≤ x → q.1 ≤ p.1) ∨ ((∀ q ∈ pts, x < q.1) ∧ ∀ q ∈ pts, p.1 ≤ q.1))

theorem IsLeftDate.unique {pts : List (D × ℝ)} (hn : (pts.map Prod.fst).Nodup) {x : D} {y y' : ℝ} (h : IsLeftDate pts x y)
    (h' : IsLeftDate pts x y') : y = y' := by
  have inj : ∀ p ∈ pts, ∀ q ∈ pts, p.1 = q.1 → p = q := fun p hp q hq e => List.inj_on_of_nodup_map hn hp hq e
  obtain ⟨p, hp, rfl, ⟨a, b⟩ | ⟨a, b⟩⟩ := h <;> obtain ⟨q, hq, rfl, ⟨c, d⟩ | ⟨c, d⟩⟩ := h'
  · rw [inj p hp q hq (le_antisymm (d p hp a) (b q hq c))]
  · exact absurd (c p hp) a.not_gt
  · exact absurd (a q hq) c.not_gt
  · rw [inj p hp q hq (le_antisymm (b q hq) (d p hp))]

/-- Two dates with the same points before them have the same value. -/
theorem IsLeftDate.mono {pts : List (D × ℝ)} {x x' : D} {y : ℝ} (h : IsLeftDate pts x y)
    (hx : ∀ q ∈ pts, q.1 ≤ x ↔ q.1 ≤ x') : IsLeftDate pts x' y := by
  obtain ⟨p, hp, rfl, ⟨a, b⟩ | ⟨a, b⟩⟩ := h
  · exact ⟨p, hp, rfl, Or.inl ⟨(hx p hp).1 a, fun q hq h => b q hq ((hx q hq).2 h)⟩⟩
  · exact ⟨p, hp, rfl, Or.inr ⟨fun q hq => lt_of_not_ge fun h => (a q hq).not_ge ((hx q hq).2 h), b⟩⟩

/-- Before the first date the value is that of the first date. -/
theorem IsLeftDate.first {pts : List (D × ℝ)} {x m : D} {y : ℝ} (h : IsLeftDate pts m y) (hm : ∀ q ∈ pts, m ≤ q.1) (hx : x < m) :
    IsLeftDate pts x y := by
  have hall : ∀ q ∈ pts, x < q.1 := fun q hq => hx.trans_le (hm q hq)
  obtain ⟨p, hp, rfl, ⟨a, b⟩ | ⟨a, b⟩⟩ := h
  · exact ⟨p, hp, rfl, Or.inr ⟨hall, fun q hq => a.trans (hm q hq)⟩⟩
  · exact ⟨p, hp, rfl, Or.inr ⟨hall, b⟩⟩

/-- Short rate curves quote the rate of the last date. -/
theorem short_left (hτ : GoodDayCount cal.dayCount) {A : List (D × ℝ)} (hA : (A.map Prod.fst).Nodup) (hA0 : A ≠ []) {o : D} {oa : Option D}
    (hoa : oa.or (A.map Prod.fst).head? = some o) {i : Option FuncSpec} (hi : i.getD IRClass.short.dflt = IRClass.short.dflt)
    (ta : Option P) (x : D) : ∃ y, (irOf cal o oa .default i .short ta A).call cal x = .ok y ∧ IsLeftDate A x y := by
  obtain ⟨y, h1, h2⟩ := leftCall_sorted (timePts_nodup hτ o hA) (by simpa [timePts] using hA0) (cal.dayCount o x)
  refine ⟨y, ?_, ?_⟩
  · apply irOf_call_some cal (dc := .default) hoa trivial
    rw [hi]
    simp only [IRClass.dflt, funcOf, interpOf]
    simp [Func.call, Interp.call, storedPts, DayCountArg.fn, h1]
  · have hlt : ∀ a b, cal.dayCount o a < cal.dayCount o b ↔ a < b := fun a b => hτ.lt_iff o a b
    have hle : ∀ a b, cal.dayCount o a ≤ cal.dayCount o b ↔ a ≤ b := fun a b => by
      rw [← not_lt, ← not_lt, hlt]
    obtain ⟨p, hp, rfl, h⟩ := h2
    obtain ⟨p', hp', rfl⟩ := List.mem_map.1 hp
    have hmem : ∀ {q : D × ℝ}, q ∈ A → (cal.dayCount o q.1, q.2) ∈ timePts cal.dayCount o A := fun hq => List.mem_map.2 ⟨_, hq, rfl⟩
    refine ⟨p', hp', rfl, ?_⟩
    rcases h with ⟨h, h'⟩ | ⟨h, h'⟩
    · exact Or.inl ⟨(hle _ _).1 h, fun q hq hqx => (hle _ _).1 (h' _ (hmem hq) ((hle _ _).2 hqx))⟩
    · exact Or.inr ⟨fun q hq => (hlt _ _).1 (h _ (hmem hq)), fun q hq => (hle _ _).1 (h' _ (hmem hq))⟩

/-- A function of two step functions is their step function on the common grid. -/
theorem left_comb {A B : List (D × ℝ)} (hA : (A.map Prod.fst).Nodup) (hB : (B.map Prod.fst).Nodup) (hA0 : A ≠ [])
    {u v : D → ℝ} (hu : ∀ x, IsLeftDate A x (u x)) (hv : ∀ x, IsLeftDate B x (v x)) (op : ℝ → ℝ → ℝ) {x : D} {y : ℝ}
    (hy : IsLeftDate ((sortedSet (A.map Prod.fst ++ B.map Prod.fst)).map fun x => (x, op (u x) (v x))) x y) :
    y = op (u x) (v x) := by
  have hgrid : ∀ q, q ∈ A ∨ q ∈ B → (q.1, op (u q.1) (v q.1)) ∈
      (sortedSet (A.map Prod.fst ++ B.map Prod.fst)).map fun x => (x, op (u x) (v x)) := fun q hq =>
    List.mem_map.2 ⟨q.1, sortedSet_mem.2 (List.mem_append.2 (hq.imp (fun h => List.mem_map.2 ⟨q, h, rfl⟩) fun h => List.mem_map.2 ⟨q, h, rfl⟩)), rfl⟩
  obtain ⟨p, hp, rfl, h⟩ := hy
  obtain ⟨m, hm, rfl⟩ := List.mem_map.1 hp
  rcases h with ⟨h, h'⟩ | ⟨h, h'⟩
  · have hx : ∀ q, q ∈ A ∨ q ∈ B → (q.1 ≤ m ↔ q.1 ≤ x) := fun q hq => ⟨fun hqm => hqm.trans h, fun hqx => h' (q.1, op (u q.1) (v q.1)) (hgrid q hq) hqx⟩
    have e1 : u m = u x := ((hu m).mono fun q hq => hx q (Or.inl hq)).unique hA (hu x)
    have e2 : v m = v x := ((hv m).mono fun q hq => hx q (Or.inr hq)).unique hB (hv x)
    simp [e1, e2]
  · have e1 : u m = u x := ((hu m).first (fun q hq => h' (q.1, op (u q.1) (v q.1)) (hgrid q (Or.inl hq))) (h _ hp)).unique hA (hu x)
    have e2 : v m = v x := ((hv m).first (fun q hq => h' (q.1, op (u q.1) (v q.1)) (hgrid q (Or.inr hq))) (h _ hp)).unique hB (hv x)
    simp [e1, e2]

variable {cal}

/-- Two curves of one class with default day count and interpolation, and with the same origin. -/
structure RateOperands (cal : Cal D P) (cls : IRClass) (A B : List (D × ℝ)) (o : D) (oa ob : Option D) (ta tb : Option P)
    (f g : IRCurve D P) : Prop where
  good : GoodDayCount cal.dayCount
  left : (A.map Prod.fst).Nodup
  right : (B.map Prod.fst).Nodup
  leftNe : A ≠ []
  rightNe : B ≠ []
  leftOrigin : oa.or (A.map Prod.fst).head? = some o
  rightOrigin : ob.or (B.map Prod.fst).head? = some o
  newLeft : IRCurve.new cal cls (A.map Prod.fst) (A.map Prod.snd) none oa .default ta = .ok f
  newRight : IRCurve.new cal cls (B.map Prod.fst) (B.map Prod.snd) none ob .default tb = .ok g

/-- `S` quotes `op` of what `f` and `g` quote, on all dates of both, and keeps the tenor of `f`. -/
structure RateResult (cal : Cal D P) (op : ℝ → ℝ → ℝ) (f g S : IRCurve D P) : Prop where
  call : ∀ x, ∃ u v, f.call cal x = .ok u ∧ g.call cal x = .ok v ∧ S.call cal x = .ok (op u v)
  cls : S.cls = f.cls
  tenor : S.tenor = f.tenor
  sorted : S.base.domain.Pairwise (· < ·)
  domain : ∀ x, x ∈ S.base.domain ↔ x ∈ f.base.domain ∨ x ∈ g.base.domain
  origin : S.base.origin = S.base.domain.head?
  dayCount : S.base.dc = .default

variable {A B : List (D × ℝ)} {o : D} {oa ob : Option D} {ta tb : Option P} {f g : IRCurve D P}

theorem RateOperands.eq {cls : IRClass} (hcls : cls = .zero ∨ cls = .short) (h : RateOperands cal cls A B o oa ob ta tb f g) :
    f = irOf cal o oa .default none cls ta A ∧ g = irOf cal o ob .default none cls tb B := by
  have hτ : GoodDayCount (DayCountArg.fn cal .default) := h.good
  have h1 := h.newLeft
  have h2 := h.newRight
  rw [IRCurve_new_eq cal h.left (by simp [(dflt_plain hcls).1]) h.leftOrigin (dc := .default) trivial hτ] at h1
  rw [IRCurve_new_eq cal h.right (by simp [(dflt_plain hcls).1]) h.rightOrigin (dc := .default) trivial hτ] at h2
  exact ⟨(Except.ok.inj h1).symm, (Except.ok.inj h2).symm⟩

/-- C115: sums and differences of zero rate curves are pointwise at every date. -/
theorem C115_zero_partial (h : RateOperands cal .zero A B o oa ob ta tb f g) (limit : ℕ) (same₁ same₂ same₃ : D → Bool) :
    (∃ S, f.binop cal (· + ·) (limit + 1) same₁ same₂ same₃ g = .ok S ∧ RateResult cal (· + ·) f g S) ∧
      ∃ S, f.binop cal (· - ·) (limit + 1) same₁ same₂ same₃ g = .ok S ∧ RateResult cal (· - ·) f g S := by
  obtain ⟨rfl, rfl⟩ := h.eq (Or.inl rfl)
  have hτ : GoodDayCount (DayCountArg.fn cal .default) := h.good
  have hu := irOf_linear cal (o? := oa) (dc := .default) (i := none) (cls := .zero) (tenor := ta) rfl h.leftOrigin trivial hτ h.left h.leftNe
  have hv := irOf_linear cal (o? := ob) (dc := .default) (i := none) (cls := .zero) (tenor := tb) rfl h.rightOrigin trivial hτ h.right h.rightNe
  have key : ∀ (op : ℝ → ℝ → ℝ) (a b : ℝ), (∀ x y, op x y = a * x + b * y) →
      ∃ S, (irOf cal o oa .default none .zero ta A).binop cal op (limit + 1) same₁ same₂ same₃ (irOf cal o ob .default none .zero tb B) = .ok S ∧
        RateResult cal op (irOf cal o oa .default none .zero ta A) (irOf cal o ob .default none .zero tb B) S := by
    intro op a b hop
    obtain ⟨m, hm, hS⟩ := binop_eq cal (Or.inl rfl) h.good h.left h.right h.leftNe h.leftOrigin h.rightOrigin (i := none) (j := none)
      (dc := .default) trivial hτ rfl rfl ta tb hu hv op limit same₁ same₂ same₃
    have hdom : ((sortedSet (A.map Prod.fst ++ B.map Prod.fst)).map fun x => (x, op (linVal (DayCountArg.fn cal .default) o A x)
      (linVal (DayCountArg.fn cal .default) o B x))).map Prod.fst = sortedSet (A.map Prod.fst ++ B.map Prod.fst) := graph_fst _ _
    refine ⟨_, hS, ⟨fun x => ⟨_, _, hu x, hv x, ?_⟩, rfl, rfl, ?_, ?_, ?_, rfl⟩⟩
    · have hne : sortedSet (A.map Prod.fst ++ B.map Prod.fst) ≠ [] := by intro e; rw [e] at hm; cases hm
      rw [irOf_linear cal (o? := none) (dc := .default) (i := none) (cls := .zero) rfl (by rw [hdom]; exact hm) trivial hτ
        (by rw [hdom]; exact (sortedSet_strict _).imp fun h => h.ne) (by simpa using hne)]
      simp only [hop]
      rw [linVal_comb hτ h.left h.right h.leftNe h.rightNe]
    · show (List.map Prod.fst _).Pairwise _
      rw [hdom]; exact sortedSet_strict _
    · intro x
      show x ∈ List.map Prod.fst _ ↔ x ∈ A.map Prod.fst ∨ x ∈ B.map Prod.fst
      rw [hdom, sortedSet_mem, List.mem_append]
    · rfl
  exact ⟨key (· + ·) 1 1 (by intros; ring), key (· - ·) 1 (-1) (by intros; ring)⟩

/-- C115: sums, differences and products of short rate curves are pointwise at every date. -/
theorem C115_short_partial (h : RateOperands cal .short A B o oa ob ta tb f g) (op : ℝ → ℝ → ℝ) (limit : ℕ)
    (same₁ same₂ same₃ : D → Bool) :
    ∃ S, f.binop cal op (limit + 1) same₁ same₂ same₃ g = .ok S ∧ RateResult cal op f g S := by
  obtain ⟨rfl, rfl⟩ := h.eq (Or.inr rfl)
  have hu' := fun x => short_left cal h.good h.left h.leftNe h.leftOrigin (i := none) rfl ta x
  have hv' := fun x => short_left cal h.good h.right h.rightNe h.rightOrigin (i := none) rfl tb x
  choose u hu hul using hu'
  choose v hv hvl using hv'
  obtain ⟨m, hm, hS⟩ := binop_eq cal (Or.inr rfl) h.good h.left h.right h.leftNe h.leftOrigin h.rightOrigin (i := none) (j := none)
    (dc := .default) trivial h.good rfl rfl ta tb hu hv op limit same₁ same₂ same₃
  have hdom : ((sortedSet (A.map Prod.fst ++ B.map Prod.fst)).map fun x => (x, op (u x) (v x))).map Prod.fst =
    sortedSet (A.map Prod.fst ++ B.map Prod.fst) := graph_fst _ _
  refine ⟨_, hS, ⟨fun x => ⟨_, _, hu x, hv x, ?_⟩, rfl, rfl, ?_, ?_, ?_, rfl⟩⟩
  · have hne : sortedSet (A.map Prod.fst ++ B.map Prod.fst) ≠ [] := by intro e; rw [e] at hm; cases hm
    obtain ⟨y, h1, h2⟩ := short_left cal h.good (A := (sortedSet (A.map Prod.fst ++ B.map Prod.fst)).map fun x => (x, op (u x) (v x)))
      (oa := none) (o := m) (i := none) (by rw [hdom]; exact (sortedSet_strict _).imp fun h => h.ne) (by simpa using hne) (by rw [hdom]; exact hm)
      rfl ta x
    rw [h1, left_comb h.left h.right h.leftNe hul hvl op h2]
  · show (List.map Prod.fst _).Pairwise _
    rw [hdom]; exact sortedSet_strict _
  · intro x
    show x ∈ List.map Prod.fst _ ↔ x ∈ A.map Prod.fst ∨ x ∈ B.map Prod.fst
    rw [hdom, sortedSet_mem, List.mem_append]
  · rfl

theorem head_of_least {l : List D} (hs : l.Pairwise (· < ·)) {o : D} (hm : o ∈ l) (hl : ∀ d ∈ l, o ≤ d) : l.head? = some o := by
  cases l with
  | nil => cases hm
  | cons a l =>
    rw [List.pairwise_cons] at hs
    rcases List.mem_cons.1 hm with e | e
    · simp [e]
    · exact absurd (hl a (by simp)) (hs.1 o e).not_ge

/-- C115: if the origin is the first date, discount factors of the sum of zero rate curves are the products. -/
theorem C115_discount_partial (h : RateOperands cal .zero A B o oa ob ta tb f g) (hmem : o ∈ A.map Prod.fst ++ B.map Prod.fst)
    (hfirst : ∀ d ∈ A.map Prod.fst ++ B.map Prod.fst, o ≤ d) (limit : ℕ) (same₁ same₂ same₃ : D → Bool) :
    ∃ S, f.binop cal (· + ·) (limit + 1) same₁ same₂ same₃ g = .ok S ∧
      ∀ same s t, (same = true → s = o) → ∃ a b, f.factor cal same s t = .ok a ∧ g.factor cal same s t = .ok b ∧
        S.factor cal same s t = .ok (a * b) := by
  obtain ⟨⟨S, hS, hR⟩, -⟩ := C115_zero_partial h limit same₁ same₂ same₃
  obtain ⟨ef, eg⟩ := h.eq (Or.inl rfl)
  have hτ : GoodDayCount (DayCountArg.fn cal .default) := h.good
  have hf : Answers cal f (linVal (DayCountArg.fn cal .default) o A) (DayCountArg.fn cal .default) o := by
    rw [ef]; exact zero_answers h.left h.leftNe h.leftOrigin trivial hτ
  have hg : Answers cal g (linVal (DayCountArg.fn cal .default) o B) (DayCountArg.fn cal .default) o := by
    rw [eg]; exact zero_answers h.right h.rightNe h.rightOrigin trivial hτ
  have ho : S.base.origin = some o := by
    have hm : o ∈ S.base.domain := by
      rw [hR.domain, ef, eg]
      simpa [irOf, dateCurveOf] using hmem
    have hl : ∀ d ∈ S.base.domain, o ≤ d := by
      intro d hd
      rw [hR.domain, ef, eg] at hd
      exact hfirst d (List.mem_append.2 hd)
    rw [hR.origin, head_of_least hR.sorted hm hl]
  have hSa : Answers cal S (fun x => linVal (DayCountArg.fn cal .default) o A x + linVal (DayCountArg.fn cal .default) o B x)
      (DayCountArg.fn cal .default) o := by
    refine ⟨fun x => ?_, fun s e => ?_, hτ, ho⟩
    · obtain ⟨u, v, h1, h2, h3⟩ := hR.call x
      rw [hf.call] at h1; rw [hg.call] at h2
      rw [h3, ← Except.ok.inj h1, ← Except.ok.inj h2]
    · simp [IRCurve.dayCount, DateCurve.dayCount, hR.dayCount, DayCountArg.eval, DayCountArg.fn]
  obtain ⟨df, -, e1, h1, -⟩ := C28_zero hf (by rw [ef]; rfl)
  obtain ⟨dg, -, e2, h2, -⟩ := C28_zero hg (by rw [eg]; rfl)
  obtain ⟨ds, -, e3, h3, -⟩ := C28_zero hSa (by rw [hR.cls, ef]; rfl)
  refine ⟨S, hS, fun same s t hs => ⟨_, _, h1 same s t hs, h2 same s t hs, ?_⟩⟩
  rw [h3 same s t hs, e1, e2, e3, ← Real.exp_add]
  congr 2
  ring

/-- C115 (what goes wrong): rate curves of any class cannot be divided. -/
theorem C115_div_violated (limit : ℕ) (same₁ same₂ : D → Bool) (f g S : IRCurve D P) : f.div cal limit same₁ same₂ g ≠ .ok S := by
  intro e
  simp only [IRCurve.div, Py.bind_eq_ok] at e
  obtain ⟨_, _, b, _, e⟩ := e
  split_ifs at e with hb
  · simp [Py.throw_eq, Py.error_bind] at e
  · simp only [Py.pure_eq, Py.ok_bind, Py.bind_eq_ok] at e
    obtain ⟨_, _, _, _, e⟩ := e
    simp [Py.throw_eq] at e

end

/-- C115 (what goes wrong): adding a zero curve of rate zero changes discount factors, since the origin is lost. -/
theorem C115_origin_violated (limit : ℕ) (same₁ same₂ same₃ : ℝ → Bool) :
    ∃ f g S : IRCurve ℝ FloatPeriod, IRCurve.new floatCal .zero [1, 2] [0, 1] none (some 0) .default none = .ok f ∧
      IRCurve.new floatCal .zero [1] [0] none (some 0) .default none = .ok g ∧
      f.binop floatCal (· + ·) (limit + 1) same₁ same₂ same₃ g = .ok S ∧ S.base.origin = some 1 ∧
      f.factor floatCal false 1 2 = .ok (Real.exp (-2)) ∧ g.factor floatCal false 1 2 = .ok 1 ∧
      S.factor floatCal false 1 2 = .ok (Real.exp (-1)) := by
  have hτ : GoodDayCount floatCal.dayCount := goodDayCount_real
  have hτ' : GoodDayCount (DayCountArg.fn floatCal .default) := hτ
  have hA : (([(1, 0), (2, 1)] : List (ℝ × ℝ)).map Prod.fst).Nodup := by norm_num
  have hB : (([(1, 0)] : List (ℝ × ℝ)).map Prod.fst).Nodup := by norm_num
  have n1 := IRCurve_new_eq floatCal (cls := .zero) (i := none) (o? := some 0) (o := 0) (dc := .default) hA (by simp [(dflt_plain (Or.inl rfl)).1]) rfl trivial hτ'
    (tenor := none)
  have n2 := IRCurve_new_eq floatCal (cls := .zero) (i := none) (o? := some 0) (o := 0) (dc := .default) hB (by simp [(dflt_plain (Or.inl rfl)).1]) rfl trivial hτ'
    (tenor := none)
  have h : RateOperands floatCal .zero [(1, 0), (2, 1)] [(1, 0)] 0 (some 0) (some 0) none none _ _ :=
    ⟨hτ, hA, hB, by simp, by simp, rfl, rfl, n1, n2⟩
  obtain ⟨⟨S, hS, hR⟩, -⟩ := C115_zero_partial h limit same₁ same₂ same₃
  have hf := zero_answers (cal := floatCal) (o? := some 0) (o := 0) (dc := .default) (tenor := none) hA (by simp) rfl trivial hτ'
  have hg := zero_answers (cal := floatCal) (o? := some 0) (o := 0) (dc := .default) (tenor := none) hB (by simp) rfl trivial hτ'
  have f1 := hf.call 1
  have f2 := hf.call 2
  have g1 := hg.call 1
  have g2 := hg.call 2
  have f1' := irOf_node floatCal (o? := some 0) (o := 0) (dc := .default) (i := none) (cls := .zero) (tenor := none) rfl trivial hτ' hA
    (by simp [(dflt_plain (Or.inl rfl)).1]) (by simp [(dflt_plain (Or.inl rfl)).2]) (x := 1) (y := 0) (by simp)
  have f2' := irOf_node floatCal (o? := some 0) (o := 0) (dc := .default) (i := none) (cls := .zero) (tenor := none) rfl trivial hτ' hA
    (by simp [(dflt_plain (Or.inl rfl)).1]) (by simp [(dflt_plain (Or.inl rfl)).2]) (x := 2) (y := 1) (by simp)
  rw [f1'] at f1
  rw [f2'] at f2
  have v1 := (Except.ok.inj f1).symm
  have v2 := (Except.ok.inj f2).symm
  have ho : S.base.origin = some 1 := by
    rw [hR.origin]
    refine head_of_least hR.sorted ((hR.domain _).2 (Or.inl (by simp [irOf, dateCurveOf]))) fun d hd => ?_
    rcases (hR.domain _).1 hd with h | h
    · simp [irOf, dateCurveOf] at h
      rcases h with rfl | rfl <;> norm_num
    · simp [irOf, dateCurveOf] at h
      rw [h]
  have hSa : Answers floatCal S (fun x => linVal (DayCountArg.fn floatCal .default) 0 [(1, 0), (2, 1)] x +
      linVal (DayCountArg.fn floatCal .default) 0 [(1, 0)] x) (DayCountArg.fn floatCal .default) 1 := by
    refine ⟨fun x => ?_, fun s e => ?_, hτ', ho⟩
    · obtain ⟨u, v, h1, h2, h3⟩ := hR.call x
      rw [hf.call] at h1; rw [hg.call] at h2
      rw [h3, ← Except.ok.inj h1, ← Except.ok.inj h2]
    · simp [IRCurve.dayCount, DateCurve.dayCount, hR.dayCount, DayCountArg.eval, DayCountArg.fn]
  obtain ⟨df, -, e1, h1, -⟩ := C28_zero hf rfl
  obtain ⟨dg, -, e2, h2, -⟩ := C28_zero hg rfl
  obtain ⟨ds, -, e3, h3, -⟩ := C28_zero hSa (by rw [hR.cls]; rfl)
  have hd : ∀ s t, DayCountArg.fn floatCal .default s t = t - s := fun s t => rfl
  refine ⟨_, _, S, n1, n2, hS, ho, ?_, ?_, ?_⟩
  · rw [h1 false 1 2 (by simp), e1, v1, v2, hd, hd]; norm_num
  · rw [h2 false 1 2 (by simp), e2, linVal_single, linVal_single]; norm_num
  · rw [h3 false 1 2 (by simp), e3, v1, v2, linVal_single, linVal_single, hd, hd]; norm_num

/-- C115 (what goes wrong): the day count and the interpolation of both curves are dropped. -/
theorem C115_settings_violated {D P : Type} [LinearOrder D] [AddCommGroup D] {cal : Cal D P} {f g S : IRCurve D P} {op : ℝ → ℝ → ℝ} {limit : ℕ}
    {same₁ same₂ same₃ : D → Bool} (h : f.binop cal op limit same₁ same₂ same₃ g = .ok S) : S.base.dc = .default ∧ S.base.interp = none := by
  have hnew : ∀ {cls : IRClass} {xs : List D} {ys : List ℝ} {i : Option FuncSpec} {o : Option D} {dc : DayCountArg D} {t : Option P} {c : IRCurve D P},
      IRCurve.new cal cls xs ys i o dc t = .ok c → c.base.dc = dc ∧ c.base.interp = i := by
    intro cls xs ys i o dc t c h
    simp only [IRCurve.new, DateCurve.new, DateCurve.update] at h
    split_ifs at h with hl
    · simp only [Py.pure_eq, Py.ok_bind, Py.bind_eq_ok] at h
      obtain ⟨b, ⟨_, _, _, _, hb⟩, hc⟩ := h
      cases hb; cases hc
      exact ⟨rfl, rfl⟩
    · simp [Py.throw_eq, Py.error_bind] at h
  have hcast : ∀ {cls : IRClass} {same : D → Bool} {t : Option P} {c d : IRCurve D P}, c.base.dc = .default →
      c.cast cal cls limit same none none .default t = .ok d → d.base.dc = .default ∧ d.base.interp = none := by
    intro cls same t c d hc h
    cases cls <;> simp only [IRCurve.cast, IRCurve.castOn, Py.bind_eq_ok] at h
    · obtain ⟨_, _, _, _, _, _, _, _, _, _, h⟩ := h; simpa [hc, DayCountArg.or, DayCountArg.kwarg] using hnew h
    · obtain ⟨_, _, h⟩ := h; simpa [hc, DayCountArg.or, DayCountArg.kwarg] using hnew h
    · obtain ⟨_, _, h⟩ := h; simpa [hc, DayCountArg.or, DayCountArg.kwarg] using hnew h
    · obtain ⟨_, _, _, _, h⟩ := h; simpa [hc, DayCountArg.or, DayCountArg.kwarg] using hnew h
  simp only [IRCurve.binop, Py.bind_eq_ok] at h
  obtain ⟨_, _, _, _, n, hn, _, _, _, _, h⟩ := h
  exact hcast (hnew hn).1 h

/-- C115 (what goes wrong): with different origins the second curve is not read at its own dates: the sum has the dates of the
first curve and those of the second moved by the difference of the origins. -/
theorem C115_grid_violated {D P : Type} [LinearOrder D] [AddCommGroup D] {cal : Cal D P} {f g g₁ S : IRCurve D P} {op : ℝ → ℝ → ℝ} {limit : ℕ}
    {same₁ same₂ same₃ : D → Bool} (hcls : f.cls = .zero ∨ f.cls = .short)
    (hg : g.cast cal f.cls limit same₁ none none .default none = .ok g₁) {o o' : D} (ho : f.base.origin = some o) (ho' : g₁.base.origin = some o')
    (h : f.binop cal op limit same₁ same₂ same₃ g = .ok S) :
    g₁.base.domain = g.base.domain ∧ S.base.domain.Pairwise (· < ·) ∧
      ∀ x, x ∈ S.base.domain ↔ x ∈ f.base.domain ∨ x - (o - o') ∈ g.base.domain := by
  have hnew : ∀ {cls : IRClass} {xs : List D} {ys : List ℝ} {i : Option FuncSpec} {o : Option D} {dc : DayCountArg D} {t : Option P} {c : IRCurve D P},
      IRCurve.new cal cls xs ys i o dc t = .ok c → c.base.domain = xs := by
    intro cls xs ys i o dc t c h
    simp only [IRCurve.new, DateCurve.new, DateCurve.update] at h
    split_ifs at h with hl
    · simp only [Py.pure_eq, Py.ok_bind, Py.bind_eq_ok] at h
      obtain ⟨b, ⟨_, _, _, _, hb⟩, hc⟩ := h
      cases hb; cases hc
      rfl
    · simp [Py.throw_eq, Py.error_bind] at h
  have hcast : ∀ {same : D → Bool} {t : Option P} {c d : IRCurve D P},
      c.cast cal f.cls limit same none none .default t = .ok d → d.base.domain = c.base.domain := by
    intro same t c d h
    rcases hcls with e | e <;> rw [e] at h <;> simp only [IRCurve.cast, IRCurve.castOn, Py.bind_eq_ok] at h <;>
    · obtain ⟨_, _, h⟩ := h; exact hnew h
  simp only [IRCurve.binop, IRCurve.operand, Py.bind_eq_ok] at h
  obtain ⟨g₂, ⟨g₁', hg₁, δ, hδ, hg₂⟩, _, _, n, hn, _, _, _, _, h⟩ := h
  obtain rfl := Except.ok.inj (hg₁.symm.trans hg)
  have e : δ = o - o' := by
    simp only [originDiff, ho, ho', pyDate, Py.ok_bind] at hδ
    exact (Except.ok.inj hδ).symm
  subst e
  have hd : g₂.base.domain = g.base.domain.map (· + (o - o')) := by
    simp only [IRCurve.castOn, Py.bind_eq_ok] at hg₂
    obtain ⟨_, _, h⟩ := hg₂
    rw [hnew h, hcast hg₁]
    split_ifs with h0
    · rfl
    · simp [not_not.1 h0]
  refine ⟨hcast hg₁, ?_, fun x => ?_⟩
  · rw [hcast h, hnew hn]; exact sortedSet_strict _
  · rw [hcast h, hnew hn, sortedSet_mem, List.mem_append, hd, List.mem_map]
    refine or_congr Iff.rfl ⟨?_, fun hx => ⟨_, hx, by abel⟩⟩
    rintro ⟨y, hy, rfl⟩
    simpa using hy

/-- C115 for different origins, one point each: flat zero curves from different dates add up to a flat curve from the date of
the first. -/
theorem C115_flat_partial {D P : Type} [LinearOrder D] [AddCommGroup D] {cal : Cal D P} (hτ : GoodDayCount cal.dayCount) {a b : D} {r s : ℝ}
    {ta tb : Option P} {f g : IRCurve D P} (hf : IRCurve.new cal .zero [a] [r] none none .default ta = .ok f)
    (hg : IRCurve.new cal .zero [b] [s] none none .default tb = .ok g) (op : ℝ → ℝ → ℝ) (limit : ℕ) (same₁ same₂ same₃ : D → Bool) :
    ∃ S, f.binop cal op (limit + 1) same₁ same₂ same₃ g = .ok S ∧ S.base.domain = [a] ∧ S.base.origin = some a ∧ S.tenor = ta ∧
      ∀ x, f.call cal x = .ok r ∧ g.call cal x = .ok s ∧ S.call cal x = .ok (op r s) := by
  have hτ' : GoodDayCount (DayCountArg.fn cal .default) := hτ
  have hn : ∀ (c : D) (y : ℝ), (([(c, y)] : List (D × ℝ)).map Prod.fst).Nodup := fun c y => by simp
  have hnew : ∀ (c : D) (y : ℝ) (t : Option P) (o? : Option D) (o : D), o?.or (some c) = some o →
      IRCurve.new cal .zero [c] [y] none o? .default t = .ok (irOf cal o o? .default none .zero t [(c, y)]) := fun c y t o? o ho =>
    IRCurve_new_eq cal (pts := [(c, y)]) (cls := .zero) (i := none) (o? := o?) (o := o) (dc := .default) (hn c y)
      (by simp [(dflt_plain (Or.inl rfl)).1]) ho trivial hτ' (tenor := t)
  have hcall : ∀ (c : D) (y : ℝ) (t : Option P) x, (irOf cal c none .default none .zero t [(c, y)]).call cal x = .ok y := by
    intro c y t x
    rw [(zero_answers (cal := cal) (o? := none) (o := c) (dc := .default) (tenor := t) (hn c y) (by simp) rfl trivial hτ').call, linVal_single]
  obtain rfl := Except.ok.inj ((hnew a r ta none a rfl).symm.trans hf)
  obtain rfl := Except.ok.inj ((hnew b s tb none b rfl).symm.trans hg)
  have hst : ∀ (c : D) (y : ℝ) (t : Option P) (same : D → Bool) x,
      IRClass.storage cal .zero (limit + 1) same (irOf cal c none .default none .zero t [(c, y)]) x = .ok y := by
    intro c y t same x
    rw [storage_self cal (Or.inl rfl) rfl (irOf_origin cal (o? := none) rfl), hcall]
  have hcast : ∀ (c c' : D) (y : ℝ) (t t' : Option P) (same : D → Bool),
      (irOf cal c none .default none .zero t [(c, y)]).castOn cal .zero (limit + 1) same [c'] none none .default t' =
        .ok (irOf cal c' none .default none .zero t' [(c', y)]) := by
    intro c c' y t t' same
    simp only [IRCurve.castOn]
    rw [pyMap_ok (g := fun _ => y) fun x _ => hst c y t same x, Py.ok_bind]
    exact hnew c' y t' none c' rfl
  refine ⟨irOf cal a none .default none .zero ta [(a, op r s)], ?_, rfl, irOf_origin cal (o? := none) rfl, rfl,
    fun x => ⟨hcall a r ta x, hcall b s tb x, hcall a (op r s) ta x⟩⟩
  have hop : (irOf cal a none .default none .zero ta [(a, r)]).operand cal (limit + 1) same₁ same₂ (irOf cal b none .default none .zero tb [(b, s)]) =
      .ok (irOf cal a none .default none .zero none [(a, s)]) := by
    simp only [IRCurve.operand]
    rw [show (irOf cal a none .default none .zero ta [(a, r)] : IRCurve D P).cls = .zero from rfl, cast_castOn cal (Or.inl rfl),
      show (irOf cal b none .default none .zero tb [(b, s)] : IRCurve D P).base.domain = [b] from rfl, hcast, Py.ok_bind]
    have hod : originDiff (irOf cal a none .default none .zero ta [(a, r)]).base
        (irOf cal b none .default none .zero none [(b, s)] : IRCurve D P).base = .ok (a - b) := by
      simp [originDiff, irOf_origin cal (o? := none) (pts := [(a, r)]) (o := a) rfl, irOf_origin cal (o? := none) (pts := [(b, s)]) (o := b) rfl, pyDate]
    rw [hod, Py.ok_bind]
    have hgrid : (if a - b ≠ 0 then (irOf cal b none .default none .zero none [(b, s)] : IRCurve D P).base.domain.map (· + (a - b))
        else (irOf cal b none .default none .zero none [(b, s)] : IRCurve D P).base.domain) = [a] := by
      rw [show (irOf cal b none .default none .zero none [(b, s)] : IRCurve D P).base.domain = [b] from rfl]
      split_ifs with h0
      · simp
      · rw [sub_eq_zero.1 (not_not.1 h0)]
    simp only [hgrid]
    exact hcast b a s none none same₂
  simp only [IRCurve.binop, hop, Py.ok_bind]
  have hxs : sortedSet ((irOf cal a none .default none .zero ta [(a, r)] : IRCurve D P).base.domain ++
      (irOf cal a none .default none .zero none [(a, s)] : IRCurve D P).base.domain) = [a] := by
    show sortedSet [a, a] = [a]
    have h1 := sortedSet_strict [a, a]
    have h2 : ∀ x, x ∈ sortedSet [a, a] ↔ x = a := fun x => by rw [sortedSet_mem]; simp
    cases hl : sortedSet [a, a] with
    | nil => rw [hl] at h2; exact absurd ((h2 a).2 rfl) (by simp)
    | cons x l =>
      rw [hl] at h1 h2
      obtain rfl := (h2 x).1 (by simp)
      cases l with
      | nil => rfl
      | cons y l =>
        obtain rfl := (h2 y).1 (by simp)
        simp at h1
  rw [hxs, pyMap_ok (g := fun _ => op r s) fun x _ => by simp [hcall], Py.ok_bind]
  have e1 := hnew a (op r s) none none a rfl
  have e2 := hnew a (op r s) none (some a) a rfl
  rw [show (irOf cal a none .default none .zero ta [(a, r)] : IRCurve D P).cls = .zero from rfl,
    show (irOf cal a none .default none .zero ta [(a, r)] : IRCurve D P).base.interp = none from rfl]
  simp only [List.map_cons, List.map_nil]
  rw [e1, Py.ok_bind, show (irOf cal a none .default none .zero none [(a, op r s)] : IRCurve D P).base.domain = [a] from rfl,
    pyMap_ok (g := fun _ => op r s) fun x _ => hcall a (op r s) none x, Py.ok_bind,
    show (irOf cal a none .default none .zero none [(a, op r s)] : IRCurve D P).base.interp = none from rfl,
    irOf_origin cal (o? := none) (pts := [(a, r)]) (o := a) rfl,
    show (irOf cal a none .default none .zero ta [(a, r)] : IRCurve D P).base.dc = .default from rfl]
  simp only [List.map_cons, List.map_nil]
  rw [e2, Py.ok_bind, cast_castOn cal (Or.inl rfl)]
  exact hcast a a (op r s) none ta same₃

/-- C115 for different origins is not vacuous: flat curves from the dates 0 and 5. -/
example : (∃ f : IRCurve ℤ ℤ, IRCurve.new dayCal .zero [0] [1 / 50] none none .default none = .ok f) ∧
    ∃ g : IRCurve ℤ ℤ, IRCurve.new dayCal .zero [5] [1 / 100] none none .default none = .ok g := by
  have hτ' : GoodDayCount (DayCountArg.fn dayCal .default) := goodDayCount_int
  have h : ∀ (c : ℤ) (y : ℝ), ∃ f : IRCurve ℤ ℤ, IRCurve.new dayCal .zero [c] [y] none none .default none = .ok f := fun c y =>
    ⟨_, IRCurve_new_eq dayCal (pts := [(c, y)]) (cls := .zero) (i := none) (o? := none) (o := c) (dc := .default) (by simp)
      (by simp [(dflt_plain (Or.inl rfl)).1]) rfl trivial hτ' (tenor := none)⟩
  exact ⟨h _ _, h _ _⟩

/-- C115 (what goes wrong): a flat zero curve with days counted double, plus zero, has only half the interest. -/
theorem C115_day_count_violated (r : ℝ) (limit : ℕ) (same₁ same₂ same₃ : ℤ → Bool) :
    ∃ f g S : IRCurve ℤ ℤ, IRCurve.new dayCal .zero [0] [r] none none (.func (fun a b => 2 * dayCal.dayCount a b) none) none = .ok f ∧
      IRCurve.new dayCal .zero [0] [0] none none .default none = .ok g ∧
      f.binop dayCal (· + ·) (limit + 1) same₁ same₂ same₃ g = .ok S ∧
      ∀ t, f.factor dayCal false 0 t = .ok (Real.exp (-(r * (2 * dayCal.dayCount 0 t)))) ∧ g.factor dayCal false 0 t = .ok 1 ∧
        S.factor dayCal false 0 t = .ok (Real.exp (-(r * dayCal.dayCount 0 t))) := by
  have hτ : GoodDayCount dayCal.dayCount := goodDayCount_int
  have hτ' : GoodDayCount (DayCountArg.fn dayCal .default) := hτ
  set dc : DayCountArg ℤ := .func (fun a b => 2 * dayCal.dayCount a b) none with hdc
  have hdu : dc.Usable := trivial
  have hdg : GoodDayCount (dc.fn dayCal) := by
    refine ⟨fun a b c => ?_, fun a b => ?_⟩
    · show 2 * dayCal.dayCount a b + 2 * dayCal.dayCount b c = 2 * dayCal.dayCount a c
      rw [← hτ.add a b c]; ring
    · show 0 < 2 * dayCal.dayCount a b ↔ a < b
      rw [← hτ.pos a b]
      constructor <;> intro h <;> linarith
  have hA : (([(0, r)] : List (ℤ × ℝ)).map Prod.fst).Nodup := by simp
  have hB : (([(0, 0)] : List (ℤ × ℝ)).map Prod.fst).Nodup := by simp
  have n1 := IRCurve_new_eq dayCal (cls := .zero) (i := none) (o? := none) (o := 0) (dc := dc) hA (by simp [(dflt_plain (Or.inl rfl)).1]) rfl hdu hdg
    (tenor := none)
  have n2 := IRCurve_new_eq dayCal (cls := .zero) (i := none) (o? := none) (o := 0) (dc := .default) hB (by simp [(dflt_plain (Or.inl rfl)).1]) rfl trivial hτ'
    (tenor := none)
  have hf := zero_answers (cal := dayCal) (o? := none) (o := 0) (dc := dc) (tenor := none) hA (by simp) rfl hdu hdg
  have hg := zero_answers (cal := dayCal) (o? := none) (o := 0) (dc := .default) (tenor := none) hB (by simp) rfl trivial hτ'
  obtain ⟨m, hm, hS⟩ := binop_eq dayCal (Or.inl rfl) hτ hA hB (by simp) (oa := none) (ob := none) (o := 0) rfl rfl (i := none) (j := none)
    (dc := dc) hdu hdg rfl rfl none none hf.call hg.call (· + ·) limit same₁ same₂ same₃
  have hxs : sortedSet (([(0, r)] : List (ℤ × ℝ)).map Prod.fst ++ ([(0, 0)] : List (ℤ × ℝ)).map Prod.fst) = [0] := by
    show sortedSet [(0 : ℤ), 0] = [0]
    decide
  rw [hxs] at hm hS
  obtain rfl : 0 = m := by simpa using hm
  simp only [List.map_cons, List.map_nil, linVal_single, add_zero] at hS
  have hSa := zero_answers (cal := dayCal) (o? := none) (o := 0) (dc := .default) (tenor := none) hA (by simp) rfl trivial hτ'
  obtain ⟨df, -, e1, h1, -⟩ := C28_zero hf rfl
  obtain ⟨dg, -, e2, h2, -⟩ := C28_zero hg rfl
  obtain ⟨ds, -, e3, h3, -⟩ := C28_zero hSa rfl
  refine ⟨_, _, _, n1, n2, hS, fun t => ⟨?_, ?_, ?_⟩⟩
  · rw [h1 false 0 t (by simp), e1, linVal_single, linVal_single, hdg.self]
    simp [hdc, DayCountArg.fn]
  · rw [h2 false 0 t (by simp), e2, linVal_single, linVal_single]; simp
  · rw [h3 false 0 t (by simp), e3, linVal_single, linVal_single, hτ'.self]
    simp [DayCountArg.fn]

/-- C115 is not vacuous: curves on the dates 0, 2 and 0, 1 with origin 0 meet the hypotheses, for both classes. -/
example : (∃ f g, RateOperands dayCal .zero [(0, 1 / 50), (2, 1 / 20)] [(0, 1 / 100), (1, 3 / 100)] 0 none none none none f g) ∧
    (∃ f g, RateOperands dayCal .short [(0, 1 / 50), (2, 1 / 20)] [(0, 1 / 100), (1, 3 / 100)] 0 none none none none f g) ∧
    (0 : ℤ) ∈ [0, 2] ++ [0, 1] ∧ ∀ d ∈ ([0, 2] ++ [0, 1] : List ℤ), 0 ≤ d := by
  have hτ : GoodDayCount dayCal.dayCount := goodDayCount_int
  have hτ' : GoodDayCount (DayCountArg.fn dayCal .default) := hτ
  have hA : (([(0, 1 / 50), (2, 1 / 20)] : List (ℤ × ℝ)).map Prod.fst).Nodup := by simp
  have hB : (([(0, 1 / 100), (1, 3 / 100)] : List (ℤ × ℝ)).map Prod.fst).Nodup := by simp
  refine ⟨⟨_, _, hτ, hA, hB, by simp, by simp, rfl, rfl,
    IRCurve_new_eq dayCal (dc := .default) hA (by simp [(dflt_plain (Or.inl rfl)).1]) rfl trivial hτ',
    IRCurve_new_eq dayCal (dc := .default) hB (by simp [(dflt_plain (Or.inl rfl)).1]) rfl trivial hτ'⟩,
    ⟨_, _, hτ, hA, hB, by simp, by simp, rfl, rfl,
    IRCurve_new_eq dayCal (dc := .default) hA (by simp [(dflt_plain (Or.inr rfl)).1]) rfl trivial hτ',
    IRCurve_new_eq dayCal (dc := .default) hB (by simp [(dflt_plain (Or.inr rfl)).1]) rfl trivial hτ'⟩, by simp, by simp⟩

end Dcf
