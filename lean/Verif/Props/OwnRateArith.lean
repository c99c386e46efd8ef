import Verif.Model.OwnRateArith
import Verif.Props.OwnRate
import Verif.Props.RateArith
import Verif.Props.Risk

/-! # C187: arithmetic, shifts, spreads and risk numbers of rate curves with an interpolation written by the user -/

set_option linter.unusedSectionVars false
set_option linter.unusedSimpArgs false
set_option linter.unusedVariables false

namespace Dcf

open Spec

section
variable {D P : Type} [LinearOrder D] [AddCommGroup D] {cal : Cal D P} {γ γ' : Fit} {r r' : Option Fit} {o : D} {o? : Option D}

/-- A curve quoting the given points at its dates, cast to its own class, is the curve of the package through them. -/
theorem quoting_castOn {cls : IRClass} (hcls : cls = .zero ∨ cls = .short) (hτ : GoodDayCount cal.dayCount) {pts : List (D × ℝ)}
    (hn : (pts.map Prod.fst).Nodup) (ho : o?.or (pts.map Prod.fst).head? = some o) {c : IRCurve D P} (hc : c.cls = cls)
    (hor : c.base.origin? = o?) {a : D} (ho' : c.base.origin = some a) (hdc : c.base.dc = .default)
    (hv : ∀ p ∈ pts, c.call cal p.1 = .ok p.2) (t' : Option P) (limit : ℕ) (same : D → Bool) :
    c.castOn cal cls (limit + 1) same (pts.map Prod.fst) none none .default t' = .ok (irOf cal o o? .default none cls t' pts) := by
  have hdata : pyMap (cls.storage cal (limit + 1) same c) (pts.map Prod.fst) = .ok (pts.map Prod.snd) := by
    rw [pyMap_map]
    refine pyMap_ok fun p hp => ?_
    rw [storage_self cal hcls hc ho', hv p hp]
  simp only [IRCurve.castOn]
  rw [hdata, Py.ok_bind, hor, hdc]
  exact IRCurve_new_eq cal hn (by simp [(dflt_plain hcls).1]) ho trivial hτ

/-- C187 (second operand): as second operand of sums, differences, products and quotients a curve with an own interpolation is the curve of
the package through its points: its interpolation is not used. -/
theorem C187_operand {cls : IRClass} (hcls : cls = .zero ∨ cls = .short) (hγ : Spec.Interpolates γ) (hτ : GoodDayCount cal.dayCount)
    {B : List (D × ℝ)} (hB : (B.map Prod.fst).Nodup) (hB0 : B ≠ []) (ho : o?.or (B.map Prod.fst).head? = some o) (tenor : Option P) :
    ∃ g ĝ : IRCurve D P, IRCurve.own cal cls (B.map Prod.fst) (B.map Prod.snd) (.func γ r) o? .default tenor = .ok g ∧
      IRCurve.new cal cls (B.map Prod.fst) (B.map Prod.snd) none o? .default tenor = .ok ĝ ∧
      ∀ (f : IRCurve D P), f.cls = cls → ∀ limit same₁ same₂ same₃,
        (∀ op, f.binop cal op (limit + 1) same₁ same₂ same₃ g = f.binop cal op (limit + 1) same₁ same₂ same₃ ĝ) ∧
        (∀ i op, f.ownBinop cal i op (limit + 1) same₁ same₂ same₃ g = f.ownBinop cal i op (limit + 1) same₁ same₂ same₃ ĝ) ∧
        f.div cal (limit + 1) same₁ same₂ g = f.div cal (limit + 1) same₁ same₂ ĝ ∧
        ∀ i, f.ownDiv cal i (limit + 1) same₁ same₂ g = f.ownDiv cal i (limit + 1) same₁ same₂ ĝ := by
  obtain ⟨g, v, h1, h2, h3, hc, hd, -, hor, hdc, -⟩ := C173_rates (r := r) (tenor := tenor) (dc := .default) hγ hB hB0 ho trivial hτ cls
  refine ⟨g, irOf cal o o? .default none cls tenor B, h1, IRCurve_new_eq cal hB (by simp [(dflt_plain hcls).1]) ho trivial hτ,
    fun f hf limit same₁ same₂ same₃ => ?_⟩
  have key : f.operand cal (limit + 1) same₁ same₂ g = f.operand cal (limit + 1) same₁ same₂ (irOf cal o o? .default none cls tenor B) := by
    simp only [IRCurve.operand, hf, cast_castOn cal hcls]
    rw [hd, quoting_castOn hcls hτ hB ho hc hor h2.origin hdc (fun p hp => by rw [h2.call, h3 p hp]),
      show (irOf cal o o? .default none cls tenor B : IRCurve D P).base.domain = B.map Prod.fst from rfl,
      cast_self cal hcls hτ hB ho rfl]
  refine ⟨fun op => ?_, fun i op => ?_, ?_, fun i => ?_⟩
  · simp only [IRCurve.binop, key]
  · simp only [IRCurve.ownBinop, key]
  · simp only [IRCurve.div, key]
  · simp only [IRCurve.ownDiv, key]

/-- C187 (arithmetic): sums, differences and products of two curves with one origin and own interpolations are the curves of the package through
the combined values at all dates of both; at the dates of the first only, the second is interpolated as in the package.  At dates given to both the
given values are combined, whatever the interpolations. -/
theorem C187_arithmetic {cls : IRClass} (hcls : cls = .zero ∨ cls = .short) (hγ : Spec.Interpolates γ) (hγ' : Spec.Interpolates γ')
    (hτ : GoodDayCount cal.dayCount) {A B : List (D × ℝ)} (hA : (A.map Prod.fst).Nodup) (hA0 : A ≠ []) (hB : (B.map Prod.fst).Nodup) (hB0 : B ≠ [])
    {oa ob : Option D} (hoa : oa.or (A.map Prod.fst).head? = some o) (hob : ob.or (B.map Prod.fst).head? = some o)
    {dc : DayCountArg D} (hdu : dc.Usable) (hdg : GoodDayCount (dc.fn cal)) (ta tb : Option P)
    (op : ℝ → ℝ → ℝ) (limit : ℕ) (same₁ same₂ same₃ : D → Bool) :
    ∃ (f g ĝ S : IRCurve D P) (X : List D) (y : D → ℝ),
      IRCurve.own cal cls (A.map Prod.fst) (A.map Prod.snd) (.func γ r) oa dc ta = .ok f ∧
      IRCurve.own cal cls (B.map Prod.fst) (B.map Prod.snd) (.func γ' r') ob .default tb = .ok g ∧
      IRCurve.new cal cls (B.map Prod.fst) (B.map Prod.snd) none ob .default tb = .ok ĝ ∧
      f.ownBinop cal (.func γ r) op (limit + 1) same₁ same₂ same₃ g = .ok S ∧
      X.Pairwise (· < ·) ∧ (∀ x, x ∈ X ↔ (∃ z, (x, z) ∈ A) ∨ ∃ z, (x, z) ∈ B) ∧
      IRCurve.new cal cls X (X.map y) none none .default ta = .ok S ∧
      (∀ x ∈ X, S.call cal x = .ok (y x)) ∧
      (∀ x ∈ X, ∃ a b, f.call cal x = .ok a ∧ ĝ.call cal x = .ok b ∧ y x = op a b) ∧
      (∀ x a b, (x, a) ∈ A → (x, b) ∈ B → S.call cal x = .ok (op a b)) := by
  obtain ⟨f, u, f1, f2, f3, fc, fd, ft, fo, fdc, -⟩ := C173_rates (r := r) (tenor := ta) hγ hA hA0 hoa hdu hdg cls
  obtain ⟨g, w, g1, g2, g3, gc, gd, -, go, gdc, -⟩ := C173_rates (r := r') (tenor := tb) (dc := .default) hγ' hB hB0 hob trivial hτ cls
  set ĝ : IRCurve D P := irOf cal o ob .default none cls tb B with hĝ
  have hnode : ∀ p ∈ B, ĝ.call cal p.1 = .ok p.2 := fun p hp => irOf_node cal (dc := .default) hob trivial hτ hB
    (by simp [(dflt_plain hcls).1]) (by simp [(dflt_plain hcls).2]) hp
  have hall : ∀ x, ∃ y, ĝ.call cal x = .ok y := by
    intro x
    rcases hcls with rfl | rfl
    · refine ⟨linVal cal.dayCount o B x, irOf_call_some cal (dc := .default) hob trivial ?_⟩
      exact funcOf_linear_call (timePts_nodup hτ o hB) (by simpa [timePts] using hB0) _
    · obtain ⟨y, hy, -⟩ := short_left cal hτ hB hB0 hob (i := none) rfl tb x
      exact ⟨y, hy⟩
  choose v hv using hall
  set X := sortedSet (A.map Prod.fst ++ B.map Prod.fst) with hX
  have hXs : X.Pairwise (· < ·) := sortedSet_strict _
  have hnd : X.Nodup := hXs.imp fun h => h.ne
  have hne : X ≠ [] := List.ne_nil_of_mem (sortedSet_mem.2 (List.mem_append_left _ (List.head_mem (by simpa using hA0))))
  obtain ⟨m, hm⟩ : ∃ m, X.head? = some m := by
    obtain ⟨a, l, h⟩ := List.exists_cons_of_ne_nil hne; exact ⟨a, by rw [h]; rfl⟩
  have hmem : ∀ x, x ∈ X ↔ (∃ z, (x, z) ∈ A) ∨ ∃ z, (x, z) ∈ B := fun x => by
    rw [hX, sortedSet_mem, List.mem_append]
    simp only [List.mem_map, Prod.exists, exists_and_right, exists_eq_right]
  set y : D → ℝ := fun x => op (u x) (v x) with hy
  set pts := X.map fun x => (x, y x) with hpts
  have hfst : pts.map Prod.fst = X := graph_fst _ _
  have hsnd : pts.map Prod.snd = X.map y := graph_snd _ _
  have hmp : (none : Option D).or (pts.map Prod.fst).head? = some m := by rw [hfst]; exact hm
  have hpn : (pts.map Prod.fst).Nodup := by rw [hfst]; exact hnd
  have hp0 : pts ≠ [] := by simpa [hpts] using hne
  set S : IRCurve D P := irOf cal m none .default none cls ta pts with hS
  have hSc : ∀ x ∈ X, S.call cal x = .ok (y x) := fun x hx => irOf_node cal (dc := .default) hmp trivial hτ hpn
    (by simp [(dflt_plain hcls).1]) (by simp [(dflt_plain hcls).2]) (List.mem_map.2 ⟨x, hx, rfl⟩)
  have hyx : ∀ x a b, (x, a) ∈ A → (x, b) ∈ B → S.call cal x = .ok (op a b) := fun x a b ha hb => by
    have hb' : v x = b := Except.ok.inj ((hv x).symm.trans (hnode (x, b) hb))
    have ha' : u x = a := f3 (x, a) ha
    rw [hSc x ((hmem x).2 (.inl ⟨a, ha⟩)), ← ha', ← hb']
  have hnewS : IRCurve.new cal cls X (X.map y) none none .default ta = .ok S := by
    rw [← hsnd, ← hfst]
    exact IRCurve_new_eq cal hpn (by simp [(dflt_plain hcls).1]) hmp trivial hτ
  refine ⟨f, g, ĝ, S, X, y, f1, g1, IRCurve_new_eq cal hB (by simp [(dflt_plain hcls).1]) hob trivial hτ, ?_, hXs, hmem, hnewS, hSc,
    fun x _ => ⟨u x, v x, f2.call x, hv x, rfl⟩, hyx⟩
  have hop : f.operand cal (limit + 1) same₁ same₂ g = .ok (irOf cal o ob .default none cls none B) := by
    simp only [IRCurve.operand, fc, cast_castOn cal hcls]
    rw [gd, quoting_castOn hcls hτ hB hob gc go g2.origin gdc (fun p hp => by rw [g2.call, g3 p hp]), Py.ok_bind]
    have hod : originDiff f.base (irOf cal o ob .default none cls none B : IRCurve D P).base = .ok 0 := by
      simp [originDiff, f2.origin, irOf_origin cal hob, pyDate]
    rw [hod, Py.ok_bind]
    simp only [ne_eq, not_true_eq_false, if_false]
    exact cast_self cal hcls hτ hB hob rfl none none limit same₂
  have hv₂ : ∀ x, (irOf cal o ob .default none cls none B : IRCurve D P).call cal x = .ok (v x) := fun x => by
    rw [← hv x, hĝ, irOf_call cal (dc := .default) hob trivial, irOf_call cal (dc := .default) hob trivial]
  obtain ⟨n, vn, n1, n2, n3, nc, nd, -, no, ndc, -⟩ := C173_rates (r := r) (tenor := (none : Option P)) (dc := .default) hγ hpn hp0 hmp trivial hτ cls
  obtain ⟨n', -, n1', -⟩ := C173_rates (r := r) (tenor := (none : Option P)) (o? := some o) (o := o) hγ hpn hp0 rfl hdu hdg cls
  rw [hfst, hsnd] at n1 n1'
  simp only [IRCurve.ownBinop, hop, Py.ok_bind, fd, fc, fdc, ft, f2.origin]
  rw [show (irOf cal o ob .default none cls none B : IRCurve D P).base.domain = B.map Prod.fst from rfl, ← hX,
    pyMap_ok (g := y) fun x _ => by simp [f2.call, hv₂, hy], Py.ok_bind, n1, Py.ok_bind, nd, hfst,
    pyMap_ok (g := y) fun x hx => by rw [n2.call, n3 (x, y x) (List.mem_map.2 ⟨x, hx, rfl⟩)], Py.ok_bind, n1', Py.ok_bind,
    cast_castOn cal hcls, nd]
  exact quoting_castOn hcls hτ hpn hmp nc no n2.origin ndc (fun p hp => by rw [n2.call, n3 p hp]) ta limit same₃

/-- C187 (quotients): no quotient is ever returned, as for the curves of the package. -/
theorem C187_div_violated (i : InterpArg) (limit : ℕ) (same₁ same₂ : D → Bool) (f g S : IRCurve D P) : f.ownDiv cal i limit same₁ same₂ g ≠ .ok S := by
  intro h
  simp only [IRCurve.ownDiv, Py.bind_eq_ok] at h
  obtain ⟨_, -, b, -, h⟩ := h
  cases b
  · simp only [Bool.false_eq_true, if_false, Py.pure_eq, Py.ok_bind, Py.bind_eq_ok] at h
    obtain ⟨_, -, _, -, h⟩ := h
    simp [Py.throw_eq] at h
  · simp [Py.throw_eq] at h

/-- C187 (shifts): a shifted curve has the moved dates, the values the curve has at them, and the interpolation of the package. -/
theorem C187_shift {cls : IRClass} (hcls : cls = .zero ∨ cls = .short) (hγ : Spec.Interpolates γ) (hτ : GoodDayCount cal.dayCount)
    {pts : List (D × ℝ)} (hn : (pts.map Prod.fst).Nodup) (hne : pts ≠ []) (ho : o?.or (pts.map Prod.fst).head? = some o) (tenor : Option P)
    (limit : ℕ) (same : D → Bool) (delta : D) :
    ∃ (c S : IRCurve D P) (u : D → ℝ), IRCurve.own cal cls (pts.map Prod.fst) (pts.map Prod.snd) (.func γ r) o? .default tenor = .ok c ∧
      (∀ x, c.call cal x = .ok (u x)) ∧ c.shifted cal (limit + 1) same delta = .ok S ∧
      IRCurve.new cal cls (pts.map (·.1 + delta)) (pts.map fun p => u (p.1 + delta)) none o? .default none = .ok S ∧
      (∀ p ∈ pts, S.call cal (p.1 + delta) = .ok (u (p.1 + delta))) ∧ (delta = 0 → ∀ p ∈ pts, S.call cal p.1 = .ok p.2) := by
  obtain ⟨c, u, h1, h2, h3, hc, hd, -, hor, hdc, -⟩ := C173_rates (r := r) (tenor := tenor) (dc := .default) hγ hn hne ho trivial hτ cls
  set q : List (D × ℝ) := pts.map fun p => (p.1 + delta, u (p.1 + delta)) with hq
  have q1 : q.map Prod.fst = pts.map (·.1 + delta) := by simp [hq, Function.comp_def]
  have q2 : q.map Prod.snd = pts.map fun p => u (p.1 + delta) := by simp [hq, Function.comp_def]
  have qn : (q.map Prod.fst).Nodup := by
    rw [q1, show (pts.map (·.1 + delta)) = (pts.map Prod.fst).map (· + delta) by simp [Function.comp_def]]
    exact hn.map (add_left_injective delta)
  obtain ⟨o', ho'⟩ : ∃ o', o?.or (q.map Prod.fst).head? = some o' := by
    cases o? with
    | some a => exact ⟨a, rfl⟩
    | none => obtain ⟨a, l, h⟩ := List.exists_cons_of_ne_nil hne; exact ⟨a.1 + delta, by simp [q1, h]⟩
  have hnew := IRCurve_new_eq cal (i := none) (dc := .default) (cls := cls) (tenor := (none : Option P)) qn (by simp [(dflt_plain hcls).1]) ho' trivial hτ
  have hnode : ∀ p ∈ pts, (irOf cal o' o? .default none cls none q : IRCurve D P).call cal (p.1 + delta) = .ok (u (p.1 + delta)) := fun p hp =>
    irOf_node cal (dc := .default) ho' trivial hτ qn (by simp [(dflt_plain hcls).1]) (by simp [(dflt_plain hcls).2]) (List.mem_map.2 ⟨p, hp, rfl⟩)
  refine ⟨c, _, u, h1, h2.call, ?_, by rw [← q1, ← q2]; exact hnew, hnode, fun h0 p hp => ?_⟩
  · have hgrid : (if delta ≠ 0 then c.base.domain.map (· + delta) else c.base.domain) = q.map Prod.fst := by
      rw [hd, q1]
      split_ifs with h
      · simp [Function.comp_def]
      · simp only [ne_eq, not_not] at h; simp [h]
    simp only [IRCurve.shifted, hc, hgrid]
    exact quoting_castOn hcls hτ qn ho' hc hor h2.origin hdc (fun p hp => by
      obtain ⟨p', -, rfl⟩ := List.mem_map.1 hp
      exact h2.call _) none limit same
  · have := hnode p hp
    rw [h0, add_zero] at this
    rw [this, h3 p hp]

/-- C187 (`kwargs`): a curve whose interpolation is found by its name is rebuilt from its `kwargs`; for a function that is not
found this raises. -/
theorem C187_kwargs (hγ : Spec.Interpolates γ) (hτ : GoodDayCount cal.dayCount) {pts : List (D × ℝ)} (hn : (pts.map Prod.fst).Nodup)
    (hne : pts ≠ []) (ho : o?.or (pts.map Prod.fst).head? = some o) (cls : IRClass) (tenor : Option P) :
    ∃ c : IRCurve D P, (∀ r, IRCurve.own cal cls (pts.map Prod.fst) (pts.map Prod.snd) (.func γ r) o? .default tenor = .ok c) ∧
      c.ownRebuild cal (.func γ (some γ)) = .ok c ∧ c.ownRebuild cal (.func γ none) = .error .type := by
  have hτ' : GoodDayCount (DayCountArg.fn cal .default) := hτ
  obtain ⟨g, h1, h2, h3, h4⟩ := ownRate_eq (r := none) (tenor := tenor) (dc := .default) hγ hn hne ho trivial hτ' cls.dflt
  have hrun := fun i => ownRate_run (cal := cal) (tenor := tenor) (dc := .default) trivial ho i cls.dflt
  have hv : pyMap (IRCurve.call cal (⟨ownOf o? .default cls.dflt tenor (pts.map Prod.fst) fun x => .ok (some (g x)), cls⟩ : IRCurve D P)) (pts.map Prod.fst) =
      .ok (pts.map Prod.snd) := by
    rw [pyMap_map]
    exact pyMap_ok fun p hp => (h2 p.1).trans (by rw [h3 p hp])
  refine ⟨⟨ownOf o? .default cls.dflt tenor (pts.map Prod.fst) fun x => .ok (some (g x)), cls⟩, fun r => ?_, ?_, ?_⟩
  · unfold IRCurve.own
    rw [hrun]
    show (do let c ← _ <$> γ _ _; _) = _
    rw [h4]; rfl
  · unfold IRCurve.ownRebuild
    show (do let ys ← pyMap _ (pts.map Prod.fst); IRCurve.own cal cls (pts.map Prod.fst) ys (.named (some γ)) o? .default tenor) = _
    rw [hv, Py.ok_bind]
    unfold IRCurve.own
    rw [hrun]
    show (do let c ← _ <$> γ _ _; _) = _
    rw [h4]; rfl
  · unfold IRCurve.ownRebuild
    show (do let ys ← pyMap _ (pts.map Prod.fst); IRCurve.own cal cls (pts.map Prod.fst) ys (.named none) o? .default tenor) = _
    rw [hv, Py.ok_bind]
    unfold IRCurve.own
    rw [hrun]; rfl

end

section
variable {D P : Type} [LinearOrder D] {cal : Cal D P} {γ : Fit} {r : Option Fit} {dc : DayCountArg D} {o : D} {o? : Option D}
  {tenor : Option P} {pts : List (D × ℝ)}

/-- C187 (spreads): a spread adds to the values of the curve; discount factors from the origin to the given dates are the given zero rates
plus spread compounded.  Removing the spread gives the curve back. -/
theorem C187_spread (hγ : Spec.Interpolates γ) (hn : (pts.map Prod.fst).Nodup) (hne : pts ≠ []) (ho : o?.or (pts.map Prod.fst).head? = some o)
    (hd : dc.Usable) (hτ : GoodDayCount (dc.fn cal)) (s : D → ℝ) :
    ∃ (c : IRCurve D P) (rc : RateCurve D P), IRCurve.own cal .zero (pts.map Prod.fst) (pts.map Prod.snd) (.func γ r) o? dc tenor = .ok c ∧
      c.toRateCurve.setSpread (some fun x => .ok (some (s x))) = .ok rc ∧
      (∀ x y, c.call cal x = .ok y → rc.call cal x = .ok (y + s x)) ∧
      (∀ p ∈ pts, ∀ same, IRCurve.factor cal ⟨rc, .zero⟩ same o p.1 = .ok (Real.exp (-((p.2 + s p.1) * dc.fn cal o p.1)))) ∧
      rc.setSpread none = .ok c.toRateCurve := by
  obtain ⟨c, v, h1, h2, h3, hc, -, -, -, -, hs⟩ := C173_rates (r := r) (tenor := tenor) hγ hn hne ho hd hτ .zero
  have hcall : ∀ x y, c.call cal x = .ok y → RateCurve.call cal { c.toRateCurve with spread := some fun x => .ok (some (s x)) } x = .ok (y + s x) := by
    intro x y h
    simp only [IRCurve.call, RateCurve.call, hs] at h ⊢
    cases hb : c.base.call cal x with
    | error e => simp [hb] at h
    | ok b =>
      cases b with
      | none => simp [hb, pyNum] at h
      | some b => simp [hb, pyNum] at h ⊢; exact h
  have hans : Answers cal (⟨{ c.toRateCurve with spread := some fun x => .ok (some (s x)) }, .zero⟩ : IRCurve D P) (fun x => v x + s x) (dc.fn cal) o :=
    ⟨fun x => hcall x _ (h2.call x), h2.dayCount, h2.good, h2.origin⟩
  obtain ⟨df, -, h5, h6, -⟩ := C28_zero hans rfl
  refine ⟨c, _, h1, by simp [RateCurve.setSpread, hs], hcall, fun p hp same => ?_, ?_⟩
  · rw [h6 same o p.1 fun _ => rfl, h5, h3 p hp, hτ.self]; simp
  · rw [RateCurve.setSpread, if_neg (by simp), ← hs]

/-- C187 (risk numbers): basis point value and bucketed deltas of flows on given dates depend on the given zero rates, not on the interpolation. -/
theorem C187_risk (hγ : Spec.Interpolates γ) (hn : (pts.map Prod.fst).Nodup) (hne : pts ≠ []) (ho : o?.or (pts.map Prod.fst).head? = some o)
    (hd : dc.Usable) (hτ : GoodDayCount (dc.fn cal)) :
    ∃ c : IRCurve D P, IRCurve.own cal .zero (pts.map Prod.fst) (pts.map Prod.snd) (.func γ r) o? dc tenor = .ok c ∧
      ∀ (w : World D P) (disc : ℕ) (p : Product D) (L : List (D × ℝ)) (z : D → ℝ) (shift : ℝ) (same : Bool), w.curves disc = c.obj → Pays cal w o p L →
        (∀ q ∈ L, (q.1, z q.1) ∈ pts) → shift ≠ 0 →
        (Pays cal (w.bumped [disc] shift) o p L → basisPointValue cal disc same p (some o) none shift w =
          (.ok ((L.map fun q => Real.exp (-(z q.1 * dc.fn cal o q.1)) * q.2 * ((Real.exp (-(shift * dc.fn cal o q.1)) - 1) / shift)).sum * (1 / 10000)), w)) ∧
        ∀ (grid : Option (List D)) (G : List D), GoodDayCount cal.dayCount → (∀ φ : D → ℝ, Pays cal (w.spreadBy [disc] φ) o p L) →
          deltaGrid c.obj grid = G → G ≠ [] → G.Pairwise (· < ·) →
          ∃ ds : List ℝ, bucketedDelta cal disc same p (some o) none grid shift w = (.ok ds, w) ∧
            ∃ hl : ds.length = G.length, ∀ k (hk : k < G.length), ds[k] = (L.map fun q => Real.exp (-(z q.1 * dc.fn cal o q.1)) * q.2 *
              ((Real.exp (-(shift * (triangle cal.dayCount G k hk q.1 * dc.fn cal o q.1))) - 1) / shift)).sum * (1 / 10000) := by
  obtain ⟨c, v, h1, h2, h3, hc, -, -, -, -, hs⟩ := C173_rates (r := r) (tenor := tenor) hγ hn hne ho hd hτ .zero
  obtain ⟨df, -, h5, h6, -⟩ := C28_zero h2 hc
  refine ⟨c, h1, fun w disc p L z shift same hw hp hL hs0 => ?_⟩
  have hdf : ∀ q ∈ L, (w.curves disc).discountFactor cal same o q.1 = .ok (Real.exp (-(z q.1 * dc.fn cal o q.1))) := fun q hq => by
    rw [hw]
    have : c.obj.discountFactor cal same o q.1 = c.factor cal same o q.1 := rfl
    rw [this, h6 same o q.1 fun _ => rfl, h5, h3 _ (hL q hq), hτ.self]; simp
  have hw' : w.curves disc = ⟨c.toRateCurve, .ir .zero⟩ := by rw [hw, ← hc]; rfl
  refine ⟨fun hp' => ?_, fun grid G hτ' hpφ hG hG0 hinc => ?_⟩
  · exact C61_zero (df := fun t => Real.exp (-(z t * dc.fn cal o t))) hτ hw' h2.dayCount hs (by rw [h2.origin]; simp) hp hp' hdf hs0
  · exact C139_buckets (df := fun t => Real.exp (-(z t * dc.fn cal o t))) hτ hτ' hw' h2.dayCount hs h2.origin hp hpφ hdf (by rw [hw]; exact hG) hG0 hinc hs0

end

/-! ### Where the interpolation is lost -/

/-- The curves of the package through values of 0 are 0. -/
theorem package_zeros {D P : Type} [LinearOrder D] [AddCommGroup D] {cal : Cal D P} {cls : IRClass} (hcls : cls = .zero ∨ cls = .short)
    (hτ : GoodDayCount cal.dayCount) {pts : List (D × ℝ)} (hn : (pts.map Prod.fst).Nodup) (h0 : ∀ p ∈ pts, p.2 = 0) {o : D} {o? : Option D}
    (ho : o?.or (pts.map Prod.fst).head? = some o) {tenor : Option P} {c : IRCurve D P}
    (hc : IRCurve.new cal cls (pts.map Prod.fst) (pts.map Prod.snd) none o? .default tenor = .ok c) (hne : pts ≠ []) (x : D) :
    c.call cal x = .ok 0 := by
  rw [IRCurve_new_eq cal (dc := .default) (i := none) hn (by simp [(dflt_plain hcls).1]) ho trivial hτ] at hc
  rw [← Except.ok.inj hc]
  rcases hcls with rfl | rfl
  · have hl := sortPairs_strict (timePts_nodup hτ o hn)
    have hl0 := sortPairs_ne_nil (l := timePts cal.dayCount o pts) (by simpa [timePts] using hne)
    have hv : flin (sortPairs (timePts cal.dayCount o pts)) (cal.dayCount o x) = 0 := by
      have := flin_bounds hl hl0 (a := 0) (b := 0) (fun p hp => by
        obtain ⟨q, hq, rfl⟩ := List.mem_map.1 ((sortPairs_perm _).subset hp)
        simp [h0 q hq]) (cal.dayCount o x)
      exact le_antisymm this.2 this.1
    rw [← hv]
    exact irOf_call_some cal (dc := .default) ho trivial (funcOf_linear_call (timePts_nodup hτ o hn) (by simpa [timePts] using hne) _)
  · obtain ⟨y, h1, p, hp, h2, -⟩ := short_left cal hτ hn hne ho (i := none) rfl tenor x
    rw [h1, ← h2, h0 p hp]

/-- C187 (violation): sums are not pointwise.  Two curves with zero rates of 0 at their dates and 1 elsewhere: at a date of the first the sum
ignores the value of the second, and between the dates the values of both. -/
theorem C187_pointwise_violated {cls : IRClass} (hcls : cls = .zero ∨ cls = .short) (limit : ℕ) (same₁ same₂ same₃ : ℤ → Bool) :
    Spec.Interpolates (exSpikesAt 1) ∧ ∃ f g S : IRCurve ℤ ℤ,
      IRCurve.own dayCal cls [0, 500, 1000] [0, 0, 0] (.func (exSpikesAt 1) none) none .default none = .ok f ∧
      IRCurve.own dayCal cls [0, 1000] [0, 0] (.func (exSpikesAt 1) none) none .default none = .ok g ∧
      f.ownBinop dayCal (.func (exSpikesAt 1) none) (· + ·) (limit + 1) same₁ same₂ same₃ g = .ok S ∧
      (f.call dayCal 500 = .ok 0 ∧ g.call dayCal 500 = .ok 1 ∧ S.call dayCal 500 = .ok 0) ∧
      (f.call dayCal 250 = .ok 1 ∧ g.call dayCal 250 = .ok 1 ∧ S.call dayCal 250 = .ok 0) := by
  have hspike : ∀ (pts : List (ℤ × ℝ)), (pts.map Prod.fst).Nodup → pts ≠ [] → (pts.map Prod.fst).head? = some 0 → ∀ x, x ∉ pts.map Prod.fst → ∀ c : IRCurve ℤ ℤ,
      IRCurve.own dayCal cls (pts.map Prod.fst) (pts.map Prod.snd) (.func (exSpikesAt 1) none) none .default none = .ok c → c.call dayCal x = .ok 1 := by
    intro pts hn h0 hh x hx c hc
    obtain ⟨g, h1, h2, h3, h4⟩ := ownRate_eq (cal := dayCal) (γ := exSpikesAt 1) (r := none) (tenor := (none : Option ℤ)) (pts := pts) (o? := none) (o := 0)
      (dc := .default) (exSpikesAt_interpolates 1) hn h0 hh trivial goodDayCount_int cls.dflt
    unfold IRCurve.own at hc
    rw [h1] at hc
    rw [← Except.ok.inj hc]
    refine (h2 x).trans ?_
    have := congrFun (Except.ok.inj h4) (DayCountArg.fn dayCal .default 0 x)
    have := Option.some.inj (Except.ok.inj this)
    rw [← this, zip_unzip']
    have hl : (sortPairs (timePts (DayCountArg.fn dayCal .default) 0 pts)).lookup (DayCountArg.fn dayCal .default 0 x) = none := by
      rw [List.lookup_eq_none_iff]
      intro p hp
      obtain ⟨q, hq, rfl⟩ := List.mem_map.1 ((sortPairs_perm _).subset hp)
      have hne : x ≠ q.1 := fun h => hx (h ▸ List.mem_map.2 ⟨q, hq, rfl⟩)
      simp only [beq_eq_false_iff_ne, ne_eq, bne_iff_ne]
      exact fun h => hne (goodDayCount_int.inj 0 h)
    rw [hl]; rfl
  obtain ⟨f, g, ĝ, S, X, y, h1, h2, h3, h4, h5, h6, h7, h8, h9, h10⟩ := C187_arithmetic (cal := dayCal) (γ := exSpikesAt 1) (γ' := exSpikesAt 1) (r := none) (r' := none)
    hcls (exSpikesAt_interpolates 1) (exSpikesAt_interpolates 1) goodDayCount_int (A := [(0, 0), (500, 0), (1000, 0)]) (B := [(0, 0), (1000, 0)]) (oa := none) (ob := none)
    (o := 0) (by simp) (by simp) (by simp) (by simp) rfl rfl (dc := .default) trivial goodDayCount_int none none (· + ·) limit same₁ same₂ same₃
  have hf : ∀ p ∈ [((0 : ℤ), (0 : ℝ)), (500, 0), (1000, 0)], f.call dayCal p.1 = .ok p.2 := by
    obtain ⟨f', v, e, e2, e3, -⟩ := C173_rates (cal := dayCal) (γ := exSpikesAt 1) (r := none) (tenor := (none : Option ℤ)) (o? := none) (o := 0) (dc := .default)
      (pts := [((0 : ℤ), (0 : ℝ)), (500, 0), (1000, 0)]) (exSpikesAt_interpolates 1) (by simp) (by simp) rfl trivial goodDayCount_int cls
    have : f' = f := Except.ok.inj (e.symm.trans h1)
    subst this
    exact fun p hp => by rw [e2.call, e3 p hp]
  have hĝ : ∀ x, ĝ.call dayCal x = .ok 0 := fun x => package_zeros (o := 0) (pts := [(0, 0), (1000, 0)]) hcls goodDayCount_int (by simp) (by simp) rfl h3
    (by simp) x
  have hX : ∀ x ∈ X, y x = 0 := by
    intro x hx
    obtain ⟨a, b, e1, e2, e3⟩ := h9 x hx
    have hx' : x = 0 ∨ x = 500 ∨ x = 1000 := by
      have := (h6 x).1 hx
      simp only [List.mem_cons, Prod.mk.injEq, List.not_mem_nil, or_false] at this
      rcases this with ⟨z, h | h | h⟩ | ⟨z, h | h⟩ <;> simp [h.1]
    have ha : a = 0 := Except.ok.inj (e1.symm.trans (hf (x, 0) (by rcases hx' with rfl | rfl | rfl <;> simp)))
    have hb : b = 0 := Except.ok.inj (e2.symm.trans (hĝ x))
    rw [e3, ha, hb, add_zero]
  have hXm : ∀ x, x = 0 ∨ x = 500 ∨ x = 1000 → x ∈ X := fun x hx => (h6 x).2 (.inl ⟨0, by rcases hx with rfl | rfl | rfl <;> simp⟩)
  have hS : ∀ x, S.call dayCal x = .ok 0 := by
    intro x
    obtain ⟨m, l, hm⟩ := List.exists_cons_of_ne_nil (List.ne_nil_of_mem (hXm 0 (.inl rfl)))
    have e1 : (X.map fun x => (x, y x)).map Prod.fst = X := graph_fst _ _
    have e2 : (X.map fun x => (x, y x)).map Prod.snd = X.map y := graph_snd _ _
    refine package_zeros (pts := X.map fun x => (x, y x)) (o := m) (o? := none) (tenor := none) hcls goodDayCount_int (by rw [e1]; exact h5.imp fun h => h.ne) ?_
      (by rw [e1, hm]; rfl) (by rw [e1, e2]; exact h7) (by simp [hm]) x
    intro p hp
    obtain ⟨x, hx, rfl⟩ := List.mem_map.1 hp
    exact hX x hx
  refine ⟨exSpikesAt_interpolates 1, f, g, S, h1, h2, h4, ⟨hf (500, 0) (by simp), ?_, hS 500⟩, ?_, ?_, hS 250⟩
  · exact hspike [(0, 0), (1000, 0)] (by simp) (by simp) rfl 500 (by simp) g h2
  · exact hspike [(0, 0), (500, 0), (1000, 0)] (by simp) (by simp) rfl 250 (by simp) f h1
  · exact hspike [(0, 0), (1000, 0)] (by simp) (by simp) rfl 250 (by simp) g h2

/-! ### The hypotheses can be met: each theorem applied -/

example := C187_operand (cal := dayCal) (γ := exSpikesAt 0.03) (r := none) (cls := .zero) (.inl rfl) (exSpikesAt_interpolates _) goodDayCount_int
  (B := [(0, 0.01), (365, 0.02)]) (o? := none) (o := 0) (by simp) (by simp) rfl none
example := C187_arithmetic (cal := dayCal) (γ := exSpikesAt 0.03) (γ' := exSpikesAt 7) (r := none) (r' := none) (cls := .short) (.inr rfl) (exSpikesAt_interpolates _)
  (exSpikesAt_interpolates _) goodDayCount_int (A := [(0, 0.01), (365, 0.02)]) (B := [(0, 0.03), (365, 0.05), (730, 0.01)]) (oa := none) (ob := none) (o := 0)
  (by simp) (by simp) (by simp) (by simp) rfl rfl (dc := .default) trivial goodDayCount_int none none (· * ·) 3
example := C187_shift (cal := dayCal) (γ := exSpikesAt 0.03) (r := none) (cls := .zero) (.inl rfl) (exSpikesAt_interpolates _) goodDayCount_int
  (pts := [(0, 0.01), (365, 0.02)]) (o? := none) (o := 0) (by simp) (by simp) rfl none 3 (fun _ => false) 100
example := C187_kwargs (cal := dayCal) (γ := exSpikesAt 0.03) (exSpikesAt_interpolates _) goodDayCount_int
  (pts := [(0, 0.01), (365, 0.02)]) (o? := none) (o := 0) (by simp) (by simp) rfl .cash none
example := C187_spread (cal := dayCal) (γ := exSpikesAt 0.03) (r := none) (tenor := none) (pts := [(0, 0.01), (365, 0.02)]) (o? := none) (o := 0) (dc := .default)
  (exSpikesAt_interpolates _) (by simp) (by simp) rfl trivial goodDayCount_int fun x => x / 1000

/-- Flows of 1 and 2 after one and three years at given rates of 1% and 4%: basis point value and deltas do not see the spikes. -/
example : ∃ c : IRCurve ℝ FloatPeriod, IRCurve.own floatCal .zero [0, 1, 3] [0.02, 0.01, 0.04] (.func (exSpikesAt 7) none) none .default none = .ok c ∧
    basisPointValue floatCal 0 false (.list 1) (some 0) none (1 / 100) (exWorld.setCurve 0 c.obj) =
      (.ok ((Real.exp (-0.01) * ((Real.exp (-(1 / 100)) - 1) / (1 / 100)) + Real.exp (-0.12) * 2 * ((Real.exp (-(3 / 100)) - 1) / (1 / 100))) * (1 / 10000)),
        exWorld.setCurve 0 c.obj) ∧
    ∃ ds : List ℝ, bucketedDelta floatCal 0 false (.list 1) (some 0) none none (1 / 100) (exWorld.setCurve 0 c.obj) = (.ok ds, exWorld.setCurve 0 c.obj) ∧
      ds.length = 3 := by
  obtain ⟨c, h1, h2⟩ := C187_risk (cal := floatCal) (γ := exSpikesAt 7) (r := none) (tenor := none) (pts := [(0, 0.02), (1, 0.01), (3, 0.04)]) (o? := none) (o := 0) (dc := .default)
    (exSpikesAt_interpolates _) (by norm_num) (by simp) rfl trivial goodDayCount_real
  refine ⟨c, h1, ?_⟩
  obtain ⟨c', _, e, -, -, -, hd, -⟩ := C173_rates (cal := floatCal) (γ := exSpikesAt 7) (r := none) (tenor := none) (pts := [(0, 0.02), (1, 0.01), (3, 0.04)]) (o? := none) (o := 0)
    (dc := .default) (exSpikesAt_interpolates _) (by norm_num) (by simp) rfl trivial goodDayCount_real .zero
  obtain rfl : c = c' := Except.ok.inj (h1.symm.trans e)
  obtain ⟨h3, h4⟩ := h2 (exWorld.setCurve 0 c.obj) 0 (.list 1) [(1, 1), (3, 2)] (fun t => if t = 1 then 0.01 else 0.04) (1 / 100) false (by simp [World.setCurve]) (exPays rfl)
    (by simp) (by norm_num)
  refine ⟨(h3 (exPays rfl)).trans ?_, ?_⟩
  · norm_num [DayCountArg.fn, floatCal]
  · obtain ⟨ds, e1, e2, -⟩ := h4 none [0, 1, 3] goodDayCount_real (fun φ => exPays rfl) hd (by simp) (by norm_num)
    exact ⟨ds, e1, e2⟩

end Dcf
