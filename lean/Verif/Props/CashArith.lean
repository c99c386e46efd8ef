import Verif.Props.FactorArith
import Verif.Props.RateExtra

/-! # Arithmetic of cash rate curves: C115 -/

set_option linter.unusedSectionVars false
set_option linter.unusedSimpArgs false
set_option linter.unusedVariables false

namespace Dcf

open Spec

section
variable {D P : Type} [LinearOrder D] {cal : Cal D P}

/-- A period can be added to every date, and taken off again and again leads before every date. -/
structure TenorSteps (cal : Cal D P) (τ : P) : Prop where
  add : ∀ x, ∃ y, cal.add x τ = .ok y
  back : ∃ sh : D → D, (∀ d, cal.sub d τ = .ok (sh d)) ∧ ∀ o x, ∃ n, sh^[n] x ≤ o

theorem TenorSteps.grid {τ : P} (h : TenorSteps cal τ) (o x : D) : ∃ l, cashGrid cal o τ x = .ok l ∧ ∀ y ∈ l, o < y := by
  classical
  obtain ⟨sh, hs, hb⟩ := h.back
  have h1 : ∀ k < Nat.find (hb o x), o < sh^[k] x := fun k hk => not_le.1 (Nat.find_min (hb o x) hk)
  refine ⟨_, cashGrid_eq hs h1 (Nat.find_spec (hb o x)), fun y hy => ?_⟩
  obtain ⟨k, hk, rfl⟩ := List.mem_map.1 hy
  exact h1 k (List.mem_range.1 hk)

theorem storage_cash {c : IRCurve D P} (hc : c.cls = .cash) (ht : ∀ x, ∃ y, cal.add x (c.forwardTenor cal) = .ok y) (limit : ℕ)
    (same : D → Bool) (x : D) : IRClass.storage cal .cash (limit + 1) same c x = c.call cal x := by
  obtain ⟨y, hy⟩ := ht x
  simp [IRClass.storage, IRCurve.cashRate, IRCurve.cashStop, hc, hy]

/-- Casting a cash rate curve to its own class on a given grid. -/
theorem cash_castOn_own (hτ : GoodDayCount cal.dayCount) {pts : List (D × ℝ)} {o o' : D} {o? org : Option D}
    (ho : o?.or (pts.map Prod.fst).head? = some o) {t t' : Option P} (ht : ∀ x, ∃ y, cal.add x (t.getD cal.threeMonths) = .ok y)
    {ys : List D} {w : D → ℝ} (hw : ∀ y ∈ ys, (irOf cal o o? .default none .cash t pts).call cal y = .ok (w y))
    (hy : ys.Nodup) (ho' : (cal.or org o?).or ys.head? = some o') (limit : ℕ) (same : D → Bool) :
    (irOf cal o o? .default none .cash t pts).castOn cal .cash (limit + 1) same ys none org .default t' =
      .ok (irOf cal o' (cal.or org o?) .default none .cash t' (ys.map fun x => (x, w x))) := by
  have hdata : pyMap (IRClass.storage cal .cash (limit + 1) same (irOf cal o o? .default none .cash t pts)) ys = .ok (ys.map w) :=
    pyMap_ok fun y hy => by
      rw [storage_cash rfl ht]; exact hw y hy
  simp only [IRCurve.castOn]
  rw [hdata, Py.ok_bind]
  have hfst : (ys.map fun x => (x, w x)).map Prod.fst = ys := graph_fst _ _
  have := IRCurve_new_eq cal (pts := ys.map fun x => (x, w x)) (cls := .cash) (i := none) (o? := cal.or org o?)
    (dc := .default) (tenor := t') (o := o') (by rw [hfst]; exact hy) (by simp [IRClass.dflt, linearScheme, FuncSpec.isLog, Kind.isLog])
    (by rw [hfst]; exact ho') trivial hτ
  rw [hfst, graph_snd] at this
  exact this

/-- Casting a cash rate curve to its own class: all its dates, and others after the origin. -/
theorem cash_cast_own (hτ : GoodDayCount cal.dayCount) {pts : List (D × ℝ)} {o : D} {o? : Option D}
    (ho : o?.or (pts.map Prod.fst).head? = some o)
    (hfirst : o? = some o ∨ (o ∈ pts.map Prod.fst ∧ ∀ x ∈ pts.map Prod.fst, o ≤ x)) {t t' : Option P}
    (ht : ∀ x, ∃ y, cal.add x (t.getD cal.threeMonths) = .ok y) (ht' : TenorSteps cal (t'.getD (t.getD cal.threeMonths))) {w : D → ℝ}
    (hw : ∀ y, (irOf cal o o? .default none .cash t pts).call cal y = .ok (w y)) (limit : ℕ) (same : D → Bool) :
    ∃ (ys : List D) (o?' : Option D), (irOf cal o o? .default none .cash t pts).cast cal .cash (limit + 1) same none none .default t' =
        .ok (irOf cal o o?' .default none .cash (some (t'.getD (t.getD cal.threeMonths))) (ys.map fun x => (x, w x))) ∧ ys.Pairwise (· < ·) ∧
      (∀ x ∈ pts.map Prod.fst, x ∈ ys) ∧ (∀ x ∈ ys, x ∈ pts.map Prod.fst ∨ o < x) ∧ o?'.or ys.head? = some o := by
  choose gr hgr hgl using ht'.grid o
  have horg : (irOf cal o o? .default none .cash t pts).base.origin = some o := ho
  set ys := sortedSet (pts.map Prod.fst ++ ((pts.map Prod.fst).map gr).flatten) with hys
  have hs : ys.Pairwise (· < ·) := sortedSet_strict _
  have h1 : ∀ x ∈ pts.map Prod.fst, x ∈ ys := fun x hx => sortedSet_mem.2 (List.mem_append_left _ hx)
  have h2 : ∀ x ∈ ys, x ∈ pts.map Prod.fst ∨ o < x := fun x hx => by
    rcases List.mem_append.1 (sortedSet_mem.1 hx) with h | h
    · exact .inl h
    · obtain ⟨l, hl, hx⟩ := List.mem_flatten.1 h
      obtain ⟨y, -, rfl⟩ := List.mem_map.1 hl
      exact .inr (hgl y x hx)
  have hh : (cal.or (some o) o?).or ys.head? = some o := by
    simp only [Cal.or]
    split_ifs
    · cases hq : o? with
      | some q => rw [hq] at ho; simpa using ho
      | none =>
        rcases hfirst with h | ⟨h, h'⟩
        · rw [hq] at h; cases h
        · rw [Option.none_or]
          refine head_of_min hs (h1 o h) fun d hd => ?_
          rcases h2 d hd with e | e
          · exact h' d e
          · exact e.le
    · rfl
  refine ⟨ys, cal.or (some o) o?, ?_, hs, h1, h2, hh⟩
  simp only [IRCurve.cast, horg, Option.none_or, pyDate, Py.ok_bind]
  rw [show (irOf cal o o? .default none .cash t pts).base.domain = pts.map Prod.fst from rfl,
    show (irOf cal o o? .default none .cash t pts).forwardTenor cal = t.getD cal.threeMonths from rfl,
    pyMap_ok (g := gr) fun x _ => hgr x, Py.ok_bind]
  exact cash_castOn_own hτ ho ht (fun y _ => hw y) (hs.imp fun h => h.ne) hh limit same

end

section
variable {D P : Type} [LinearOrder D] [AddCommGroup D] {cal : Cal D P}
variable {A B : List (D × ℝ)} {o : D} {oa ob : Option D} {ta tb : Option P} {f g : IRCurve D P}

/-- `S` quotes `op` of what `f` and `g` quote, at every date, for the tenor of `f`; its dates are those of both and later ones. -/
structure CashResult (cal : Cal D P) (op : ℝ → ℝ → ℝ) (f g S : IRCurve D P) : Prop where
  call : ∀ x, ∃ u v, f.call cal x = .ok u ∧ g.call cal x = .ok v ∧ S.call cal x = .ok (op u v)
  cls : S.cls = f.cls
  tenor : S.forwardTenor cal = f.forwardTenor cal
  sorted : S.base.domain.Pairwise (· < ·)
  domain : ∀ x, x ∈ f.base.domain ∨ x ∈ g.base.domain → x ∈ S.base.domain
  origin : S.base.origin = S.base.domain.head?
  dayCount : S.base.dc = .default

/-- C115: sums and differences of cash rate curves are pointwise at every date. -/
theorem C115_cash_partial (h : RateOperands cal .cash A B o oa ob ta tb f g)
    (hfirst : ob = some o ∨ (o ∈ B.map Prod.fst ∧ ∀ x ∈ B.map Prod.fst, o ≤ x)) (hta : TenorSteps cal (f.forwardTenor cal))
    (htb : TenorSteps cal (g.forwardTenor cal)) (h3 : TenorSteps cal cal.threeMonths) (limit : ℕ) (same₁ same₂ same₃ : D → Bool) :
    (∃ S, f.binop cal (· + ·) (limit + 1) same₁ same₂ same₃ g = .ok S ∧ CashResult cal (· + ·) f g S) ∧
      ∃ S, f.binop cal (· - ·) (limit + 1) same₁ same₂ same₃ g = .ok S ∧ CashResult cal (· - ·) f g S := by
  have hτ : GoodDayCount (DayCountArg.fn cal .default) := h.good
  have hlog : IRClass.cash.dflt.isLog = false := rfl
  obtain rfl : f = irOf cal o oa .default none .cash ta A := by
    have := h.newLeft
    rw [IRCurve_new_eq cal h.left (by simp [hlog]) h.leftOrigin (dc := .default) trivial hτ] at this
    exact (Except.ok.inj this).symm
  obtain rfl : g = irOf cal o ob .default none .cash tb B := by
    have := h.newRight
    rw [IRCurve_new_eq cal h.right (by simp [hlog]) h.rightOrigin (dc := .default) trivial hτ] at this
    exact (Except.ok.inj this).symm
  have lin : ∀ {A : List (D × ℝ)} {o : D} {oa : Option D} (t : Option P), oa.or (A.map Prod.fst).head? = some o → (A.map Prod.fst).Nodup → A ≠ [] →
      ∀ x, (irOf cal o oa .default none .cash t A).call cal x = .ok (linVal (DayCountArg.fn cal .default) o A x) := by
    intro A o oa t ho hn hne x
    exact irOf_linear cal (dc := .default) (i := none) (cls := .cash) rfl ho trivial hτ hn hne x
  have hu := lin ta h.leftOrigin h.left h.leftNe
  have hv := lin tb h.rightOrigin h.right h.rightNe
  set u := linVal (DayCountArg.fn cal .default) o A with hud
  set v := linVal (DayCountArg.fn cal .default) o B with hvd
  have key : ∀ (op : ℝ → ℝ → ℝ) (a b : ℝ), (∀ x y, op x y = a * x + b * y) →
      ∃ S, (irOf cal o oa .default none .cash ta A).binop cal op (limit + 1) same₁ same₂ same₃ (irOf cal o ob .default none .cash tb B) = .ok S ∧
        CashResult cal op (irOf cal o oa .default none .cash ta A) (irOf cal o ob .default none .cash tb B) S := by
    intro op a b hop
    obtain ⟨gs, og, hcast, hgs, hgB, hgo, hgh⟩ := cash_cast_own h.good h.rightOrigin hfirst (t := tb) (t' := none) htb.add htb hv limit same₁
    have hgfst : (gs.map fun x => (x, v x)).map Prod.fst = gs := graph_fst _ _
    have hgne : gs ≠ [] := List.ne_nil_of_mem (hgB _ (List.head_mem (by simpa using h.rightNe)))
    have hgn : gs.Nodup := hgs.imp fun h => h.ne
    -- both casts of the second curve quote the same
    have hgv : ∀ (o?' : Option D), o?'.or gs.head? = some o → ∀ (t : Option P) x,
        (irOf cal o o?' .default none .cash t (gs.map fun x => (x, v x))).call cal x = .ok (v x) := by
      intro o?' ho' t x
      rw [lin t (by rw [hgfst]; exact ho') (by rw [hgfst]; exact hgn) (by simpa using hgne)]
      have := linVal_finer hτ h.right h.right h.rightNe h.rightNe hgs hgB hgB o o 0 1 x
      simp only [zero_mul, zero_add, one_mul] at this
      rw [hvd, this]
    set g₂ : IRCurve D P := irOf cal o og .default none .cash none (gs.map fun x => (x, v x)) with hg₂
    have hoperand : (irOf cal o oa .default none .cash ta A).operand cal (limit + 1) same₁ same₂ (irOf cal o ob .default none .cash tb B) = .ok g₂ := by
      simp only [IRCurve.operand]
      rw [show (irOf cal o oa .default none .cash ta A).cls = .cash from rfl, hcast, Py.ok_bind]
      set g₁ : IRCurve D P := irOf cal o og .default none .cash (some ((none : Option P).getD (tb.getD cal.threeMonths))) (gs.map fun x => (x, v x)) with hg₁
      have hod : originDiff (irOf cal o oa .default none .cash ta A).base g₁.base = .ok 0 := by
        have e1 : (irOf cal o oa .default none .cash ta A).base.origin = some o := h.leftOrigin
        have e2 : g₁.base.origin = some o := by
          show og.or ((gs.map fun x => (x, v x)).map Prod.fst).head? = some o
          rw [hgfst]; exact hgh
        simp [originDiff, e1, e2, pyDate]
      rw [hod, Py.ok_bind]
      simp only [ne_eq, not_true_eq_false, if_false]
      rw [show g₁.base.domain = gs from hgfst]
      exact cash_castOn_own (org := none) (t := some (tb.getD cal.threeMonths)) (t' := none) h.good (by rw [hgfst]; exact hgh) htb.add (fun y _ => hgv og hgh _ y) hgn hgh limit same₂
    set xs := sortedSet (A.map Prod.fst ++ gs) with hxs
    have hs : xs.Pairwise (· < ·) := sortedSet_strict _
    have hxA : ∀ x ∈ A.map Prod.fst, x ∈ xs := fun x hx => sortedSet_mem.2 (List.mem_append_left _ hx)
    have hxB : ∀ x ∈ B.map Prod.fst, x ∈ xs := fun x hx => sortedSet_mem.2 (List.mem_append_right _ (hgB x hx))
    have hxne : xs ≠ [] := List.ne_nil_of_mem (hxA _ (List.head_mem (by simpa using h.leftNe)))
    have hxn : xs.Nodup := hs.imp fun h => h.ne
    obtain ⟨m, hxm⟩ : ∃ m, xs.head? = some m := by
      obtain ⟨a, l, h⟩ := List.exists_cons_of_ne_nil hxne; exact ⟨a, by rw [h]; rfl⟩
    -- whatever the grid, the values are read off it
    have hgrid : ∀ (ys : List D), ys.Pairwise (· < ·) → (∀ x ∈ xs, x ∈ ys) → ∀ o?' m', o?'.or ys.head? = some m' → ∀ (t : Option P) x,
        (irOf cal m' o?' .default none .cash t (ys.map fun x => (x, op (u x) (v x)))).call cal x = .ok (op (u x) (v x)) := by
      intro ys hys hsub o?' m' ho' t x
      have hne : ys ≠ [] := List.ne_nil_of_mem (hsub _ (List.head_mem hxne))
      have e1 : (ys.map fun x => (x, op (u x) (v x))).map Prod.fst = ys := graph_fst _ _
      rw [lin t (by rw [e1]; exact ho') (by rw [e1]; exact hys.imp fun h => h.ne) (by simpa using hne)]
      simp only [hop]
      rw [hud, hvd, linVal_finer hτ h.left h.right h.leftNe h.rightNe hys (fun x hx => hsub x (hxA x hx)) (fun x hx => hsub x (hxB x hx))]
    set pts := xs.map fun x => (x, op (u x) (v x)) with hpts
    have hf1 : pts.map Prod.fst = xs := graph_fst _ _
    have hmo : (none : Option D).or (pts.map Prod.fst).head? = some m := by rw [hf1]; exact hxm
    have hnew : ∀ (o? : Option D) (m' : D), o?.or xs.head? = some m' →
        IRCurve.new cal .cash xs (xs.map fun x => op (u x) (v x)) none o? .default none =
          .ok (irOf cal m' o? .default none .cash (none : Option P) pts) := by
      intro o? m' ho'
      have := IRCurve_new_eq cal (pts := pts) (cls := .cash) (i := none) (o? := o?) (dc := .default)
        (tenor := (none : Option P)) (o := m') (by rw [hf1]; exact hxn) (by simp [hlog]) (by rw [hf1]; exact ho') trivial hτ
      rw [hf1, graph_snd] at this
      exact this
    have hw := hgrid xs hs (fun _ h => h) none m hxm (none : Option P)
    obtain ⟨ys, o?', e1, e2, e3, e4, e5⟩ := cash_cast_own h.good hmo (.inr (by rw [hf1]; exact head_min hs hxm)) (t := none) (t' := ta) h3.add (by
      cases ta with
      | none => exact h3
      | some p => exact hta) hw limit same₃
    rw [hf1] at e3 e4
    have hyf : (ys.map fun x => (x, op (u x) (v x))).map Prod.fst = ys := graph_fst _ _
    refine ⟨_, ?_, ⟨fun x => ⟨_, _, hu x, hv x, hgrid ys e2 e3 o?' m e5 (some (ta.getD cal.threeMonths)) x⟩, rfl, ?_, ?_, fun x hx => ?_, ?_, rfl⟩⟩
    · simp only [IRCurve.binop, hoperand, Py.ok_bind]
      have hd1 : (irOf cal o oa .default none .cash ta A).base.domain = A.map Prod.fst := rfl
      have hd2 : g₂.base.domain = gs := hgfst
      have hcl : (irOf cal o oa .default none .cash ta A).cls = .cash := rfl
      have hin : (irOf cal o oa .default none .cash ta A).base.interp = none := rfl
      have hdc : (irOf cal o oa .default none .cash ta A).base.dc = .default := rfl
      have hog : (irOf cal o oa .default none .cash ta A).base.origin = some o := h.leftOrigin
      have hgc := hgv og hgh (none : Option P)
      rw [hd1, hd2, ← hxs, pyMap_ok (g := fun x => op (u x) (v x)) fun x _ => by simp [hu, hg₂, hgc], Py.ok_bind, hcl, hin,
        hnew none m hxm, Py.ok_bind]
      have hd3 : (irOf cal m none .default none .cash none pts : IRCurve D P).base.domain = xs := hf1
      rw [hd3, pyMap_ok (g := fun x => op (u x) (v x)) fun x _ => hw x, Py.ok_bind,
        show (irOf cal m none .default none .cash none pts : IRCurve D P).base.interp = none from rfl, hog, hdc,
        hnew (some o) o rfl, Py.ok_bind]
      exact e1
    · cases ta <;> rfl
    · show (List.map Prod.fst _).Pairwise _
      rw [hyf]; exact e2
    · show x ∈ List.map Prod.fst _
      rw [hyf]; exact e3 x (hx.elim (hxA x) (hxB x))
    · show o?'.or (List.map Prod.fst _).head? = (List.map Prod.fst _).head?
      rw [hyf, e5]
      have hm := head_min hs hxm
      refine (head_of_min e2 (e3 m hm.1) fun d hd => ?_).symm
      rcases e4 d hd with h | h
      · exact hm.2 d h
      · exact h.le
  exact ⟨key (· + ·) 1 1 (by intros; ring), key (· - ·) 1 (-1) (by intros; ring)⟩

end

theorem tenorSteps_day {n : ℤ} (hn : 0 < n) : TenorSteps dayCal n := by
  refine ⟨fun x => ⟨_, rfl⟩, fun d => d - n, fun d => rfl, fun o x => ⟨(x - o).toNat, ?_⟩⟩
  have : ∀ (k : ℕ) (x : ℤ), (fun d => d - n)^[k] x = x - k * n := by
    intro k
    induction k with
    | zero => simp
    | succ k ih => intro x; rw [Function.iterate_succ_apply, ih]; push_cast; ring
  rw [this]
  have h1 : x - o ≤ ((x - o).toNat : ℤ) := Int.self_le_toNat _
  nlinarith [Int.natCast_nonneg (x - o).toNat]

/-- The hypotheses are met: cash rates with tenors of three and six months. -/
example (limit : ℕ) (same₁ same₂ same₃ : ℤ → Bool) :
    ∃ f g S : IRCurve ℤ ℤ, IRCurve.new dayCal .cash [0, 365] [1 / 100, 2 / 100] none none .default (some 180) = .ok f ∧
      IRCurve.new dayCal .cash [0, 500] [1 / 100, 3 / 100] none none .default none = .ok g ∧
      f.binop dayCal (· - ·) (limit + 1) same₁ same₂ same₃ g = .ok S ∧ CashResult dayCal (· - ·) f g S := by
  have hτ : GoodDayCount dayCal.dayCount := goodDayCount_int
  have n1 := IRCurve_new_eq dayCal (cls := .cash) (pts := [(0, 1 / 100), (365, 2 / 100)]) (i := none) (o? := none) (o := 0) (dc := .default)
    (tenor := some 180) (by decide) (by simp [IRClass.dflt, linearScheme, FuncSpec.isLog, Kind.isLog]) rfl trivial hτ
  have n2 := IRCurve_new_eq dayCal (cls := .cash) (pts := [(0, 1 / 100), (500, 3 / 100)]) (i := none) (o? := none) (o := 0) (dc := .default)
    (tenor := none) (by decide) (by simp [IRClass.dflt, linearScheme, FuncSpec.isLog, Kind.isLog]) rfl trivial hτ
  obtain ⟨-, S, hS, hR⟩ := C115_cash_partial (f := _) (g := _) ⟨hτ, by decide, by decide, by simp, by simp, rfl, rfl, n1, n2⟩ (.inr ⟨by simp, by simp⟩)
    (tenorSteps_day (n := 180) (by norm_num)) (tenorSteps_day (n := 90) (by norm_num)) (tenorSteps_day (n := 90) (by norm_num)) limit same₁ same₂ same₃
  exact ⟨_, _, S, n1, n2, hS, hR⟩

end Dcf
