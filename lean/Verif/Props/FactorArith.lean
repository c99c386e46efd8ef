import Verif.Props.CreditArith

/-! # Arithmetic of discount factor curves: C115 -/

set_option linter.unusedSectionVars false
set_option linter.unusedSimpArgs false
set_option linter.unusedVariables false

namespace Dcf

open Spec

section
variable {D P : Type} [LinearOrder D] {cal : Cal D P}

/-- A day can be added to every date. -/
def DayOn (cal : Cal D P) : Prop := ∀ x, ∃ y, cal.add x cal.oneDay = .ok y ∧ x < y

/-- The dates of a curve cast to discount factors: the days after the origin and after the last date are added. -/
def FactorDate (cal : Cal D P) (o : D) (l : List D) (x : D) : Prop :=
  x ∈ l ∨ cal.add o cal.oneDay = .ok x ∨ ∃ m ∈ l, (∀ y ∈ l, y ≤ m) ∧ cal.add m cal.oneDay = .ok x

theorem FactorDate.after (hm : DayOn cal) {o : D} {l : List D} (ho : o ∈ l) {x : D} (h : FactorDate cal o l x) :
    x ∈ l ∨ ∃ y ∈ l, y < x := by
  rcases h with h | h | ⟨n, hn, -, h⟩
  · exact .inl h
  · obtain ⟨y, hy, hlt⟩ := hm o
    rw [h] at hy; cases hy; exact .inr ⟨o, ho, hlt⟩
  · obtain ⟨y, hy, hlt⟩ := hm n
    rw [h] at hy; cases hy; exact .inr ⟨n, hn, hlt⟩

theorem storage_factor {c : IRCurve D P} (hc : c.cls = .discount) {o : D} (ho : c.base.origin = some o) (limit : ℕ)
    (same : D → Bool) (x : D) : IRClass.storage cal .discount limit same c x = c.call cal x := by
  simp [IRClass.storage, IRCurve.discount, ho, pyDate, IRCurve.factor, hc, IRCurve.discountFactorOf]

/-- Casting a discount factor curve to its own class on a given grid. -/
theorem factor_castOn_own (hτ : GoodDayCount cal.dayCount) {pts : List (D × ℝ)} {o o' : D} {o? org : Option D}
    (ho : o?.or (pts.map Prod.fst).head? = some o) {t t' : Option P} {ys : List D} {w : D → ℝ}
    (hw : ∀ y ∈ ys, (irOf cal o o? .default none .discount t pts).call cal y = .ok (w y)) (hpos : ∀ y ∈ ys, 0 < w y)
    (hy : ys.Nodup) (ho' : (cal.or org o?).or ys.head? = some o') (limit : ℕ) (same : D → Bool) :
    (irOf cal o o? .default none .discount t pts).castOn cal .discount limit same ys none org .default t' =
      .ok (irOf cal o' (cal.or org o?) .default none .discount t' (ys.map fun x => (x, w x))) := by
  have hdata : pyMap (IRClass.storage cal .discount limit same (irOf cal o o? .default none .discount t pts)) ys = .ok (ys.map w) :=
    pyMap_ok fun y hy => by
      rw [storage_factor rfl (irOf_origin cal ho)]; exact hw y hy
  simp only [IRCurve.castOn]
  rw [hdata, Py.ok_bind]
  have hfst : (ys.map fun x => (x, w x)).map Prod.fst = ys := graph_fst _ _
  have := IRCurve_new_eq cal (pts := ys.map fun x => (x, w x)) (cls := .discount) (i := none) (o? := cal.or org o?)
    (dc := .default) (tenor := t') (o := o') (by rw [hfst]; exact hy) (fun _ p hp => by
      obtain ⟨y, hy, rfl⟩ := List.mem_map.1 hp
      exact hpos y hy) (by rw [hfst]; exact ho') trivial hτ
  rw [hfst, graph_snd] at this
  exact this

/-- Casting a discount factor curve to its own class. -/
theorem factor_cast_own (hτ : GoodDayCount cal.dayCount) (hm : DayOn cal) {pts : List (D × ℝ)}
    {o : D} {o? : Option D} (ho : o?.or (pts.map Prod.fst).head? = some o)
    (hfirst : o ∈ pts.map Prod.fst ∧ ∀ x ∈ pts.map Prod.fst, o ≤ x) {t t' : Option P} {w : D → ℝ}
    (hw : ∀ y, (irOf cal o o? .default none .discount t pts).call cal y = .ok (w y)) (hpos : ∀ y, 0 < w y)
    (limit : ℕ) (same : D → Bool) :
    ∃ (ys : List D) (o?' : Option D), (irOf cal o o? .default none .discount t pts).cast cal .discount limit same none none .default t' =
        .ok (irOf cal o o?' .default none .discount t' (ys.map fun x => (x, w x))) ∧ ys.Pairwise (· < ·) ∧
      (∀ x, x ∈ ys ↔ FactorDate cal o (pts.map Prod.fst) x) ∧ o?'.or ys.head? = some o := by
  obtain ⟨m, hml, hmax⟩ := exists_max (List.ne_nil_of_mem hfirst.1)
  obtain ⟨a, ha, hoa⟩ := hm o
  obtain ⟨b, hb, hmb⟩ := hm m
  have hdom : (irOf cal o o? .default none .discount t pts).base.domain = pts.map Prod.fst := rfl
  have horg : (irOf cal o o? .default none .discount t pts).base.origin = some o := ho
  have hmem : ∀ x, (∃ m ∈ pts.map Prod.fst, (∀ y ∈ pts.map Prod.fst, y ≤ m) ∧ cal.add m cal.oneDay = .ok x) ↔ x = b := fun x =>
    ⟨fun ⟨n, hn, hnm, hx⟩ => by rw [le_antisymm (hmax n hn) (hnm m hml), hb] at hx; exact (Except.ok.inj hx).symm,
     fun h => ⟨m, hml, hmax, h ▸ hb⟩⟩
  set ys := sortedSet (pts.map Prod.fst ++ [a, b]) with hys
  have hs : ys.Pairwise (· < ·) := sortedSet_strict _
  have hmy : ∀ x, x ∈ ys ↔ x ∈ pts.map Prod.fst ∨ x = a ∨ x = b := fun x => by
    rw [hys, sortedSet_mem, List.mem_append]; simp
  have hh : (cal.or (some o) o?).or ys.head? = some o := by
    simp only [Cal.or]
    split_ifs
    · cases hq : o? with
      | some q => rw [hq] at ho; simpa using ho
      | none =>
        rw [Option.none_or]
        refine head_of_min hs ((hmy o).2 (.inl hfirst.1)) fun d hd => ?_
        rcases (hmy d).1 hd with e | rfl | rfl
        · exact hfirst.2 d e
        · exact hoa.le
        · exact (hfirst.2 m hml).trans hmb.le
    · rfl
  refine ⟨ys, cal.or (some o) o?, ?_, hs, fun x => ?_, hh⟩
  · simp only [IRCurve.cast, horg, Option.none_or, pyDate, Py.ok_bind, ha, hdom, maxDate_eq hml hmax, hb]
    exact factor_castOn_own hτ ho (fun y _ => hw y) (fun y _ => hpos y) (hs.imp fun h => h.ne) hh limit same
  · rw [hmy, FactorDate, hmem, ha]
    simp [eq_comm]

end

section
variable {D P : Type} [LinearOrder D] [AddCommGroup D] {cal : Cal D P}

/-- What arithmetic of discount factor curves gives. -/
theorem factor_binop (hτ : GoodDayCount cal.dayCount) (hm : DayOn cal) {A B : List (D × ℝ)} {o : D} {oa ob : Option D}
    (hoa : oa.or (A.map Prod.fst).head? = some o) (hob : ob.or (B.map Prod.fst).head? = some o)
    (hfA : o ∈ A.map Prod.fst ∧ ∀ x ∈ A.map Prod.fst, o ≤ x)
    (hfB : o ∈ B.map Prod.fst ∧ ∀ x ∈ B.map Prod.fst, o ≤ x) (ta tb : Option P) {u v : D → ℝ}
    (hu : ∀ x, (irOf cal o oa .default none .discount ta A).call cal x = .ok (u x))
    (hv : ∀ x, (irOf cal o ob .default none .discount tb B).call cal x = .ok (v x)) (hvpos : ∀ x, 0 < v x)
    (hgrid : ∀ ys : List D, ys.Pairwise (· < ·) → (∀ x, x ∈ ys ↔ FactorDate cal o (B.map Prod.fst) x) → ∀ o?',
      o?'.or ys.head? = some o → ∀ x, (irOf cal o o?' .default none .discount (none : Option P) (ys.map fun x => (x, v x))).call cal x = .ok (v x))
    (op : ℝ → ℝ → ℝ) (limit : ℕ) (same₁ same₂ same₃ : D → Bool) :
    ∃ (xs : List D), xs.Pairwise (· < ·) ∧ xs.head? = some o ∧
      (∀ x, x ∈ xs ↔ x ∈ A.map Prod.fst ∨ FactorDate cal o (B.map Prod.fst) x) ∧
      ∀ w : D → ℝ, (∀ x ∈ xs, 0 < op (u x) (v x)) →
        (∀ x, (irOf cal o none .default none .discount (none : Option P) (xs.map fun x => (x, op (u x) (v x)))).call cal x = .ok (w x)) →
        (∀ x, 0 < w x) →
        ∃ (ys : List D) (o?' : Option D), (irOf cal o oa .default none .discount ta A).binop cal op limit same₁ same₂ same₃ (irOf cal o ob .default none .discount tb B) =
            .ok (irOf cal o o?' .default none .discount ta (ys.map fun x => (x, w x))) ∧ ys.Pairwise (· < ·) ∧
          (∀ x, x ∈ ys ↔ FactorDate cal o xs x) ∧ o?'.or ys.head? = some o ∧ ys.head? = some o := by
  obtain ⟨gs, og, hcast, hgs, hgm, hgh⟩ := factor_cast_own hτ hm hob hfB (t' := none) hv hvpos limit same₁
  have hg1 := hgrid gs hgs hgm og hgh
  set g₁ : IRCurve D P := irOf cal o og .default none .discount none (gs.map fun x => (x, v x)) with hg₁
  have hfst : (gs.map fun x => (x, v x)).map Prod.fst = gs := graph_fst _ _
  have hoperand : (irOf cal o oa .default none .discount ta A).operand cal limit same₁ same₂ (irOf cal o ob .default none .discount tb B) = .ok g₁ := by
    simp only [IRCurve.operand]
    rw [show (irOf cal o oa .default none .discount ta A).cls = .discount from rfl, hcast, Py.ok_bind]
    have hod : originDiff (irOf cal o oa .default none .discount ta A).base g₁.base = .ok 0 := by
      have e1 : (irOf cal o oa .default none .discount ta A).base.origin = some o := hoa
      have e2 : g₁.base.origin = some o := by
        show og.or ((gs.map fun x => (x, v x)).map Prod.fst).head? = some o
        rw [hfst]; exact hgh
      simp [originDiff, e1, e2, pyDate]
    rw [hod, Py.ok_bind]
    simp only [ne_eq, not_true_eq_false, if_false]
    rw [show g₁.base.domain = gs from hfst]
    exact factor_castOn_own (org := none) hτ (by rw [hfst]; exact hgh) (fun y _ => hg1 y) (fun y _ => hvpos y) (hgs.imp fun h => h.ne) hgh limit same₂
  set xs := sortedSet (A.map Prod.fst ++ gs) with hxs
  have hs : xs.Pairwise (· < ·) := sortedSet_strict _
  have hxmem : ∀ x, x ∈ xs ↔ x ∈ A.map Prod.fst ∨ FactorDate cal o (B.map Prod.fst) x := fun x => by
    rw [hxs, sortedSet_mem, List.mem_append, hgm]
  have hmin : o ∈ xs ∧ ∀ x ∈ xs, o ≤ x := by
    refine ⟨(hxmem o).2 (.inl hfA.1), fun x hx => ?_⟩
    rcases (hxmem x).1 hx with h | h
    · exact hfA.2 x h
    · rcases h.after hm hfB.1 with h | ⟨y, hy, hlt⟩
      · exact hfB.2 x h
      · exact (hfB.2 y hy).trans hlt.le
  have hxm : xs.head? = some o := head_of_min hs hmin.1 hmin.2
  refine ⟨xs, hs, hxm, hxmem, fun w hop hw hwpos => ?_⟩
  have hxn : xs.Nodup := hs.imp fun h => h.ne
  set pts := xs.map fun x => (x, op (u x) (v x)) with hpts
  have hf1 : pts.map Prod.fst = xs := graph_fst _ _
  have hmo : (none : Option D).or (pts.map Prod.fst).head? = some o := by rw [hf1]; exact hxm
  have hnew : ∀ (o? : Option D), o?.or xs.head? = some o → ∀ z : D → ℝ, (∀ x ∈ xs, 0 < z x) →
      IRCurve.new cal .discount xs (xs.map z) none o? .default none =
        .ok (irOf cal o o? .default none .discount (none : Option P) (xs.map fun x => (x, z x))) := by
    intro o? ho' z hz
    have e1 : (xs.map fun x => (x, z x)).map Prod.fst = xs := graph_fst _ _
    have := IRCurve_new_eq cal (pts := xs.map fun x => (x, z x)) (cls := .discount) (i := none) (o? := o?) (dc := .default)
      (tenor := (none : Option P)) (o := o) (by rw [e1]; exact hxn) (fun _ p hp => by
        obtain ⟨y, hy, rfl⟩ := List.mem_map.1 hp; exact hz y hy) (by rw [e1]; exact ho') trivial hτ
    rw [e1, graph_snd] at this
    exact this
  obtain ⟨ys, o?', h1, h2, h3, h4⟩ := factor_cast_own (t' := ta) hτ hm (pts := pts) hmo (by rw [hf1]; exact hmin) hw hwpos limit same₃
  rw [hf1] at h3
  have h5 : ys.head? = some o := by
    refine head_of_min h2 ((h3 o).2 (.inl hmin.1)) fun d hd => ?_
    rcases ((h3 d).1 hd).after hm hmin.1 with h | ⟨y, hy, hlt⟩
    · exact hmin.2 d h
    · exact (hmin.2 y hy).trans hlt.le
  refine ⟨ys, o?', ?_, h2, h3, h4, h5⟩
  simp only [IRCurve.binop, hoperand, Py.ok_bind]
  have hd1 : (irOf cal o oa .default none .discount ta A).base.domain = A.map Prod.fst := rfl
  have hd2 : g₁.base.domain = gs := hfst
  have hcl : (irOf cal o oa .default none .discount ta A).cls = .discount := rfl
  have hin : (irOf cal o oa .default none .discount ta A).base.interp = none := rfl
  have hdc : (irOf cal o oa .default none .discount ta A).base.dc = .default := rfl
  have hog : (irOf cal o oa .default none .discount ta A).base.origin = some o := hoa
  rw [hd1, hd2, ← hxs, pyMap_ok (g := fun x => op (u x) (v x)) fun x _ => by simp [hu, hg1], Py.ok_bind, hcl, hin,
    hnew none hxm _ hop, Py.ok_bind]
  have hd3 : (irOf cal o none .default none .discount none pts : IRCurve D P).base.domain = xs := hf1
  rw [← hpts, hd3, pyMap_ok (g := w) fun x _ => hw x, Py.ok_bind,
    show (irOf cal o none .default none .discount none pts : IRCurve D P).base.interp = none from rfl, hog, hdc,
    hnew (some o) rfl _ fun x _ => hwpos x, Py.ok_bind]
  exact h1

theorem factor_call (hτ : GoodDayCount cal.dayCount) {A : List (D × ℝ)}
    (hA : (A.map Prod.fst).Nodup) (hpos : ∀ p ∈ A, 0 < p.2) {o : D} {o? : Option D} (ho : o?.or (A.map Prod.fst).head? = some o)
    {a : ℝ} (ha : (o, a) ∈ A) (h0 : ∃ p ∈ A, p.1 ≠ o) (t : Option P) (x : D) :
    (irOf cal o o? .default none .discount t A).call cal x = .ok (survVal cal.dayCount o a (flin (zeroPts cal.dayCount o A)) x) := by
  unfold survVal
  split_ifs with hx
  · subst hx
    exact irOf_node cal (dc := .default) ho trivial hτ hA (fun _ => hpos) (fun _ => h0) ha
  · exact irOf_rate cal (dc := .default) rfl ho trivial hτ hA h0 hx

/-- Resampling on a finer grid gives the same curve. -/
theorem factor_grid (hτ : GoodDayCount cal.dayCount) {R S : List (ℝ × ℝ)}
    (hR : StrictX R) (hS : StrictX S) (hR0 : R ≠ []) (hS0 : S ≠ []) {o : D} {xs : List D} (hs : xs.Pairwise (· < ·)) (hox : o ∈ xs)
    (hRx : ∀ p ∈ R, ∃ x ∈ xs, x ≠ o ∧ p.1 = cal.dayCount o x) (hSx : ∀ p ∈ S, ∃ x ∈ xs, x ≠ o ∧ p.1 = cal.dayCount o x)
    {a : ℝ} (ha : 0 < a) (c d : ℝ) {o? : Option D} (ho : o?.or xs.head? = some o) (t : Option P) (x : D) :
    (irOf cal o o? .default none .discount t (xs.map fun x => (x, survVal cal.dayCount o a (fun s => c * flin R s + d * flin S s) x))).call cal x =
      .ok (survVal cal.dayCount o a (fun s => c * flin R s + d * flin S s) x) := by
  have key := surv_grid (cal := cal) hτ (cls := .survival) (.inl rfl) hR hS hR0 hS0 hs hox hRx hSx ha c d ho t x
  set z := fun s => c * flin R s + d * flin S s with hz
  set G := xs.map fun x => (x, survVal cal.dayCount o a z x) with hG
  have hfst : G.map Prod.fst = xs := graph_fst _ _
  have hpos : ∀ p ∈ G, 0 < p.2 := fun p hp => by
    obtain ⟨y, -, rfl⟩ := List.mem_map.1 hp
    exact survVal_pos ha z y
  have h0 : ∃ p ∈ G, p.1 ≠ o := by
    obtain ⟨y, hy, hne, -⟩ := hRx _ (List.head_mem hR0)
    exact ⟨_, List.mem_map.2 ⟨y, hy, rfl⟩, hne⟩
  have hoa : (o, a) ∈ G := List.mem_map.2 ⟨o, hox, by simp [survVal]⟩
  have hn : (G.map Prod.fst).Nodup := by rw [hfst]; exact hs.imp fun h => h.ne
  have ho' : o?.or (G.map Prod.fst).head? = some o := by rw [hfst]; exact ho
  rw [surv_call hτ (.inl rfl) hn hpos ho' hoa h0] at key
  rw [factor_call hτ hn hpos ho' hoa h0]
  exact key

variable {A B : List (D × ℝ)} {o : D} {oa ob : Option D} {ta tb : Option P} {f g : IRCurve D P}

/-- Both curves have a positive discount factor at their common origin, which is their first date, and another one. -/
structure FactorOperands (A B : List (D × ℝ)) (o : D) : Prop where
  leftFirst : o ∈ A.map Prod.fst ∧ ∀ p ∈ A, o ≤ p.1
  rightFirst : o ∈ B.map Prod.fst ∧ ∀ p ∈ B, o ≤ p.1
  leftMore : ∃ p ∈ A, p.1 ≠ o
  rightMore : ∃ p ∈ B, p.1 ≠ o
  leftPos : ∀ p ∈ A, 0 < p.2
  rightPos : ∀ p ∈ B, 0 < p.2

/-- `S` keeps class and tenor of `f`, and has the dates of both and some after them. -/
structure FactorResult (cal : Cal D P) (o : D) (f g S : IRCurve D P) : Prop where
  cls : S.cls = f.cls
  tenor : S.tenor = f.tenor
  sorted : S.base.domain.Pairwise (· < ·)
  domain : ∀ x, x ∈ f.base.domain ∨ x ∈ g.base.domain → x ∈ S.base.domain
  domainOnly : ∀ x ∈ S.base.domain, x ∈ f.base.domain ∨ x ∈ g.base.domain ∨ ∃ y, (y ∈ f.base.domain ∨ y ∈ g.base.domain) ∧ y < x
  origin : S.base.origin = some o
  first : S.base.domain.head? = some o
  dayCount : S.base.dc = .default

theorem factor_dates (hm : DayOn cal) {A B xs ys : List D} {o : D} (hx : ∀ x, x ∈ xs ↔ x ∈ A ∨ FactorDate cal o B x)
    (hy : ∀ x, x ∈ ys ↔ FactorDate cal o xs x) (hoB : o ∈ B) :
    ∀ x ∈ ys, x ∈ A ∨ x ∈ B ∨ ∃ y, (y ∈ A ∨ y ∈ B) ∧ y < x := by
  have hA : ∀ x ∈ xs, x ∈ A ∨ x ∈ B ∨ ∃ y, (y ∈ A ∨ y ∈ B) ∧ y < x := by
    intro x h
    rcases (hx x).1 h with h | h
    · exact .inl h
    · rcases h.after hm hoB with h | ⟨y, hy, hlt⟩
      · exact .inr (.inl h)
      · exact .inr (.inr ⟨y, .inr hy, hlt⟩)
  intro x h
  rcases ((hy x).1 h).after hm ((hx o).2 (.inr (.inl hoB))) with h | ⟨y, hyx, hlt⟩
  · exact hA x h
  · rcases hA y hyx with h | h | ⟨z, hz, hzy⟩
    · exact .inr (.inr ⟨y, .inl h, hlt⟩)
    · exact .inr (.inr ⟨y, .inr h, hlt⟩)
    · exact .inr (.inr ⟨z, hz, hzy.trans hlt⟩)

/-- What the curves are, and what arithmetic gives. -/
theorem factor_ops (h : RateOperands cal .discount A B o oa ob ta tb f g) (hm : DayOn cal) (hs : FactorOperands A B o) :
    ∃ a b, (o, a) ∈ A ∧ (o, b) ∈ B ∧ f = irOf cal o oa .default none .discount ta A ∧ g = irOf cal o ob .default none .discount tb B ∧
      (∀ x, f.call cal x = .ok (survVal cal.dayCount o a (flin (zeroPts cal.dayCount o A)) x)) ∧
      (∀ x, g.call cal x = .ok (survVal cal.dayCount o b (flin (zeroPts cal.dayCount o B)) x)) ∧
      ∀ (op : ℝ → ℝ → ℝ) (limit : ℕ) (same₁ same₂ same₃ : D → Bool), ∃ (xs : List D), xs.Pairwise (· < ·) ∧ xs.head? = some o ∧
        (∀ x, x ∈ xs ↔ x ∈ A.map Prod.fst ∨ FactorDate cal o (B.map Prod.fst) x) ∧
        ∀ w : D → ℝ, (∀ x ∈ xs, 0 < op (survVal cal.dayCount o a (flin (zeroPts cal.dayCount o A)) x) (survVal cal.dayCount o b (flin (zeroPts cal.dayCount o B)) x)) →
          (∀ x, (irOf cal o none .default none .discount (none : Option P) (xs.map fun x => (x, op (survVal cal.dayCount o a (flin (zeroPts cal.dayCount o A)) x)
            (survVal cal.dayCount o b (flin (zeroPts cal.dayCount o B)) x)))).call cal x = .ok (w x)) →
          (∀ x, 0 < w x) →
          ∃ (ys : List D) (o?' : Option D), f.binop cal op limit same₁ same₂ same₃ g =
              .ok (irOf cal o o?' .default none .discount ta (ys.map fun x => (x, w x))) ∧ ys.Pairwise (· < ·) ∧
            (∀ x, x ∈ ys ↔ FactorDate cal o xs x) ∧ o?'.or ys.head? = some o ∧
            FactorResult cal o f g (irOf cal o o?' .default none .discount ta (ys.map fun x => (x, w x))) := by
  have hτ := h.good
  obtain rfl : f = irOf cal o oa .default none .discount ta A := by
    have := h.newLeft
    rw [IRCurve_new_eq cal h.left (fun _ => hs.leftPos) h.leftOrigin (dc := .default) trivial hτ] at this
    exact (Except.ok.inj this).symm
  obtain rfl : g = irOf cal o ob .default none .discount tb B := by
    have := h.newRight
    rw [IRCurve_new_eq cal h.right (fun _ => hs.rightPos) h.rightOrigin (dc := .default) trivial hτ] at this
    exact (Except.ok.inj this).symm
  obtain ⟨⟨o1, a⟩, ha, rfl⟩ := List.mem_map.1 hs.leftFirst.1
  obtain ⟨⟨o2, b⟩, hb, e⟩ := List.mem_map.1 hs.rightFirst.1
  obtain rfl : o2 = o1 := e
  rename' o2 => o
  have hu := factor_call hτ h.left hs.leftPos h.leftOrigin ha hs.leftMore ta
  have hv := factor_call hτ h.right hs.rightPos h.rightOrigin hb hs.rightMore tb
  have hSs := zeroPts_strict hτ o h.right
  have hS0 := zeroPts_ne hτ hs.rightMore
  refine ⟨a, b, ha, hb, rfl, rfl, hu, hv, fun op limit same₁ same₂ same₃ => ?_⟩
  have hin : ∀ {xs : List D}, (∀ x ∈ B.map Prod.fst, x ∈ xs) → ∀ p ∈ zeroPts cal.dayCount o B, ∃ x ∈ xs, x ≠ o ∧ p.1 = cal.dayCount o x := by
    intro xs hQ p hp
    obtain ⟨q, hq, hne, rfl⟩ := (zeroPts_mem hτ).1 hp
    exact ⟨q.1, hQ _ (List.mem_map.2 ⟨q, hq, rfl⟩), hne, rfl⟩
  have hv1 : survVal cal.dayCount o b (flin (zeroPts cal.dayCount o B)) =
      survVal cal.dayCount o b fun s => 0 * flin (zeroPts cal.dayCount o B) s + 1 * flin (zeroPts cal.dayCount o B) s := by simp
  have hfA : o ∈ A.map Prod.fst ∧ ∀ x ∈ A.map Prod.fst, o ≤ x := ⟨hs.leftFirst.1, fun x hx => by
    obtain ⟨p, hp, rfl⟩ := List.mem_map.1 hx; exact hs.leftFirst.2 p hp⟩
  have hfB : o ∈ B.map Prod.fst ∧ ∀ x ∈ B.map Prod.fst, o ≤ x := ⟨hs.rightFirst.1, fun x hx => by
    obtain ⟨p, hp, rfl⟩ := List.mem_map.1 hx; exact hs.rightFirst.2 p hp⟩
  obtain ⟨xs, hxs, hxm, hxmem, hk⟩ := factor_binop hτ hm h.leftOrigin h.rightOrigin hfA hfB ta tb hu hv
    (fun x => survVal_pos (hs.rightPos _ hb) _ x) (fun ys hys hmem o?' hho x => by
      have hsub : ∀ x ∈ B.map Prod.fst, x ∈ ys := fun x hx => (hmem x).2 (.inl hx)
      rw [hv1]
      exact factor_grid hτ hSs hSs hS0 hS0 hys (hsub o hs.rightFirst.1) (hin hsub) (hin hsub) (hs.rightPos _ hb) _ _ hho none x)
    op limit same₁ same₂ same₃
  refine ⟨xs, hxs, hxm, hxmem, fun w h1 h2 h3 => ?_⟩
  obtain ⟨ys, o?', e1, e2, e3, e4, e5⟩ := hk w h1 h2 h3
  have hfst : (ys.map fun x => (x, w x)).map Prod.fst = ys := graph_fst _ _
  refine ⟨ys, o?', e1, e2, e3, e4, ⟨rfl, rfl, ?_, fun x hx => ?_, ?_, ?_, ?_, rfl⟩⟩
  · show (List.map Prod.fst _).Pairwise _
    rw [hfst]; exact e2
  · show x ∈ List.map Prod.fst _
    rw [hfst]
    exact (e3 x).2 (.inl ((hxmem x).2 (hx.imp id .inl)))
  · show ∀ x ∈ List.map Prod.fst _, _
    rw [hfst]; exact factor_dates hm hxmem e3 hs.rightFirst.1
  · show o?'.or (List.map Prod.fst _).head? = _
    rw [hfst]; exact e4
  · show (List.map Prod.fst _).head? = _
    rw [hfst]; exact e5

/-- C115: products of discount factor curves are pointwise at every date. -/
theorem C115_factors_partial (h : RateOperands cal .discount A B o oa ob ta tb f g) (hm : DayOn cal) (hs : FactorOperands A B o)
    (limit : ℕ) (same₁ same₂ same₃ : D → Bool) :
    ∃ S, f.binop cal (· * ·) limit same₁ same₂ same₃ g = .ok S ∧ FactorResult cal o f g S ∧
      ∀ x, ∃ u v, f.call cal x = .ok u ∧ g.call cal x = .ok v ∧ S.call cal x = .ok (u * v) := by
  have hτ := h.good
  obtain ⟨a, b, ha, hb, -, -, hu, hv, hk⟩ := factor_ops h hm hs
  obtain ⟨xs, hxs, hxm, hxmem, hk⟩ := hk (· * ·) limit same₁ same₂ same₃
  set u := survVal cal.dayCount o a (flin (zeroPts cal.dayCount o A)) with hud
  set v := survVal cal.dayCount o b (flin (zeroPts cal.dayCount o B)) with hvd
  have hapos := hs.leftPos _ ha
  have hbpos := hs.rightPos _ hb
  have hin : ∀ {Q : List (D × ℝ)} {xs : List D}, (∀ x ∈ Q.map Prod.fst, x ∈ xs) → ∀ p ∈ zeroPts cal.dayCount o Q, ∃ x ∈ xs, x ≠ o ∧ p.1 = cal.dayCount o x := by
    intro Q xs hQ p hp
    obtain ⟨q, hq, hne, rfl⟩ := (zeroPts_mem hτ).1 hp
    exact ⟨q.1, hQ _ (List.mem_map.2 ⟨q, hq, rfl⟩), hne, rfl⟩
  have huv : ∀ x, u x * v x = survVal cal.dayCount o (a * b) (fun s => 1 * flin (zeroPts cal.dayCount o A) s + 1 * flin (zeroPts cal.dayCount o B) s) x := by
    intro x
    simp only [hud, hvd, survVal]
    split_ifs with hx
    · rfl
    · rw [← Real.exp_add]; congr 1; ring
  have hxA : ∀ x ∈ A.map Prod.fst, x ∈ xs := fun x hx => (hxmem x).2 (.inl hx)
  have hxB : ∀ x ∈ B.map Prod.fst, x ∈ xs := fun x hx => (hxmem x).2 (.inr (.inl hx))
  have grid : ∀ (ys : List D), ys.Pairwise (· < ·) → (∀ x ∈ xs, x ∈ ys) → ∀ o?', o?'.or ys.head? = some o → ∀ (t : Option P) x,
      (irOf cal o o?' .default none .discount t (ys.map fun x => (x, u x * v x))).call cal x = .ok (u x * v x) := by
    intro ys hys hsub o?' hho t x
    simp only [huv]
    exact factor_grid hτ (zeroPts_strict hτ o h.left) (zeroPts_strict hτ o h.right) (zeroPts_ne hτ hs.leftMore) (zeroPts_ne hτ hs.rightMore)
      hys (hsub o (hxA o hs.leftFirst.1)) (hin fun x hx => hsub x (hxA x hx)) (hin fun x hx => hsub x (hxB x hx)) (mul_pos hapos hbpos) 1 1 hho t x
  have hup : ∀ x, 0 < u x * v x := fun x => mul_pos (survVal_pos hapos _ x) (survVal_pos hbpos _ x)
  obtain ⟨ys, o?', h1, h2, h3, h4, h5⟩ := hk (fun x => u x * v x) (fun x _ => hup x)
    (fun x => grid xs hxs (fun _ h => h) none (by simpa using hxm) none x) hup
  exact ⟨_, h1, h5, fun x => ⟨_, _, hu x, hv x, grid ys h2 (fun x hx => (h3 x).2 (.inl hx)) o?' h4 ta x⟩⟩

/-- C115: any operation with positive results is pointwise at the dates of both curves. -/
theorem C115_factor_dates_partial (h : RateOperands cal .discount A B o oa ob ta tb f g) (hm : DayOn cal) (hs : FactorOperands A B o)
    {op : ℝ → ℝ → ℝ} (hop : ∀ u v, 0 < u → 0 < v → 0 < op u v) (limit : ℕ) (same₁ same₂ same₃ : D → Bool) :
    ∃ S, f.binop cal op limit same₁ same₂ same₃ g = .ok S ∧ FactorResult cal o f g S ∧
      ∀ x ∈ f.base.domain ++ g.base.domain, ∃ u v, f.call cal x = .ok u ∧ g.call cal x = .ok v ∧ S.call cal x = .ok (op u v) := by
  have hτ := h.good
  obtain ⟨a, b, ha, hb, ef, eg, hu, hv, hk⟩ := factor_ops h hm hs
  obtain ⟨xs, hxs, hxm, hxmem, hk⟩ := hk op limit same₁ same₂ same₃
  set u := survVal cal.dayCount o a (flin (zeroPts cal.dayCount o A)) with hud
  set v := survVal cal.dayCount o b (flin (zeroPts cal.dayCount o B)) with hvd
  have hpos : ∀ x, 0 < op (u x) (v x) := fun x => hop _ _ (survVal_pos (hs.leftPos _ ha) _ x) (survVal_pos (hs.rightPos _ hb) _ x)
  have hxA : ∀ x ∈ A.map Prod.fst, x ∈ xs := fun x hx => (hxmem x).2 (.inl hx)
  have hxB : ∀ x ∈ B.map Prod.fst, x ∈ xs := fun x hx => (hxmem x).2 (.inr (.inl hx))
  have more : ∀ {l : List D} (z : D → ℝ), (∀ x ∈ xs, x ∈ l) → ∃ p ∈ l.map (fun x => (x, z x)), p.1 ≠ o := fun z hl => by
    obtain ⟨p, hp, hne⟩ := hs.leftMore
    exact ⟨_, List.mem_map.2 ⟨p.1, hl _ (hxA _ (List.mem_map.2 ⟨p, hp, rfl⟩)), rfl⟩, hne⟩
  set st := xs.map fun x => (x, op (u x) (v x)) with hst
  have hsf : st.map Prod.fst = xs := graph_fst _ _
  have hspos : ∀ p ∈ st, 0 < p.2 := fun p hp => by obtain ⟨q, -, rfl⟩ := List.mem_map.1 hp; exact hpos q
  have hso : (o, op (u o) (v o)) ∈ st := List.mem_map.2 ⟨o, hxA o hs.leftFirst.1, rfl⟩
  have hsn : (st.map Prod.fst).Nodup := by rw [hsf]; exact hxs.imp fun h => h.ne
  have hsorg : (none : Option D).or (st.map Prod.fst).head? = some o := by rw [hsf]; exact hxm
  have hsm : ∃ p ∈ st, p.1 ≠ o := more _ fun _ h => h
  have hcall := factor_call hτ hsn hspos hsorg hso hsm (none : Option P)
  set w := survVal cal.dayCount o (op (u o) (v o)) (flin (zeroPts cal.dayCount o st)) with hwd
  have hwpos : ∀ x, 0 < w x := fun x => survVal_pos (hspos _ hso) _ x
  obtain ⟨ys, o?', h1, h2, h3, h4, h5⟩ := hk w (fun x _ => hpos x) hcall hwpos
  refine ⟨_, h1, h5, fun x hx => ⟨_, _, hu x, hv x, ?_⟩⟩
  have hxx : x ∈ xs := by
    rw [ef, eg] at hx
    exact (List.mem_append.1 hx).elim (hxA x) (hxB x)
  have hwx : w x = op (u x) (v x) := by
    have e := irOf_node cal (dc := .default) (cls := .discount) (i := none) (tenor := (none : Option P)) hsorg trivial hτ hsn (fun _ => hspos) (fun _ => hsm)
      (List.mem_map.2 ⟨x, hxx, rfl⟩)
    rw [hcall x] at e
    exact Except.ok.inj e
  have hyf : (ys.map fun x => (x, w x)).map Prod.fst = ys := graph_fst _ _
  rw [← hwx]
  refine irOf_node cal (dc := .default) (by rw [hyf]; exact h4) trivial hτ (by rw [hyf]; exact h2.imp fun h => h.ne) (fun _ p hp => ?_)
    (fun _ => more _ fun x hx => (h3 x).2 (.inl hx)) (List.mem_map.2 ⟨x, (h3 x).2 (.inl hxx), rfl⟩)
  obtain ⟨q, -, rfl⟩ := List.mem_map.1 hp; exact hwpos q

end

/-- The hypotheses are met: factors of two currencies with different dates. -/
example (limit : ℕ) (same₁ same₂ same₃ : ℤ → Bool) :
    ∃ f g S : IRCurve ℤ ℤ, IRCurve.new dayCal .discount [0, 365, 730] [1, 98 / 100, 95 / 100] none none .default none = .ok f ∧
      IRCurve.new dayCal .discount [0, 500] [1, 99 / 100] none none .default none = .ok g ∧
      f.binop dayCal (· * ·) limit same₁ same₂ same₃ g = .ok S ∧
      ∀ x, ∃ u v, f.call dayCal x = .ok u ∧ g.call dayCal x = .ok v ∧ S.call dayCal x = .ok (u * v) := by
  have hτ : GoodDayCount dayCal.dayCount := goodDayCount_int
  have p1 : ∀ p ∈ ([(0, 1), (365, 98 / 100), (730, 95 / 100)] : List (ℤ × ℝ)), 0 < p.2 := by intro p hp; fin_cases hp <;> norm_num
  have p2 : ∀ p ∈ ([(0, 1), (500, 99 / 100)] : List (ℤ × ℝ)), 0 < p.2 := by intro p hp; fin_cases hp <;> norm_num
  have n1 := IRCurve_new_eq dayCal (cls := .discount) (pts := [(0, 1), (365, 98 / 100), (730, 95 / 100)]) (i := none) (o? := none) (o := 0) (dc := .default)
    (tenor := none) (by decide) (fun _ => p1) rfl trivial hτ
  have n2 := IRCurve_new_eq dayCal (cls := .discount) (pts := [(0, 1), (500, 99 / 100)]) (i := none) (o? := none) (o := 0) (dc := .default)
    (tenor := none) (by decide) (fun _ => p2) rfl trivial hτ
  obtain ⟨S, hS, -, hc⟩ := C115_factors_partial (f := _) (g := _) ⟨hτ, by decide, by decide, by simp, by simp, rfl, rfl, n1, n2⟩ movesOn_day.day
    ⟨⟨by simp, by simp⟩, ⟨by simp, by simp⟩, ⟨_, List.mem_cons_of_mem _ (List.mem_cons_self ..), show (365 : ℤ) ≠ 0 by decide⟩,
      ⟨_, List.mem_cons_of_mem _ (List.mem_singleton.2 rfl), show (500 : ℤ) ≠ 0 by decide⟩, p1, p2⟩ limit same₁ same₂ same₃
  exact ⟨_, _, S, n1, n2, hS, hc⟩

/-- C115 (refuted for sums of discount factor curves): a curve with all factors one, added to itself, quotes eight between its dates. -/
theorem C115_factor_sum_violated (limit : ℕ) (same₁ same₂ same₃ : ℤ → Bool) :
    ∃ f S : IRCurve ℤ ℤ, IRCurve.new dayCal .discount [0, 10] [1, 1] none none .default none = .ok f ∧
      (∀ x, f.call dayCal x = .ok 1) ∧ f.binop dayCal (· + ·) limit same₁ same₂ same₃ f = .ok S ∧ S.call dayCal 5 = .ok 8 := by
  have hτ : GoodDayCount dayCal.dayCount := goodDayCount_int
  have p1 : ∀ p ∈ ([(0, 1), (10, 1)] : List (ℤ × ℝ)), 0 < p.2 := by intro p hp; fin_cases hp <;> norm_num
  have n1 := IRCurve_new_eq dayCal (cls := .discount) (pts := [(0, 1), (10, 1)]) (i := none) (o? := none) (o := 0) (dc := .default)
    (tenor := none) (by decide) (fun _ => p1) rfl trivial hτ
  have hmore : ∃ p ∈ ([(0, 1), (10, 1)] : List (ℤ × ℝ)), p.1 ≠ 0 := ⟨_, List.mem_cons_of_mem _ (List.mem_singleton.2 rfl), show (10 : ℤ) ≠ 0 by decide⟩
  have hs : FactorOperands ([(0, 1), (10, 1)] : List (ℤ × ℝ)) [(0, 1), (10, 1)] 0 := ⟨⟨by simp, by simp⟩, ⟨by simp, by simp⟩, hmore, hmore, p1, p1⟩
  have h : RateOperands dayCal .discount [(0, 1), (10, 1)] [(0, 1), (10, 1)] 0 none none none none _ _ :=
    ⟨hτ, by decide, by decide, by simp, by simp, rfl, rfl, n1, n1⟩
  obtain ⟨a, b, ha, hb, -, -, hu, hv, hk⟩ := factor_ops h movesOn_day.day hs
  obtain rfl : a = 1 := by simpa using ha
  obtain rfl : b = 1 := by simpa using hb
  have hz : ∀ t, flin (zeroPts dayCal.dayCount 0 [(0, 1), (10, 1)]) t = 0 := by
    intro t
    have := flin_bounds (a := 0) (b := 0) (zeroPts_strict hτ 0 h.left) (zeroPts_ne hτ hmore) (fun p hp => ?_) t
    · exact le_antisymm this.2 this.1
    · obtain ⟨q, hq, hne, rfl⟩ := (zeroPts_mem hτ).1 hp
      fin_cases hq <;> simp
  have hone : ∀ x, survVal dayCal.dayCount 0 1 (flin (zeroPts dayCal.dayCount 0 [(0, 1), (10, 1)])) x = 1 := by
    intro x; unfold survVal; simp [hz]
  simp only [hone] at hu hk
  obtain ⟨xs, hxs, hxm, hxmem, hk⟩ := hk (· + ·) limit same₁ same₂ same₃
  have hx : xs = [0, 1, 10, 11] := by
    refine hxs.eq_of_mem_iff (by decide) fun x => ?_
    rw [hxmem]
    simp only [FactorDate, dayCal, List.map_cons, List.map_nil, List.mem_cons, List.not_mem_nil, or_false, Except.ok.injEq, exists_eq_or_imp,
      exists_eq_left, forall_eq_or_imp, forall_eq]
    omega
  subst hx
  set st := ([0, 1, 10, 11] : List ℤ).map fun x => (x, (1 + 1 : ℝ)) with hst
  have hsf : st.map Prod.fst = [0, 1, 10, 11] := graph_fst _ _
  have hspos : ∀ p ∈ st, 0 < p.2 := fun p hp => by obtain ⟨q, -, rfl⟩ := List.mem_map.1 hp; norm_num
  have hso : ((0 : ℤ), (1 + 1 : ℝ)) ∈ st := List.mem_map.2 ⟨0, by simp, rfl⟩
  have hsn : (st.map Prod.fst).Nodup := by rw [hsf]; decide
  have hsorg : (none : Option ℤ).or (st.map Prod.fst).head? = some 0 := by rw [hsf]; rfl
  have hsm : ∃ p ∈ st, p.1 ≠ 0 := ⟨_, List.mem_map.2 ⟨1, by simp, rfl⟩, by decide⟩
  have hcall := factor_call hτ hsn hspos hsorg hso hsm (none : Option ℤ)
  have hZs := zeroPts_strict hτ 0 hsn
  have hZ0 := zeroPts_ne hτ hsm
  set Z := zeroPts dayCal.dayCount 0 st with hZ
  set w := survVal dayCal.dayCount 0 (1 + 1) (flin Z) with hwd
  have hwpos : ∀ x, 0 < w x := fun x => survVal_pos (by norm_num) _ x
  obtain ⟨ys, o?', h1, h2, h3, h4, h5⟩ := hk w (fun x _ => by norm_num) hcall hwpos
  have hw1 : w = survVal dayCal.dayCount 0 (1 + 1) fun s => 0 * flin Z s + 1 * flin Z s := by rw [hwd]; simp
  refine ⟨_, _, n1, hu, h1, ?_⟩
  have hfin := factor_grid (cal := dayCal) (P := ℤ) (R := Z) (S := Z) hτ hZs hZs hZ0 hZ0 h2 ((h3 0).2 (.inl (by simp))) (fun p hp => ?_) (fun p hp => ?_)
    (a := 1 + 1) (by norm_num) 0 1 h4 none 5
  · rw [← hw1] at hfin
    rw [hfin]
    have hm : ∀ n : ℤ, n ∈ ([1, 10] : List ℤ) → ((n : ℝ) / (36525 / 100), -Real.log (1 + 1) / ((n : ℝ) / (36525 / 100))) ∈ Z := by
      intro n hn
      rw [hZ, zeroPts_mem hτ]
      refine ⟨(n, 1 + 1), List.mem_map.2 ⟨n, ?_, rfl⟩, ?_, ?_⟩
      · fin_cases hn <;> simp
      · fin_cases hn <;> simp
      · simp [dayCal]
    have m1 := flin_node hZs (hm 1 (by simp))
    have m10 := flin_node hZs (hm 10 (by simp))
    obtain ⟨c, d, hcd⟩ := flin_affine hZs hZ0 (a := ((1 : ℤ) : ℝ) / (36525 / 100)) (b := ((10 : ℤ) : ℝ) / (36525 / 100)) (by norm_num) (fun p hp => by
      obtain ⟨q, hq, hne, rfl⟩ := (zeroPts_mem hτ).1 hp
      simp only [hst, List.map_cons, List.map_nil, List.mem_cons, List.not_mem_nil, or_false] at hq
      rcases hq with rfl | rfl | rfl | rfl <;> simp [dayCal] <;> norm_num)
    rw [hcd _ le_rfl (by norm_num)] at m1
    rw [hcd _ (by norm_num) le_rfl] at m10
    have e5 := hcd (((5 : ℤ) : ℝ) / (36525 / 100)) (by norm_num) (by norm_num)
    have hd5 : dayCal.dayCount 0 5 = ((5 : ℤ) : ℝ) / (36525 / 100) := by simp [dayCal]
    congr 1
    rw [hwd, survVal, if_neg (by decide), hd5, e5]
    have : -((c + d * (((5 : ℤ) : ℝ) / (36525 / 100))) * (((5 : ℤ) : ℝ) / (36525 / 100))) = Real.log 2 * 3 := by
      push_cast at m1 m10 ⊢
      norm_num at m1 m10 ⊢
      linarith
    rw [this, Real.exp_mul, Real.exp_log (by norm_num)]
    norm_num
  all_goals
    obtain ⟨q, hq, hne, rfl⟩ := (zeroPts_mem hτ).1 hp
    have : q.1 ∈ st.map Prod.fst := List.mem_map.2 ⟨q, hq, rfl⟩
    rw [hsf] at this
    exact ⟨q.1, (h3 q.1).2 (.inl this), hne, rfl⟩

/-! ### The hypotheses can be met: each theorem applied -/

/-- Multiplying two discount factor curves, dates of either curve keep the product. -/
example (limit : ℕ) (same₁ same₂ same₃ : ℤ → Bool) : ∃ f g S : IRCurve ℤ ℤ,
    IRCurve.new dayCal .discount [0, 365, 730] [1, 98 / 100, 95 / 100] none none .default none = .ok f ∧
      IRCurve.new dayCal .discount [0, 500] [1, 99 / 100] none none .default none = .ok g ∧
      f.binop dayCal (· + ·) limit same₁ same₂ same₃ g = .ok S ∧ FactorResult dayCal 0 f g S ∧
      ∀ x ∈ f.base.domain ++ g.base.domain, ∃ u v, f.call dayCal x = .ok u ∧ g.call dayCal x = .ok v ∧ S.call dayCal x = .ok (u + v) := by
  have hτ : GoodDayCount dayCal.dayCount := goodDayCount_int
  have p1 : ∀ p ∈ ([(0, 1), (365, 98 / 100), (730, 95 / 100)] : List (ℤ × ℝ)), 0 < p.2 := by intro p hp; fin_cases hp <;> norm_num
  have p2 : ∀ p ∈ ([(0, 1), (500, 99 / 100)] : List (ℤ × ℝ)), 0 < p.2 := by intro p hp; fin_cases hp <;> norm_num
  have n1 := IRCurve_new_eq dayCal (cls := .discount) (pts := [(0, 1), (365, 98 / 100), (730, 95 / 100)]) (i := none) (o? := none) (o := 0) (dc := .default)
    (tenor := none) (by decide) (fun _ => p1) rfl trivial hτ
  have n2 := IRCurve_new_eq dayCal (cls := .discount) (pts := [(0, 1), (500, 99 / 100)]) (i := none) (o? := none) (o := 0) (dc := .default)
    (tenor := none) (by decide) (fun _ => p2) rfl trivial hτ
  obtain ⟨S, hS, hR, hx⟩ := C115_factor_dates_partial (f := _) (g := _) ⟨hτ, by decide, by decide, by simp, by simp, rfl, rfl, n1, n2⟩ movesOn_day.day
    ⟨⟨by simp, by simp⟩, ⟨by simp, by simp⟩, ⟨(365, _), by simp; rfl, by decide⟩, ⟨(500, _), by simp; rfl, by decide⟩, p1, p2⟩
    (op := (· + ·)) (fun u v => add_pos) limit same₁ same₂ same₃
  exact ⟨_, _, S, n1, n2, hS, hR, hx⟩

end Dcf
