import Verif.Props.CreditArith
import Verif.Props.RateDivision

/-!
# Division of credit curves

C137: which error the division of two intensity or hazard rate curves raises.
-/

set_option linter.unusedSectionVars false
set_option linter.unusedSimpArgs false

namespace Dcf

open Spec

section
variable {D P : Type} [LinearOrder D] [AddCommGroup D] {cal : Cal D P}
variable {A B : List (D × ℝ)} {o : D} {oa ob : Option D} {ta tb : Option P} {f g : CRCurve D P}

/-- The second operand quotes what the second curve quotes, on a grid with the dates of this curve. -/
theorem credit_operand {cls : CRClass} (hc : cls.plain) (hp : cls.isProb = false) (h : CreditOperands cal cls A B o oa ob ta tb f g)
    {v : D → ℝ} (hv : ∀ x, g.call cal x = .ok (v x))
    (hB : ∀ (xs : List D), xs.Pairwise (· < ·) → (∀ x ∈ B.map Prod.fst, x ∈ xs) → ∀ o?' m, o?'.or xs.head? = some m → ∀ (t : Option P) x,
      (crOf cal m o?' .default none cls t (xs.map fun x => (x, v x))).call cal x = .ok (v x))
    (limit : ℕ) (same₁ same₂ : D → Bool) :
    ∃ g₂, f.operand cal (limit + 1) same₁ same₂ g = .ok g₂ ∧ (∀ x, g₂.call cal x = .ok (v x)) ∧ ∀ x ∈ B.map Prod.fst, x ∈ g₂.base.domain := by
  obtain ⟨rfl, rfl⟩ := h.eq hc hp
  have hvpos : cls.isProb → ∀ x, 0 < v x := fun h' => absurd h' (by simp [hp])
  obtain ⟨gs, og, hcast, hgs, hgm, hgh⟩ := own_cast h.good h.moves h.rightNe h.rightOrigin h.first (t' := none) (plain_own hc tb) hv hvpos limit same₁
  have hg1 := hB gs hgs (fun x hx => (hgm x).2 (.inl hx)) og o hgh none
  set g₁ : CRCurve D P := crOf cal o og .default none cls none (gs.map fun x => (x, v x)) with hg₁
  have hfst : (gs.map fun x => (x, v x)).map Prod.fst = gs := graph_fst _ _
  refine ⟨g₁, ?_, hg1, fun x hx => ?_⟩
  · simp only [CRCurve.operand]
    rw [show (crOf cal o oa .default none cls ta A).cls = cls from rfl, hcast, Py.ok_bind]
    have hod : originDiff (crOf cal o oa .default none cls ta A).base g₁.base = .ok 0 := by
      have e1 : (crOf cal o oa .default none cls ta A).base.origin = some o := h.leftOrigin
      have e2 : g₁.base.origin = some o := by
        show og.or ((gs.map fun x => (x, v x)).map Prod.fst).head? = some o
        rw [hfst]; exact hgh
      simp [originDiff, e1, e2, pyDate]
    rw [hod, Py.ok_bind]
    simp only [CRCurve.shifted, ne_eq, not_true_eq_false, if_false]
    rw [show g₁.base.domain = gs from hfst]
    exact own_castOn (org := none) h.good (by rw [hfst]; exact hgh) (plain_own hc none) (fun y _ => hg1 y) (fun h y _ => hvpos h y) (hgs.imp fun h => h.ne) hgh limit same₂
  · rw [show g₁.base.domain = gs from hfst]
    exact (hgm x).2 (.inl hx)

theorem credit_div {cls : CRClass} (hc : cls.plain) (hp : cls.isProb = false) (h : CreditOperands cal cls A B o oa ob ta tb f g)
    {u v : D → ℝ} (hu : ∀ x, f.call cal x = .ok (u x)) (hv : ∀ x, g.call cal x = .ok (v x))
    (hB : ∀ (xs : List D), xs.Pairwise (· < ·) → (∀ x ∈ B.map Prod.fst, x ∈ xs) → ∀ o?' m, o?'.or xs.head? = some m → ∀ (t : Option P) x,
      (crOf cal m o?' .default none cls t (xs.map fun x => (x, v x))).call cal x = .ok (v x))
    (limit : ℕ) (same₁ same₂ : D → Bool) :
    ((∃ x ∈ A.map Prod.fst ++ B.map Prod.fst, g.call cal x = .ok 0) → f.div cal (limit + 1) same₁ same₂ g = .error .zeroDivision) ∧
      ((∀ x, g.call cal x ≠ .ok 0) → f.div cal (limit + 1) same₁ same₂ g = .error .attribute) := by
  obtain ⟨g₂, hop, hv₂, hdom⟩ := credit_operand hc hp h hv hB limit same₁ same₂
  obtain ⟨rfl, rfl⟩ := h.eq hc hp
  have hτ : GoodDayCount (DayCountArg.fn cal .default) := h.good
  have hd1 : (crOf cal o oa .default none cls ta A).base.domain = A.map Prod.fst := rfl
  set xs := sortedSet (A.map Prod.fst ++ g₂.base.domain) with hxs
  obtain ⟨b, hb1, hb2⟩ := anyZeroR_eq hv₂ xs
  constructor
  · rintro ⟨x, hx, e⟩
    rw [hv] at e
    have hmem : x ∈ xs := by
      rw [hxs, sortedSet_mem, List.mem_append]
      exact (List.mem_append.1 hx).imp_right (hdom x)
    obtain rfl : b = true := hb2.2 ⟨x, hmem, Except.ok.inj e⟩
    simp only [CRCurve.div, hop, Py.ok_bind]
    rw [hd1, ← hxs, hb1, Py.ok_bind]
    simp [Py.throw_eq, Py.error_bind]
  · intro hz
    have h0 : ∀ x, v x ≠ 0 := fun x e => hz x (by rw [hv, e])
    obtain rfl : b = false := by
      rw [← Bool.not_eq_true, hb2]
      rintro ⟨x, -, e⟩
      exact h0 x e
    have hne : xs ≠ [] := List.ne_nil_of_mem (sortedSet_mem.2 (List.mem_append_left _ (List.head_mem (by simpa using h.leftNe))))
    obtain ⟨m, hm⟩ : ∃ m, xs.head? = some m := by
      obtain ⟨a, l, h⟩ := List.exists_cons_of_ne_nil hne; exact ⟨a, by rw [h]; rfl⟩
    have hnew := CRCurve_make_eq cal (pts := xs.map fun x => (x, u x / v x)) (cls := cls) (i := none) (o? := none) (dc := .default) (o := m)
      (tenor := (none : Option P)) (by rw [graph_fst]; exact (sortedSet_strict _).imp fun h => h.ne)
      (fun h => absurd (plain_log hc h) (by simp [hp])) (by rw [graph_fst]; exact hm) trivial hτ
    rw [← CRCurve_new_rate hp, graph_fst, graph_snd] at hnew
    simp only [CRCurve.div, hop, Py.ok_bind]
    rw [hd1, ← hxs, hb1, Py.ok_bind]
    simp only [Bool.false_eq_true, if_false, Py.pure_eq, Py.ok_bind]
    rw [pyMap_ok (g := fun x => u x / v x) fun x hx => by simp only [hu, hv₂, Py.ok_bind, pyDiv_ok (h0 x)], Py.ok_bind,
      show (crOf cal o oa .default none cls ta A).cls = cls from rfl, show (crOf cal o oa .default none cls ta A).base.interp = none from rfl,
      hnew, Py.ok_bind, Py.throw_eq]

/-- C137 (what goes wrong): the division of two intensity or hazard rate curves with one origin raises `ZeroDivisionError` if the second curve quotes
zero at a date of one of them, and `AttributeError` if it quotes zero nowhere. -/
theorem C137_div_error_violated {cls : CRClass} (hcls : cls = .flat ∨ cls = .hazard) (h : CreditOperands cal cls A B o oa ob ta tb f g) (limit : ℕ)
    (same₁ same₂ : D → Bool) :
    ((∃ x ∈ A.map Prod.fst ++ B.map Prod.fst, g.call cal x = .ok 0) → f.div cal (limit + 1) same₁ same₂ g = .error .zeroDivision) ∧
      ((∀ x, g.call cal x ≠ .ok 0) → f.div cal (limit + 1) same₁ same₂ g = .error .attribute) := by
  have hτ : GoodDayCount (DayCountArg.fn cal .default) := h.good
  rcases hcls with rfl | rfl
  · have hc : CRClass.flat.plain := .inr (.inr (.inl rfl))
    obtain ⟨ef, eg⟩ := h.eq hc rfl
    have hu := crOf_linear cal (o? := oa) (dc := .default) (i := none) (cls := .flat) (tenor := ta) rfl h.leftOrigin trivial hτ h.left h.leftNe
    have hv := crOf_linear cal (o? := ob) (dc := .default) (i := none) (cls := .flat) (tenor := tb) rfl h.rightOrigin trivial hτ h.right h.rightNe
    rw [← ef] at hu
    rw [← eg] at hv
    refine credit_div hc rfl h hu hv (fun xs hxs hBx o?' m hm t x => ?_) limit same₁ same₂
    have hne : xs ≠ [] := List.ne_nil_of_mem (hBx _ (List.head_mem (by simpa using h.rightNe)))
    have := linVal_finer hτ h.right h.right h.rightNe h.rightNe hxs hBx hBx (o := o) (m := m) (a := 0) (b := 1) (x := x)
    rw [crOf_linear cal (o? := o?') (dc := .default) (i := none) (cls := .flat) rfl (by rw [graph_fst]; exact hm) trivial hτ
      (by rw [graph_fst]; exact hxs.imp fun h => h.ne) (by simpa using hne)]
    simpa using this
  · have hc : CRClass.hazard.plain := .inr (.inr (.inr rfl))
    obtain ⟨ef, eg⟩ := h.eq hc rfl
    have hu' := fun x => hazard_left h.good h.left h.leftNe h.leftOrigin ta x
    have hv' := fun x => hazard_left h.good h.right h.rightNe h.rightOrigin tb x
    choose u hu hul using hu'
    choose v hv hvl using hv'
    rw [← ef] at hu
    rw [← eg] at hv
    refine credit_div hc rfl h hu hv (fun xs hxs hBx o?' m hm t x => ?_) limit same₁ same₂
    have hne : xs ≠ [] := List.ne_nil_of_mem (hBx _ (List.head_mem (by simpa using h.rightNe)))
    obtain ⟨y, h1, h2⟩ := hazard_left h.good (A := xs.map fun x => (x, v x)) (oa := o?') (o := m)
      (by rw [graph_fst]; exact hxs.imp fun h => h.ne) (by simpa using hne) (by rw [graph_fst]; exact hm) t x
    rw [h1, left_grid h.right h.right hBx hBx hvl hvl (fun _ b => b) h2]

end

/-- Both cases occur: divisors of intensity zero and of intensity one. -/
example : ∃ f z c : CRCurve ℤ ℤ, CRCurve.new dayCal .flat [0] [1 / 50] none none .default none = .ok f ∧
    CRCurve.new dayCal .flat [0] [0] none none .default none = .ok z ∧ CRCurve.new dayCal .flat [0] [1] none none .default none = .ok c ∧
    f.div dayCal 1 (fun _ => false) (fun _ => false) z = .error .zeroDivision ∧ f.div dayCal 1 (fun _ => false) (fun _ => false) c = .error .attribute := by
  have hτ : GoodDayCount dayCal.dayCount := goodDayCount_int
  have hc : CRClass.flat.plain := .inr (.inr (.inl rfl))
  have hA : ∀ r : ℝ, (([(0, r)] : List (ℤ × ℝ)).map Prod.fst).Nodup := by simp
  have hn := fun r : ℝ => CRCurve_make_eq dayCal (cls := .flat) (i := none) (o? := none) (o := 0) (dc := .default) (tenor := none) (hA r)
    (fun h => absurd (plain_log hc h) (by simp [CRClass.isProb])) rfl trivial hτ
  simp only [← CRCurve_new_rate (cls := .flat) rfl] at hn
  have hv := fun r : ℝ => crOf_linear dayCal (o? := none) (o := 0) (dc := .default) (i := none) (cls := .flat) (tenor := none) rfl rfl trivial hτ (hA r) (by simp)
  have hops : ∀ r : ℝ, CreditOperands dayCal .flat [(0, 1 / 50)] [(0, r)] 0 none none none none _ _ := fun r =>
    ⟨hτ, movesOn_day, hA _, hA _, by simp, by simp, rfl, rfl, .inr ⟨by simp, by simp⟩, hn _, hn _⟩
  refine ⟨_, _, _, hn _, hn _, hn _, ?_, ?_⟩
  · exact (C137_div_error_violated (.inl rfl) (hops 0) 0 _ _).1 ⟨0, by simp, by rw [hv, linVal_single]⟩
  · refine (C137_div_error_violated (.inl rfl) (hops 1) 0 _ _).2 fun x => ?_
    rw [hv, linVal_single]
    simp

end Dcf
