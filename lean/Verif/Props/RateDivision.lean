import Verif.Props.RateArith

/-!
# Division of rate curves

C115: which error the division of two curves raises.
-/

set_option linter.unusedSectionVars false
set_option linter.unusedSimpArgs false

namespace Dcf

open Spec

section
variable {D P : Type} [LinearOrder D] [AddCommGroup D] {cal : Cal D P}
variable {A B : List (D × ℝ)} {o : D} {oa ob : Option D} {ta tb : Option P} {f g : IRCurve D P}

theorem anyZeroR_eq {h : D → Py ℝ} {v : D → ℝ} (hv : ∀ x, h x = .ok (v x)) : ∀ l : List D, ∃ b, anyZeroR h l = .ok b ∧ (b = true ↔ ∃ x ∈ l, v x = 0)
  | [] => ⟨false, rfl, by simp⟩
  | x :: l => by
    obtain ⟨b, h1, h2⟩ := anyZeroR_eq hv l
    by_cases h0 : v x = 0
    · exact ⟨true, by simp [anyZeroR, hv, h0], by simp [h0]⟩
    · exact ⟨b, by simp [anyZeroR, hv, h0, h1], by simp [h0, h2]⟩

/-- C115 (what goes wrong): the division of two curves with one origin raises `ZeroDivisionError` if the second curve quotes zero at a date of one of
them, and `AttributeError` otherwise. -/
theorem C115_div_error_violated {cls : IRClass} (hcls : cls = .zero ∨ cls = .short) (h : RateOperands cal cls A B o oa ob ta tb f g) (limit : ℕ)
    (same₁ same₂ : D → Bool) :
    ((∃ x ∈ A.map Prod.fst ++ B.map Prod.fst, g.call cal x = .ok 0) → f.div cal (limit + 1) same₁ same₂ g = .error .zeroDivision) ∧
      ((∀ x ∈ A.map Prod.fst ++ B.map Prod.fst, g.call cal x ≠ .ok 0) → f.div cal (limit + 1) same₁ same₂ g = .error .attribute) := by
  obtain ⟨rfl, rfl⟩ := h.eq hcls
  have hτ : GoodDayCount (DayCountArg.fn cal .default) := h.good
  obtain ⟨u, v, hu, hv⟩ : ∃ u v : D → ℝ, (∀ x, (irOf cal o oa .default none cls ta A).call cal x = .ok (u x)) ∧
      ∀ x, (irOf cal o ob .default none cls tb B).call cal x = .ok (v x) := by
    rcases hcls with rfl | rfl
    · exact ⟨_, _, irOf_linear cal (o? := oa) (dc := .default) (i := none) (cls := .zero) (tenor := ta) rfl h.leftOrigin trivial hτ h.left h.leftNe,
        irOf_linear cal (o? := ob) (dc := .default) (i := none) (cls := .zero) (tenor := tb) rfl h.rightOrigin trivial hτ h.right h.rightNe⟩
    · have hu' := fun x => short_left cal h.good h.left h.leftNe h.leftOrigin (i := none) rfl ta x
      have hv' := fun x => short_left cal h.good h.right h.rightNe h.rightOrigin (i := none) rfl tb x
      choose u hu _ using hu'
      choose v hv _ using hv'
      exact ⟨u, v, hu, hv⟩
  have hop : (irOf cal o oa .default none cls ta A).operand cal (limit + 1) same₁ same₂ (irOf cal o ob .default none cls tb B) =
      .ok (irOf cal o ob .default none cls none B) := by
    simp only [IRCurve.operand]
    rw [show (irOf cal o oa .default none cls ta A).cls = cls from rfl, cast_castOn cal hcls,
      show (irOf cal o ob .default none cls tb B).base.domain = B.map Prod.fst from rfl, cast_self cal hcls h.good h.right h.rightOrigin rfl, Py.ok_bind]
    have hod : originDiff (irOf cal o oa .default none cls ta A).base (irOf cal o ob .default none cls none B : IRCurve D P).base = .ok 0 := by
      simp [originDiff, irOf_origin cal h.leftOrigin, irOf_origin cal h.rightOrigin, pyDate]
    rw [hod, Py.ok_bind]
    simp only [ne_eq, not_true_eq_false, if_false]
    exact cast_self cal hcls h.good h.right h.rightOrigin rfl none none limit same₂
  have hv₂ : ∀ x, (irOf cal o ob .default none cls none B : IRCurve D P).call cal x = .ok (v x) := by
    intro x
    rw [← hv x, irOf_call cal (dc := .default) h.rightOrigin trivial, irOf_call cal (dc := .default) h.rightOrigin trivial]
  set xs := sortedSet (A.map Prod.fst ++ B.map Prod.fst) with hxs
  obtain ⟨b, hb1, hb2⟩ := anyZeroR_eq hv₂ xs
  have hdiv : (irOf cal o oa .default none cls ta A).div cal (limit + 1) same₁ same₂ (irOf cal o ob .default none cls tb B) =
      if b then .error .zeroDivision else .error .attribute := by
    simp only [IRCurve.div, hop, Py.ok_bind]
    rw [show (irOf cal o oa .default none cls ta A).base.domain = A.map Prod.fst from rfl,
      show (irOf cal o ob .default none cls none B : IRCurve D P).base.domain = B.map Prod.fst from rfl, ← hxs, hb1, Py.ok_bind]
    cases b with
    | true => simp [Py.throw_eq, Py.error_bind]
    | false =>
      have h0 : ∀ x ∈ xs, v x ≠ 0 := fun x hx e => by simpa using hb2.2 ⟨x, hx, e⟩
      have hne : xs ≠ [] := List.ne_nil_of_mem (sortedSet_mem.2 (List.mem_append_left _ (List.head_mem (by simpa using h.leftNe))))
      obtain ⟨m, hm⟩ : ∃ m, xs.head? = some m := by
        obtain ⟨a, l, h⟩ := List.exists_cons_of_ne_nil hne; exact ⟨a, by rw [h]; rfl⟩
      have hnew := IRCurve_new_eq cal (pts := xs.map fun x => (x, u x / v x)) (i := none) (o? := none) (dc := .default) (o := m) (cls := cls)
        (tenor := (none : Option P)) (by rw [graph_fst]; exact (sortedSet_strict _).imp fun h => h.ne)
        (by simp [(dflt_plain hcls).1]) (by rw [graph_fst]; exact hm) trivial hτ
      rw [graph_fst, graph_snd] at hnew
      simp only [Bool.false_eq_true, if_false, Py.pure_eq, Py.ok_bind]
      rw [pyMap_ok (g := fun x => u x / v x) fun x hx => by simp only [hu, hv₂, Py.ok_bind, pyDiv_ok (h0 x hx)], Py.ok_bind,
        show (irOf cal o oa .default none cls ta A).cls = cls from rfl, show (irOf cal o oa .default none cls ta A).base.interp = none from rfl,
        hnew, Py.ok_bind, Py.throw_eq]
  rw [hdiv]
  constructor
  · rintro ⟨x, hx, e⟩
    rw [hv] at e
    rw [if_pos (hb2.2 ⟨x, sortedSet_mem.2 hx, Except.ok.inj e⟩)]
  · intro hz
    rw [if_neg fun hb => ?_]
    obtain ⟨x, hx, e⟩ := hb2.1 hb
    exact hz x (sortedSet_mem.1 hx) (by rw [hv, e])

end

/-- Both cases occur: divisors of rate zero and of rate one. -/
example : ∃ f z c : IRCurve ℤ ℤ, IRCurve.new dayCal .zero [0] [1 / 50] none none .default none = .ok f ∧
    IRCurve.new dayCal .zero [0] [0] none none .default none = .ok z ∧ IRCurve.new dayCal .zero [0] [1] none none .default none = .ok c ∧
    f.div dayCal 1 (fun _ => false) (fun _ => false) z = .error .zeroDivision ∧ f.div dayCal 1 (fun _ => false) (fun _ => false) c = .error .attribute := by
  have hτ : GoodDayCount dayCal.dayCount := goodDayCount_int
  have hτ' : GoodDayCount (DayCountArg.fn dayCal .default) := hτ
  have hA : ∀ r : ℝ, (([(0, r)] : List (ℤ × ℝ)).map Prod.fst).Nodup := by simp
  have hn := fun r : ℝ => IRCurve_new_eq dayCal (cls := .zero) (i := none) (o? := none) (o := 0) (dc := .default) (hA r) (by simp [(dflt_plain (Or.inl rfl)).1]) rfl
    trivial hτ' (tenor := none)
  have hc := fun r : ℝ => irOf_node dayCal (o? := none) (o := 0) (dc := .default) (i := none) (cls := .zero) (tenor := none) rfl trivial hτ' (hA r)
    (by simp [(dflt_plain (Or.inl rfl)).1]) (by simp [(dflt_plain (Or.inl rfl)).2]) (x := 0) (y := r) (by simp)
  refine ⟨_, _, _, hn _, hn _, hn _, ?_, ?_⟩
  · exact (C115_div_error_violated (Or.inl rfl) ⟨hτ, hA _, hA _, by simp, by simp, rfl, rfl, hn _, hn _⟩ 0 _ _).1 ⟨0, by simp, hc 0⟩
  · refine (C115_div_error_violated (Or.inl rfl) ⟨hτ, hA _, hA _, by simp, by simp, rfl, rfl, hn _, hn _⟩ 0 _ _).2 fun x hx => ?_
    obtain rfl : x = 0 := by simpa using hx
    rw [hc 1]
    simp

end Dcf
