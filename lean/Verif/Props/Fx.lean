import Verif.Lemmas.Curve
import Verif.Lemmas.Py
import Verif.Model.Fx

/-! # Foreign exchange: C41-C43, C79 -/

set_option linter.unusedSectionVars false
set_option linter.unusedSimpArgs false
set_option linter.unusedVariables false

namespace Dcf

open Spec

section
variable {D P : Type} [LinearOrder D] (cal : Cal D P)

/-! ### Single curves -/

/-- The fx curve with a single rate `y` at `o`. -/
noncomputable def fxOf (o : D) (y : ℝ) (dom for_ : D → D → Py ℝ) : FxCurve D :=
  ⟨⟨dateCurveOf cal.dayCount o none .default none logLinearScheme [(o, y)],
    .function fun x => do .ok (Real.exp (-(← (dateCurveOf cal.dayCount o none .default none logLinearScheme [(o, y)]).time cal x) * 0))⟩,
    dom, for_⟩

theorem fxOf_new (hτ : GoodDayCount cal.dayCount) (o : D) {y : ℝ} (hy : 0 < y) (dom for_ : D → D → Py ℝ) :
    FxCurve.new cal [o] [y] none none .default dom for_ = .ok (fxOf cal o y dom for_) := by
  have h := DateCurve_new_eq cal (pts := [(o, y)]) none none .default logLinearScheme (o := o) rfl trivial
    (timePts_nodup hτ o (by simp)) (by intro _ p hp; simp at hp; subst hp; exact hy)
  simp only [List.map_cons, List.map_nil] at h
  simp only [FxCurve.new, ForwardCurve.new]
  rw [h]
  rfl

theorem fxOf_spot (hτ : GoodDayCount cal.dayCount) (o : D) {y : ℝ} (hy : 0 < y) (dom for_ : D → D → Py ℝ) :
    (fxOf cal o y dom for_).price cal o = .ok (some y) := by
  have h := DateCurve_values cal (c := dateCurveOf cal.dayCount o none .default none logLinearScheme [(o, y)])
    (pts := [(o, y)]) (o := o) rfl trivial hτ rfl (by simp) rfl
    (by intro _ p hp; simp at hp; subst hp; exact hy) (by simp [logLinearScheme, dateCurveOf, FuncSpec.needsNonzero, Kind.isRate])
    (x := o) (y := y) (by simp)
  have hl : pyLast (fxOf cal o y dom for_).base.base.domain = .ok o := rfl
  simp only [FxCurve.price, ForwardCurve.price, hl, Py.ok_bind, le_refl, if_true]
  exact h

/-- C43 (forwards): up to the last given date an fx forward curve interpolates the given rates, beyond it the last
rate is multiplied by the ratio of the domestic to the foreign discount factor. -/
theorem C43_forward {pts : List (D × ℝ)} {i : Option FuncSpec} {o? : Option D} {o : D} {dc : DayCountArg D}
    (hne : pts ≠ []) (hn : (pts.map Prod.fst).Nodup) (hpos : (i.getD logLinearScheme).isLog → ∀ p ∈ pts, 0 < p.2)
    (hnz : (i.getD logLinearScheme).needsNonzero → ∃ p ∈ pts, p.1 ≠ o)
    (ho : o?.or (pts.map Prod.fst).head? = some o) (hd : dc.Usable) (hτ : GoodDayCount (dc.fn cal))
    (dom for_ : D → D → Py ℝ) :
    ∃ c b, FxCurve.new cal (pts.map Prod.fst) (pts.map Prod.snd) i o? dc dom for_ = .ok c ∧
      DateCurve.new cal (pts.map Prod.fst) (pts.map Prod.snd) i o? dc logLinearScheme = .ok b ∧
      (∀ T, T ≤ (pts.getLast hne).1 → c.price cal T = b.call cal T) ∧
      c.price cal (pts.getLast hne).1 = .ok (some (pts.getLast hne).2) ∧
      ∀ T, (pts.getLast hne).1 < T → ∀ d f, dom (pts.getLast hne).1 T = .ok d → for_ (pts.getLast hne).1 T = .ok f → f ≠ 0 →
        c.price cal T = .ok (some ((pts.getLast hne).2 * d / f)) := by
  set b := dateCurveOf (dc.fn cal) o o? dc i logLinearScheme pts with hb
  have hnew : DateCurve.new cal (pts.map Prod.fst) (pts.map Prod.snd) i o? dc logLinearScheme = .ok b :=
    DateCurve_new_eq cal i o? dc logLinearScheme ho hd (timePts_nodup hτ o hn) hpos
  have hlast : pyLast b.domain = .ok (pts.getLast hne).1 := by
    show pyLast (pts.map Prod.fst) = _
    rw [pyLast_map, pyLast_getLast hne]; rfl
  have hval : b.call cal (pts.getLast hne).1 = .ok (some (pts.getLast hne).2) :=
    DateCurve_values cal (dateCurveOf_origin ho) hd hτ rfl hn rfl hpos hnz (List.getLast_mem hne)
  have hbo : b.origin = some o := dateCurveOf_origin ho
  have hfw : ∀ y T, T ≤ (pts.getLast hne).1 → ForwardCurve.price cal ⟨b, y⟩ T = b.call cal T := fun y T hT => by
    simp [ForwardCurve.price, hlast, hT]
  refine ⟨⟨⟨b, .function fun x => do .ok (Real.exp (-(← b.time cal x) * 0))⟩, dom, for_⟩, b, ?_, hnew, fun T hT => ?_, ?_,
    fun T hT d f hd' hf' hf0 => ?_⟩
  · simp only [FxCurve.new, ForwardCurve.new]
    rw [hnew]
    simp [hbo]
  · simp only [FxCurve.price, hlast, Py.ok_bind, hT, if_true, hfw _ T hT]
  · simp only [FxCurve.price, hlast, Py.ok_bind, le_refl, if_true, hfw _ _ le_rfl, hval]
  · simp only [FxCurve.price, hlast, Py.ok_bind, hT.not_ge, if_false, hfw _ _ le_rfl, hval, hd', hf', pyNum, pyDiv_ok hf0]
    congr 2; ring

/-- A case of `C43_forward`: spot 0.8, discount factors 0.99 and 0.98. -/
example : ∃ c : FxCurve ℝ, FxCurve.new floatCal [0] [4 / 5] none none .default (fun _ _ => .ok (99 / 100)) (fun _ _ => .ok (98 / 100))
    = .ok c ∧ c.price floatCal 1 = .ok (some (4 / 5 * (99 / 100) / (98 / 100))) := by
  obtain ⟨c, b, h1, -, -, -, h2⟩ := C43_forward floatCal (pts := [(0, 4 / 5)]) (i := none) (o? := none) (o := 0)
    (dc := .default) (by simp) (by simp) (by simp) (by simp [logLinearScheme, FuncSpec.needsNonzero, Kind.isRate]) rfl trivial goodDayCount_real
    (fun _ _ => .ok (99 / 100)) (fun _ _ => .ok (98 / 100))
  exact ⟨c, h1, h2 1 (by simp) _ _ rfl rfl (by norm_num)⟩

/-! ### Containers -/

variable {C : Type} [DecidableEq C]

theorem Dict.get_updateWith {α β : Type} [DecidableEq α] (d new : Dict α β) (hn : (new.map Prod.fst).Nodup) (k : α) :
    (d.updateWith new).get k = (new.get k).or (d.get k) := by
  induction new generalizing d with
  | nil => simp [Dict.updateWith, Dict.get]
  | cons p l ih =>
    obtain ⟨a, b⟩ := p
    simp only [List.map_cons, List.nodup_cons] at hn
    have e : d.updateWith ((a, b) :: l) = (Dict.set d a b).updateWith l := rfl
    rw [e, ih _ hn.2, Dict.get_set]
    simp only [Dict.get]
    by_cases h : a = k
    · subst h
      have : Dict.get l a = none := by
        have hn1 := hn.1
        clear ih e hn
        induction l with
        | nil => rfl
        | cons q l ih =>
          obtain ⟨a', b'⟩ := q
          simp only [List.map_cons, List.mem_cons, not_or] at hn1
          simp [Dict.get, Ne.symm hn1.1, ih hn1.2]
      simp [this]
    · simp [h]

theorem Dict.set_keys_nodup {α β : Type} [DecidableEq α] (d : Dict α β) (hn : (d.map Prod.fst).Nodup) (k : α) (v : β) :
    ((Dict.set d k v).map Prod.fst).Nodup ∧ ∀ x ∈ (Dict.set d k v).map Prod.fst, x = k ∨ x ∈ d.map Prod.fst := by
  induction d with
  | nil => simp [Dict.set]
  | cons p l ih =>
    obtain ⟨a, b⟩ := p
    simp only [List.map_cons, List.nodup_cons] at hn
    obtain ⟨h1, h2⟩ := ih hn.2
    by_cases h : a = k
    · subst h
      simp only [Dict.set, if_true, List.map_cons, List.nodup_cons, List.mem_cons]
      exact ⟨hn, fun x hx => by tauto⟩
    · simp only [Dict.set, h, if_false, List.map_cons, List.nodup_cons, List.mem_cons]
      refine ⟨⟨fun hm => ?_, h1⟩, fun x hx => ?_⟩
      · rcases h2 a hm with e | e
        · exact h e
        · exact hn.1 e
      · rcases hx with rfl | hx
        · exact .inr (.inl rfl)
        · rcases h2 x hx with e | e
          · exact .inl e
          · exact .inr (.inr e)

theorem Dict.mem_keys {α β : Type} [DecidableEq α] (d : Dict α β) (k : α) :
    k ∈ d.map Prod.fst ↔ ∃ v, d.get k = some v := by
  induction d with
  | nil => simp [Dict.get]
  | cons p l ih =>
    obtain ⟨a, b⟩ := p
    simp only [List.map_cons, List.mem_cons, Dict.get, ih]
    by_cases h : a = k
    · simp [h]
    · simp [h, Ne.symm h]

variable {cal}

open Classical in
/-- What `add` does to existing pairs of the currency `f`. -/
noncomputable def fxUpd (f : C) (curve : D → D → Py ℝ) (S : C → Prop) (k : C × C) (x : FxCurve D) : FxCurve D :=
  if k.2 = f ∧ S k.1 then { x with foreign := curve }
  else if k.1 = f ∧ S k.2 then { x with domestic := curve } else x

open Classical in
/-- The pairs added by `add`. -/
noncomputable def fxNew (cal : Cal D P) (o : D) (f : C) (curve : D → D → Py ℝ) (spot : ℝ) (y : C → ℝ)
    (dom : C → D → D → Py ℝ) (R : C × C → Option (FxCurve D)) (S : C → Prop) (k : C × C) : Option (FxCurve D) :=
  if k.2 = f ∧ S k.1 ∧ R (k.1, f) = none then some (fxOf cal o (y k.1 * spot) (dom k.1) curve)
  else if k.1 = f ∧ S k.2 ∧ R (k.2, f) = none then some (fxOf cal o (1 / (y k.2 * spot)) curve (dom k.2))
  else none

open Classical in
/-- The loop of `add`. -/
theorem addLoop_eq (hτ : GoodDayCount cal.dayCount) {base f : C} (hf : f ≠ base) (curve : D → D → Py ℝ) {spot : ℝ}
    (hs : 0 < spot) (o : D) {y : C → ℝ} {dom : C → D → D → Py ℝ} (bd : D → D → Py ℝ) (keys : List (C × C))
    (S T : C → Prop) (hT : ∀ d, T d ↔ S d ∨ (d ≠ f ∧ (d, base) ∈ keys))
    (hSf : ¬ S f)
    (R0 : C × C → Option (FxCurve D)) (R N : Dict (C × C) (FxCurve D)) (hN : (N.map Prod.fst).Nodup)
    (hR : ∀ k, R.get k = (R0 k).map (fxUpd f curve S k))
    (hNg : ∀ k, N.get k = fxNew cal o f curve spot y dom R0 S k)
    (hy : ∀ d, d ≠ f → (d, base) ∈ keys → 0 < y d ∧ ∃ g, R0 (d, base) = some (fxOf cal o (y d) (dom d) g))
    (hsym : ∀ d, d ≠ f → (d, base) ∈ keys → ((R0 (d, f)).isSome ↔ (R0 (f, d)).isSome)) :
    ∃ R' N', FxContainer.addLoop cal f curve spot keys (⟨base, bd, o, R⟩, N) = .ok (⟨base, bd, o, R'⟩, N') ∧
      (N'.map Prod.fst).Nodup ∧ (∀ k, R'.get k = (R0 k).map (fxUpd f curve T k)) ∧
      ∀ k, N'.get k = fxNew cal o f curve spot y dom R0 T k := by
  induction keys generalizing S R N with
  | nil =>
    have : T = S := by funext d; simpa using hT d
    subst this
    exact ⟨R, N, rfl, hN, hR, hNg⟩
  | cons k l ih =>
    obtain ⟨d, s⟩ := k
    by_cases hk : s = base ∧ d ≠ f
    · obtain ⟨rfl, hdf⟩ := hk
      obtain ⟨hyd, g, hg⟩ := hy d hdf (by simp)
      have hds : R.get (d, s) = some (fxOf cal o (y d) (dom d) g) := by
        rw [hR, hg]
        simp [fxUpd, hdf, Ne.symm hf]
      have hpos : 0 < y d * spot := mul_pos hyd hs
      -- the state after this round
      set S' : C → Prop := fun x => S x ∨ x = d with hS'
      have hS'f : ¬ S' f := by rintro (h | h); exact hSf h; exact hdf h.symm
      have hT' : ∀ x, T x ↔ S' x ∨ (x ≠ f ∧ (x, s) ∈ l) := by
        intro x
        rw [hT]
        simp only [hS', List.mem_cons, Prod.mk.injEq, and_true]
        constructor
        · rintro (h | ⟨h1, h2 | h2⟩)
          · exact .inl (.inl h)
          · exact .inl (.inr h2)
          · exact .inr ⟨h1, h2⟩
        · rintro ((h | rfl) | ⟨h1, h2⟩)
          · exact .inl h
          · exact .inr ⟨hdf, .inl rfl⟩
          · exact .inr ⟨h1, .inr h2⟩
      have hfin : ∀ R1 N1, FxContainer.addStep cal f curve spot (⟨s, bd, o, R⟩, N) (d, s) = .ok (⟨s, bd, o, R1⟩, N1) →
          (N1.map Prod.fst).Nodup → (∀ k, R1.get k = (R0 k).map (fxUpd f curve S' k)) →
          (∀ k, N1.get k = fxNew cal o f curve spot y dom R0 S' k) →
          ∃ R' N', FxContainer.addLoop cal f curve spot ((d, s) :: l) (⟨s, bd, o, R⟩, N) = .ok (⟨s, bd, o, R'⟩, N') ∧
            (N'.map Prod.fst).Nodup ∧ (∀ k, R'.get k = (R0 k).map (fxUpd f curve T k)) ∧
            ∀ k, N'.get k = fxNew cal o f curve spot y dom R0 T k := by
        intro R1 N1 h1 h2 h3 h4
        obtain ⟨R', N', e1, e2, e3, e4⟩ := ih S' hT' hS'f R1 N1 h2 h3 h4
          (fun d hd hm => hy d hd (List.mem_cons_of_mem _ hm)) (fun d hd hm => hsym d hd (List.mem_cons_of_mem _ hm))
        exact ⟨R', N', by simp only [FxContainer.addLoop]; rw [h1]; exact e1, e2, e3, e4⟩
      cases hdf0 : R0 (d, f) with
      | some x =>
        obtain ⟨x', hx'⟩ := Option.isSome_iff_exists.1 ((hsym d hdf (by simp)).1 (by rw [hdf0]; rfl))
        have hget : R.get (d, f) = some (fxUpd f curve S (d, f) x) := by rw [hR, hdf0]; rfl
        have hget' : R.get (f, d) = some (fxUpd f curve S (f, d) x') := by rw [hR, hx']; rfl
        refine hfin ((R.set (d, f) { fxUpd f curve S (d, f) x with foreign := curve }).set (f, d)
          { fxUpd f curve S (f, d) x' with domestic := curve }) N ?_ hN (fun k => ?_) (fun k => ?_)
        · simp [FxContainer.addStep, FxContainer.get, hds, hdf, fxOf_spot cal hτ o hyd, pyNum, hget, Dict.get_set,
            hget', pyDiv_ok hpos.ne']
        · rw [Dict.get_set, Dict.get_set, hR]
          obtain ⟨a, b⟩ := k
          by_cases e1 : (f, d) = (a, b)
          · obtain ⟨rfl, rfl⟩ := Prod.mk.inj e1
            by_cases hSd : S d <;> simp [hx', fxUpd, hdf, hS', hSf, hSd]
          · by_cases e2 : (d, f) = (a, b)
            · obtain ⟨rfl, rfl⟩ := Prod.mk.inj e2
              by_cases hSd : S d <;> simp [hdf0, fxUpd, hS', e1, hSd, hdf]
            · simp only [e1, e2, if_false]
              congr 1
              funext z
              simp only [fxUpd, hS']
              have i1 : (b = f ∧ (S a ∨ a = d)) ↔ (b = f ∧ S a) := by
                constructor
                · rintro ⟨rfl, h | rfl⟩
                  · exact ⟨rfl, h⟩
                  · exact absurd rfl e2
                · rintro ⟨h1, h2⟩; exact ⟨h1, .inl h2⟩
              have i2 : (a = f ∧ (S b ∨ b = d)) ↔ (a = f ∧ S b) := by
                constructor
                · rintro ⟨rfl, h | rfl⟩
                  · exact ⟨rfl, h⟩
                  · exact absurd rfl e1
                · rintro ⟨h1, h2⟩; exact ⟨h1, .inl h2⟩
              simp only [i1, i2]
        · rw [hNg]
          obtain ⟨a, b⟩ := k
          simp only [fxNew, hS']
          have i1 : (b = f ∧ (S a ∨ a = d) ∧ R0 (a, f) = none) ↔ (b = f ∧ S a ∧ R0 (a, f) = none) := by
            constructor
            · rintro ⟨h1, h | rfl, h3⟩
              · exact ⟨h1, h, h3⟩
              · rw [hdf0] at h3; cases h3
            · rintro ⟨h1, h2, h3⟩; exact ⟨h1, .inl h2, h3⟩
          have i2 : (a = f ∧ (S b ∨ b = d) ∧ R0 (b, f) = none) ↔ (a = f ∧ S b ∧ R0 (b, f) = none) := by
            constructor
            · rintro ⟨h1, h | rfl, h3⟩
              · exact ⟨h1, h, h3⟩
              · rw [hdf0] at h3; cases h3
            · rintro ⟨h1, h2, h3⟩; exact ⟨h1, .inl h2, h3⟩
          simp only [i1, i2]
      | none =>
        have hget : R.get (d, f) = none := by rw [hR, hdf0]; rfl
        refine hfin R ((N.set (d, f) (fxOf cal o (y d * spot) (dom d) curve)).set (f, d)
          (fxOf cal o (1 / (y d * spot)) curve (dom d))) ?_ ?_ (fun k => ?_) (fun k => ?_)
        · have e1 := fxOf_new cal hτ o hpos (dom d) curve
          have e2 := fxOf_new cal hτ o (one_div_pos.2 hpos) curve (dom d)
          have e3 : (fxOf cal o (y d) (dom d) g).domestic = dom d := rfl
          simp only [FxContainer.addStep, FxContainer.get, hds, hdf, fxOf_spot cal hτ o hyd, pyNum, hget,
            pyDiv_ok hpos.ne', FxContainer.curve, e1, e2, e3, Py.ok_bind, ne_eq, not_false_eq_true, and_self, if_true]
        · exact (Dict.set_keys_nodup _ (Dict.set_keys_nodup _ hN _ _).1 _ _).1
        · rw [hR]
          obtain ⟨a, b⟩ := k
          cases hR0 : R0 (a, b) with
          | none => rfl
          | some z =>
            simp only [Option.map_some]
            congr 1
            simp only [fxUpd, hS']
            have i1 : (b = f ∧ (S a ∨ a = d)) ↔ (b = f ∧ S a) := by
              constructor
              · rintro ⟨rfl, h | rfl⟩
                · exact ⟨rfl, h⟩
                · rw [hdf0] at hR0; cases hR0
              · rintro ⟨h1, h2⟩; exact ⟨h1, .inl h2⟩
            have i2 : (a = f ∧ (S b ∨ b = d)) ↔ (a = f ∧ S b) := by
              constructor
              · rintro ⟨rfl, h | rfl⟩
                · exact ⟨rfl, h⟩
                · have := (hsym b hdf (by simp)).2 (by rw [hR0]; rfl)
                  rw [hdf0] at this; cases this
              · rintro ⟨h1, h2⟩; exact ⟨h1, .inl h2⟩
            simp only [i1, i2]
        · rw [Dict.get_set, Dict.get_set, hNg]
          obtain ⟨a, b⟩ := k
          by_cases e1 : (f, d) = (a, b)
          · obtain ⟨rfl, rfl⟩ := Prod.mk.inj e1
            simp [fxNew, hdf0, hdf, hS', hSf]
          · by_cases e2 : (d, f) = (a, b)
            · obtain ⟨rfl, rfl⟩ := Prod.mk.inj e2
              simp [fxNew, hdf0, hS', e1]
            · simp only [e1, e2, if_false]
              simp only [fxNew, hS']
              have i1 : (b = f ∧ (S a ∨ a = d) ∧ R0 (a, f) = none) ↔ (b = f ∧ S a ∧ R0 (a, f) = none) := by
                constructor
                · rintro ⟨rfl, h | rfl, h3⟩
                  · exact ⟨rfl, h, h3⟩
                  · exact absurd rfl e2
                · rintro ⟨h1, h2, h3⟩; exact ⟨h1, .inl h2, h3⟩
              have i2 : (a = f ∧ (S b ∨ b = d) ∧ R0 (b, f) = none) ↔ (a = f ∧ S b ∧ R0 (b, f) = none) := by
                constructor
                · rintro ⟨rfl, h | rfl, h3⟩
                  · exact ⟨rfl, h, h3⟩
                  · exact absurd rfl e1
                · rintro ⟨h1, h2, h3⟩; exact ⟨h1, .inl h2, h3⟩
              simp only [i1, i2]
    · have hstep : FxContainer.addStep cal f curve spot (⟨base, bd, o, R⟩, N) (d, s) = .ok (⟨base, bd, o, R⟩, N) := by
        simp only [FxContainer.addStep, hk, if_false]
      have hT' : ∀ x, T x ↔ S x ∨ (x ≠ f ∧ (x, base) ∈ l) := by
        intro x
        rw [hT]
        simp only [List.mem_cons, Prod.mk.injEq]
        constructor
        · rintro (h | ⟨h1, ⟨h2, h3⟩ | h2⟩)
          · exact .inl h
          · exact absurd ⟨h3.symm, h2 ▸ h1⟩ hk
          · exact .inr ⟨h1, h2⟩
        · rintro (h | ⟨h1, h2⟩)
          · exact .inl h
          · exact .inr ⟨h1, .inr h2⟩
      obtain ⟨R', N', e1, e2, e3, e4⟩ := ih S hT' hSf R N hN hR hNg
        (fun d hd hm => hy d hd (List.mem_cons_of_mem _ hm)) (fun d hd hm => hsym d hd (List.mem_cons_of_mem _ hm))
      exact ⟨R', N', by simp only [FxContainer.addLoop]; rw [hstep]; exact e1, e2, e3, e4⟩


open Classical in
/-- The content of a container: spot `x f` and curve `crv f` of every currency of `Cs`. -/
structure FxState (cal : Cal D P) (c : FxContainer C D) (Cs : C → Prop) (x : C → ℝ) (crv : C → D → D → Py ℝ) : Prop where
  base : Cs c.currency
  one : x c.currency = 1
  pos : ∀ a, 0 < x a
  dom : crv c.currency = c.domestic
  get : ∀ a b, c.rates.get (a, b) = if (a = c.currency ∧ b = c.currency) ∨ (Cs a ∧ Cs b ∧ a ≠ b) then
    some (fxOf cal c.origin (x b / x a) (crv a) (if b = c.currency then crv a else crv b)) else none

theorem FxState.new (hτ : GoodDayCount cal.dayCount) (base : C) (bd : D → D → Py ℝ) (o : D) :
    ∃ c, FxContainer.new cal base bd o = .ok c ∧ c.currency = base ∧ c.domestic = bd ∧ c.origin = o ∧
      FxState cal c (· = base) (fun _ => 1) (fun _ => bd) := by
  have e1 := fxOf_new cal hτ o one_pos bd bd
  refine ⟨⟨base, bd, o, [((base, base), fxOf cal o 1 bd bd)]⟩, ?_, rfl, rfl, rfl, rfl, rfl, fun _ => one_pos, rfl, fun a b => ?_⟩
  · simp [FxContainer.new, FxContainer.add, FxContainer.curve, e1, pyDiv, Dict.set, FxContainer.addLoop,
      FxContainer.addStep, Dict.updateWith]
  · simp only [Dict.get, Prod.mk.injEq]
    by_cases ha : a = base <;> by_cases hb : b = base <;> simp [ha, hb, Ne.symm, eq_comm]

open Classical in
/-- Adding a currency, new or not. -/
theorem FxState.add_get (hτ : GoodDayCount cal.dayCount) {c : FxContainer C D} {Cs : C → Prop} {x : C → ℝ}
    {crv : C → D → D → Py ℝ} (h : FxState cal c Cs x crv) {f : C} (hf : f ≠ c.currency) (curve : D → D → Py ℝ) {spot : ℝ}
    (hs : 0 < spot) :
    ∃ c', c.add cal f curve spot = .ok c' ∧ c'.currency = c.currency ∧ c'.domestic = c.domestic ∧ c'.origin = c.origin ∧
      c'.rates.get (c.currency, f) = some (fxOf cal c.origin spot c.domestic curve) ∧
      c'.rates.get (f, c.currency) = some (fxOf cal c.origin (1 / spot) curve curve) ∧
      (∀ a, a ≠ c.currency → a ≠ f → Cs a →
        c'.rates.get (a, f) = some (fxOf cal c.origin ((if Cs f then x f else spot) / x a) (crv a) curve) ∧
        c'.rates.get (f, a) = some (fxOf cal c.origin (x a / (if Cs f then x f else spot)) curve (crv a))) ∧
      (∀ a, ¬ Cs a → a ≠ f → c'.rates.get (a, f) = none ∧ c'.rates.get (f, a) = none) ∧
      c'.rates.get (f, f) = none ∧
      ∀ a b, a ≠ f → b ≠ f → c'.rates.get (a, b) = c.rates.get (a, b) := by
  obtain ⟨base, bd, o, R⟩ := c
  obtain ⟨hbase, hone, hpos, hdom, hget⟩ := h
  simp only at *
  have e1 := fxOf_new cal hτ o hs bd curve
  have e2 := fxOf_new cal hτ o (one_div_pos.2 hs) bd curve
  set R1 := (R.set (base, f) (fxOf cal o spot bd curve)).set (f, base) (fxOf cal o (1 / spot) bd curve) with hR1
  have hg1 : ∀ k, R1.get k = if (f, base) = k then some (fxOf cal o (1 / spot) bd curve) else
      if (base, f) = k then some (fxOf cal o spot bd curve) else R.get k := by
    intro k; rw [hR1, Dict.get_set, Dict.get_set]
  have hfst : ∀ d, d ≠ f → R1.get (d, base) = R.get (d, base) := by
    intro d hd
    rw [hg1]
    simp [Ne.symm hd, Ne.symm hf, hf]
  have hkeys : ∀ d, d ≠ f → ((d, base) ∈ R1.map Prod.fst ↔ Cs d) := by
    intro d hd
    rw [Dict.mem_keys, hfst d hd, hget]
    by_cases hdb : d = base
    · subst hdb; simp [hbase]
    · simp [hdb, hbase]
  set T : C → Prop := fun d => d ≠ f ∧ Cs d with hTdef
  obtain ⟨R', N', h1, h2, h3, h4⟩ := addLoop_eq (cal := cal) hτ hf curve hs o (y := fun d => 1 / x d)
    (dom := crv) bd (R1.map Prod.fst) (fun _ => False) T
    (fun d => by
      simp only [hTdef, false_or]
      constructor
      · rintro ⟨a, b⟩; exact ⟨a, (hkeys d a).2 b⟩
      · rintro ⟨a, b⟩; exact ⟨a, (hkeys d a).1 b⟩)
    (by simp) (fun k => R1.get k) R1 [] (by simp)
    (fun k => by cases R1.get k <;> simp [fxUpd])
    (fun k => by simp [fxNew, Dict.get])
    (fun d hd hm => by
      refine ⟨one_div_pos.2 (hpos d), ?_⟩
      have hCd := (hkeys d hd).1 hm
      refine ⟨crv d, ?_⟩
      rw [hfst d hd, hget]
      by_cases hdb : d = base
      · subst hdb; simp [hone]
      · simp [hdb, hbase, hCd, hone])
    (fun d hd hm => by
      have hCd := (hkeys d hd).1 hm
      rw [hg1, hg1]
      by_cases hdb : d = base
      · subst hdb; simp [hf, Ne.symm hf]
      · by_cases hCf : Cs f <;>
          simp [hdb, hd, Ne.symm hd, Ne.symm hdb, hf, Ne.symm hf, hget, hCd, hCf])
  refine ⟨⟨base, bd, o, R'.updateWith N'⟩, ?_, rfl, rfl, rfl, ?_⟩
  · simp only [FxContainer.add, FxContainer.curve, e1, Py.ok_bind, pyDiv_ok hs.ne', e2]
    rw [← hR1, h1]
    rfl
  have hfin : ∀ k, (R'.updateWith N').get k =
      (fxNew cal o f curve spot (fun d => 1 / x d) crv (fun k => R1.get k) T k).or
        ((R1.get k).map (fxUpd f curve T k)) := by
    intro k; rw [Dict.get_updateWith _ _ h2, h3, h4]
  have hTf : ¬ T f := by simp [hTdef]
  have hTb : T base := ⟨Ne.symm hf, hbase⟩
  refine ⟨?_, ?_, fun a hab haf ha => ?_, fun a ha haf => ?_, ?_, fun a b ha hb => ?_⟩
  · rw [hfin]
    simp only [fxNew, hg1, fxUpd]
    simp [fxUpd, hf, Ne.symm hf, hTb, fxOf]
  · rw [hfin]
    simp only [fxNew, hg1, fxUpd]
    simp [fxUpd, hf, Ne.symm hf, hTb, hTf, fxOf]
  · have hTa : T a := ⟨haf, ha⟩
    have hx := (hpos a).ne'
    by_cases hCf : Cs f
    · constructor
      · rw [hfin]
        simp only [fxNew, hg1, fxUpd, hget]
        simp [fxUpd, hf, Ne.symm hf, hTa, hab, Ne.symm hab, haf, Ne.symm haf, ha, hCf, fxOf]
      · rw [hfin]
        simp only [fxNew, hg1, fxUpd, hget]
        simp [fxUpd, hf, Ne.symm hf, hTa, hab, Ne.symm hab, haf, Ne.symm haf, ha, hCf, fxOf]
    · have e1 : 1 / x a * spot = spot / x a := by ring
      have e2 : 1 / (1 / x a * spot) = x a / spot := by field_simp
      have e3 : (1 / (x a)⁻¹) / spot = x a / spot := by field_simp
      constructor
      · rw [hfin]
        simp only [fxNew, hg1, fxUpd, hget, e1, e2]
        simp [hf, Ne.symm hf, hTa, hab, Ne.symm hab, haf, Ne.symm haf, ha, hCf]
      · rw [hfin]
        simp only [fxNew, hg1, fxUpd, hget, e1, e2]
        simp [hf, Ne.symm hf, hTa, hab, Ne.symm hab, haf, Ne.symm haf, ha, hCf]
  · have hTa : ¬ T a := fun h => ha h.2
    have hab : a ≠ base := fun h => ha (h ▸ hbase)
    constructor
    · rw [hfin]
      simp only [fxNew, hg1, fxUpd, hget]
      simp [hf, Ne.symm hf, hTa, hab, Ne.symm hab, haf, Ne.symm haf, ha]
    · rw [hfin]
      simp only [fxNew, hg1, fxUpd, hget]
      simp [hf, Ne.symm hf, hTa, hab, Ne.symm hab, haf, Ne.symm haf, ha]
  · rw [hfin]
    simp only [fxNew, hg1, fxUpd, hget]
    simp [hf, Ne.symm hf, hTf]
  · rw [hfin]
    simp only [fxNew, hg1, fxUpd]
    simp only [ha, hb, false_and, if_false, Prod.mk.injEq, Ne.symm ha, Ne.symm hb, and_false, Option.none_or]
    cases R.get (a, b) <;> simp [fxUpd, ha, hb]

open Classical in
theorem FxState.add (hτ : GoodDayCount cal.dayCount) {c : FxContainer C D} {Cs : C → Prop} {x : C → ℝ}
    {crv : C → D → D → Py ℝ} (h : FxState cal c Cs x crv) {f : C} (hf : ¬ Cs f) (curve : D → D → Py ℝ) {spot : ℝ}
    (hs : 0 < spot) :
    ∃ c', c.add cal f curve spot = .ok c' ∧ c'.currency = c.currency ∧ c'.domestic = c.domestic ∧ c'.origin = c.origin ∧
      FxState cal c' (fun a => Cs a ∨ a = f) (Function.update x f spot) (Function.update crv f curve) := by
  have hfb : f ≠ c.currency := fun e => hf (e ▸ h.base)
  obtain ⟨c', h1, h2, h3, h4, g1, g2, g3, g4, g5, g6⟩ := h.add_get hτ hfb curve hs
  refine ⟨c', h1, h2, h3, h4, ?_, ?_, fun a => ?_, ?_, fun a b => ?_⟩
  · rw [h2]; exact .inl h.base
  · rw [h2, Function.update_of_ne (Ne.symm hfb)]; exact h.one
  · by_cases ha : a = f
    · subst ha; simpa using hs
    · rw [Function.update_of_ne ha]; exact h.pos a
  · rw [h2, Function.update_of_ne (Ne.symm hfb), h3]; exact h.dom
  · rw [h2, h4]
    by_cases ha : a = f
    · subst ha
      by_cases hb : b = a
      · subst hb; simp [g5, hfb]
      · rw [Function.update_of_ne hb, Function.update_self, Function.update_self, Function.update_of_ne hb]
        by_cases hbb : b = c.currency
        · subst hbb; simp [g2, hfb, h.base, h.one, Ne.symm hfb]
        · by_cases hCb : Cs b
          · rw [(g3 b hbb hb hCb).2]; simp [hbb, hCb, hf, Ne.symm hb]
          · rw [(g4 b hCb hb).2]; simp [hbb, hCb, hb]
    · rw [Function.update_of_ne ha, Function.update_of_ne ha]
      by_cases hb : b = f
      · subst hb
        rw [Function.update_self, Function.update_self]
        by_cases hab : a = c.currency
        · subst hab; simp [g1, hfb, h.base, h.one, Ne.symm hfb, h.dom]
        · by_cases hCa : Cs a
          · rw [(g3 a hab ha hCa).1]; simp [hab, hCa, hf, ha, hfb]
          · rw [(g4 a hCa ha).1]; simp [hab, hCa, ha]
      · rw [Function.update_of_ne hb, Function.update_of_ne hb, g6 a b ha hb, h.get]
        simp [ha, hb]

/-! ### Histories -/

/-- A history of additions of distinct new currencies with positive spots. -/
structure GoodHistory (base : C) (l : List (C × (D → D → Py ℝ) × ℝ)) : Prop where
  nodup : (l.map Prod.fst).Nodup
  base : base ∉ l.map Prod.fst
  pos : ∀ p ∈ l, 0 < p.2.2

/-- The currencies of a container after a history. -/
def Currency (base : C) (l : List (C × (D → D → Py ℝ) × ℝ)) (a : C) : Prop := a = base ∨ a ∈ l.map Prod.fst

theorem history_state (hτ : GoodDayCount cal.dayCount) {c : FxContainer C D} {Cs : C → Prop} {x : C → ℝ}
    {crv : C → D → D → Py ℝ} (h : FxState cal c Cs x crv) (l : List (C × (D → D → Py ℝ) × ℝ))
    (hn : (l.map Prod.fst).Nodup) (hb : ∀ p ∈ l, ¬ Cs p.1) (hpos : ∀ p ∈ l, 0 < p.2.2) :
    ∃ c' x' crv', c.addAll cal l = .ok c' ∧ c'.currency = c.currency ∧ c'.domestic = c.domestic ∧ c'.origin = c.origin ∧
      FxState cal c' (fun a => Cs a ∨ a ∈ l.map Prod.fst) x' crv' ∧ (∀ p ∈ l, x' p.1 = p.2.2 ∧ crv' p.1 = p.2.1) ∧
      ∀ a, a ∉ l.map Prod.fst → x' a = x a ∧ crv' a = crv a := by
  induction l generalizing c Cs x crv with
  | nil => exact ⟨c, x, crv, rfl, rfl, rfl, rfl, by simpa using h, by simp, by simp⟩
  | cons p l ih =>
    obtain ⟨f, curve, spot⟩ := p
    simp only [List.map_cons, List.nodup_cons] at hn
    obtain ⟨c1, h1, h2, h3, h4, h5⟩ := h.add hτ (hb (f, curve, spot) (by simp)) curve (hpos (f, curve, spot) (by simp))
    obtain ⟨c', x', crv', e1, e2, e3, e4, e5, e6, e7⟩ := ih h5 hn.2
      (fun p hp => by
        rintro (hc | hc)
        · exact hb p (List.mem_cons_of_mem _ hp) hc
        · exact hn.1 (List.mem_map.2 ⟨p, hp, hc⟩))
      (fun p hp => hpos p (List.mem_cons_of_mem _ hp))
    refine ⟨c', x', crv', ?_, e2.trans h2, e3.trans h3, e4.trans h4, ?_, ?_, ?_⟩
    · simp only [FxContainer.addAll]; rw [h1]; exact e1
    · have : (fun a => Cs a ∨ a ∈ ((f, curve, spot) :: l).map Prod.fst) = fun a => (Cs a ∨ a = f) ∨ a ∈ l.map Prod.fst := by
        funext a; simp only [List.map_cons, List.mem_cons, eq_iff_iff]; tauto
      rw [this]; exact e5
    · intro p hp
      rcases List.mem_cons.1 hp with rfl | hp
      · have := e7 f hn.1
        simpa using this
      · exact e6 p hp
    · intro a ha
      simp only [List.map_cons, List.mem_cons, not_or] at ha
      have := e7 a ha.2
      rwa [Function.update_of_ne ha.1, Function.update_of_ne ha.1] at this

/-- The state after a history. -/
theorem container_state (hτ : GoodDayCount cal.dayCount) (base : C) (bd : D → D → Py ℝ) (o : D)
    {l : List (C × (D → D → Py ℝ) × ℝ)} (hl : GoodHistory base l) :
    ∃ c0 c x crv, FxContainer.new cal base bd o = .ok c0 ∧ c0.addAll cal l = .ok c ∧
      c.currency = base ∧ c.domestic = bd ∧ c.origin = o ∧
      FxState cal c (Currency base l) x crv ∧ (∀ p ∈ l, x p.1 = p.2.2 ∧ crv p.1 = p.2.1) := by
  obtain ⟨c0, h1, h2, h3, h4, h5⟩ := FxState.new (cal := cal) hτ base bd o
  obtain ⟨c, x, crv, e1, e2, e3, e4, e5, e6, -⟩ := history_state hτ h5 l hl.nodup
    (fun p hp (e : p.1 = base) => hl.base (List.mem_map.2 ⟨p, hp, e⟩)) hl.pos
  exact ⟨c0, c, x, crv, h1, e1, e2.trans h2, e3.trans h3, e4.trans h4, e5, e6⟩

theorem price_of_get {c : FxContainer C D} {a b : C} {z : FxCurve D} (h : c.rates.get (a, b) = some z) (T : D) :
    c.price cal a b T = z.price cal T := by
  simp [FxContainer.price, FxContainer.get, h]

/-- C41: after any history of additions of distinct currencies with positive spots the rate between any two different
currencies of the container is present, the direct rates are the given spots, and the rates are free of triangular
arbitrage. -/
theorem C41_no_arbitrage (hτ : GoodDayCount cal.dayCount) (base : C) (bd : D → D → Py ℝ) (o : D)
    {l : List (C × (D → D → Py ℝ) × ℝ)} (hl : GoodHistory base l) :
    ∃ c0 c, FxContainer.new cal base bd o = .ok c0 ∧ c0.addAll cal l = .ok c ∧ ∃ rate : C → C → ℝ,
      (∀ a b, Currency base l a → Currency base l b → a ≠ b → c.price cal a b o = .ok (some (rate a b))) ∧
      c.price cal base base o = .ok (some 1) ∧
      (∀ f curve spot, (f, curve, spot) ∈ l → rate base f = spot) ∧
      (∀ a b, rate a b * rate b a = 1) ∧ (∀ a b d, rate a b * rate b d = rate a d) ∧ ∀ a b, 0 < rate a b := by
  obtain ⟨c0, c, x, crv, h1, h2, hc, -, ho, hst, hx⟩ := container_state hτ base bd o hl
  have hp := hst.pos
  have h1' := hst.one
  rw [hc] at h1'
  refine ⟨c0, c, h1, h2, fun a b => x b / x a, fun a b ha hb hab => ?_, ?_, fun f curve spot hm => ?_, fun a b => ?_,
    fun a b d => ?_, fun a b => div_pos (hp b) (hp a)⟩
  · rw [price_of_get ((hst.get a b).trans (if_pos (.inr ⟨ha, hb, hab⟩))), ho]
    exact fxOf_spot cal hτ o (div_pos (hp b) (hp a)) _ _
  · rw [price_of_get ((hst.get base base).trans (if_pos (.inl ⟨hc.symm, hc.symm⟩))), ho, div_self (hp base).ne']
    exact fxOf_spot cal hτ o one_pos _ _
  · show x f / x base = spot
    rw [h1', div_one]; exact (hx _ hm).1
  · have := (hp a).ne'; have := (hp b).ne'; field_simp
  · have := (hp a).ne'; have := (hp b).ne'; field_simp

/-- C41 (nothing else): pairs with a currency that was not added, and pairs of a currency other than the base currency
with itself, are rejected with `AssertionError`. -/
theorem C41_missing (hτ : GoodDayCount cal.dayCount) (base : C) (bd : D → D → Py ℝ) (o : D)
    {l : List (C × (D → D → Py ℝ) × ℝ)} (hl : GoodHistory base l) :
    ∃ c0 c, FxContainer.new cal base bd o = .ok c0 ∧ c0.addAll cal l = .ok c ∧
      ∀ a b, ¬ (Currency base l a ∧ Currency base l b) ∨ (a = b ∧ a ≠ base) → ∀ T, c.price cal a b T = .error .assertion := by
  obtain ⟨c0, c, x, crv, h1, h2, hc, -, ho, hst, hx⟩ := container_state hτ base bd o hl
  refine ⟨c0, c, h1, h2, fun a b hab T => ?_⟩
  have : c.rates.get (a, b) = none := by
    rw [hst.get, if_neg]
    rw [hc]
    rintro (⟨rfl, rfl⟩ | ⟨ha, hb, hne⟩)
    · rcases hab with h | ⟨-, h⟩
      · exact h ⟨.inl rfl, .inl rfl⟩
      · exact h rfl
    · rcases hab with h | ⟨h, -⟩
      · exact h ⟨ha, hb⟩
      · exact hne h
  simp [FxContainer.price, FxContainer.get, this]

/-- C42 (what the code does): adding a currency `f` of the container again replaces the direct rate and its inverse,
all other rates keep their value. -/
theorem C42_partial (hτ : GoodDayCount cal.dayCount) (base : C) (bd : D → D → Py ℝ) (o : D)
    {l : List (C × (D → D → Py ℝ) × ℝ)} (hl : GoodHistory base l) {f : C} {curve curve' : D → D → Py ℝ} {spot spot' : ℝ}
    (hf : (f, curve, spot) ∈ l) (hs : 0 < spot') :
    ∃ c0 c c', FxContainer.new cal base bd o = .ok c0 ∧ c0.addAll cal l = .ok c ∧ c.add cal f curve' spot' = .ok c' ∧
      c'.price cal base f o = .ok (some spot') ∧ c'.price cal f base o = .ok (some (1 / spot')) ∧
      ∀ a b, Currency base l a → Currency base l b → a ≠ b → (a, b) ≠ (base, f) → (a, b) ≠ (f, base) →
        ∃ r, c.price cal a b o = .ok (some r) ∧ c'.price cal a b o = .ok (some r) := by
  obtain ⟨c0, c, x, crv, h1, h2, hc, hbd, ho, hst, hx⟩ := container_state hτ base bd o hl
  have hCf : Currency base l f := .inr (List.mem_map.2 ⟨_, hf, rfl⟩)
  have hfb : f ≠ base := fun e => hl.base (e ▸ List.mem_map.2 ⟨_, hf, rfl⟩)
  obtain ⟨c', k1, k2, k3, k4, g1, g2, g3, g4, g5, g6⟩ := hst.add_get hτ (by rw [hc]; exact hfb) curve' hs
  rw [hc, ho] at g1 g2
  rw [hc, ho] at g3
  have hp := hst.pos
  refine ⟨c0, c, c', h1, h2, k1, by rw [price_of_get g1]; exact fxOf_spot cal hτ o hs _ _,
    by rw [price_of_get g2]; exact fxOf_spot cal hτ o (one_div_pos.2 hs) _ _, fun a b ha hb hab n1 n2 => ?_⟩
  refine ⟨x b / x a, ?_, ?_⟩
  · rw [price_of_get ((hst.get a b).trans (if_pos (.inr ⟨ha, hb, hab⟩))), ho]
    exact fxOf_spot cal hτ o (div_pos (hp b) (hp a)) _ _
  · by_cases hbf : b = f
    · subst hbf
      have hab' : a ≠ base := fun e => n1 (by rw [e])
      have := (g3 a hab' hab ha).1
      rw [if_pos hCf] at this
      rw [price_of_get this]
      exact fxOf_spot cal hτ o (div_pos (hp b) (hp a)) _ _
    · by_cases haf : a = f
      · subst haf
        have hbb' : b ≠ base := fun e => n2 (by rw [e])
        have := (g3 b hbb' hbf hb).2
        rw [if_pos hCf] at this
        rw [price_of_get this]
        exact fxOf_spot cal hτ o (div_pos (hp b) (hp a)) _ _
      · rw [price_of_get ((g6 a b haf hbf).trans ((hst.get a b).trans (if_pos (.inr ⟨ha, hb, hab⟩)))), ho]
        exact fxOf_spot cal hτ o (div_pos (hp b) (hp a)) _ _

/-- C42 (refuted): whenever a currency of the container is added again with another spot and a third currency is
present, triangular arbitrage appears. -/
theorem C42_violated (hτ : GoodDayCount cal.dayCount) (base : C) (bd : D → D → Py ℝ) (o : D)
    {l : List (C × (D → D → Py ℝ) × ℝ)} (hl : GoodHistory base l) {f : C} {curve curve' : D → D → Py ℝ} {spot spot' : ℝ}
    (hf : (f, curve, spot) ∈ l) (hs : 0 < spot') (hne : spot' ≠ spot) {g : C} (hg : g ∈ l.map Prod.fst) (hgf : g ≠ f) :
    ∃ c0 c c', FxContainer.new cal base bd o = .ok c0 ∧ c0.addAll cal l = .ok c ∧ c.add cal f curve' spot' = .ok c' ∧
      ∃ r1 r2 r3, c'.price cal base g o = .ok (some r1) ∧ c'.price cal g f o = .ok (some r2) ∧
        c'.price cal base f o = .ok (some r3) ∧ r1 * r2 = spot ∧ r3 = spot' ∧ r1 * r2 ≠ r3 := by
  obtain ⟨c0, c, c', h1, h2, h3, h4, h5, h6⟩ := C42_partial (cal := cal) hτ base bd o hl (curve' := curve') hf hs
  obtain ⟨d0, d, e1, e2, rate, r1, r2, r3, r4, r5, r6⟩ := C41_no_arbitrage (cal := cal) hτ base bd o hl
  obtain rfl : c0 = d0 := Except.ok.inj (h1.symm.trans e1)
  obtain rfl : c = d := Except.ok.inj (h2.symm.trans e2)
  have hCf : Currency base l f := .inr (List.mem_map.2 ⟨_, hf, rfl⟩)
  have hCg : Currency base l g := .inr hg
  have hCb : Currency base l base := .inl rfl
  have hgb : g ≠ base := fun e => hl.base (e ▸ hg)
  obtain ⟨x, hx, hx'⟩ := h6 base g hCb hCg (Ne.symm hgb) (by simp [hgf]) (by simp [hgb])
  obtain ⟨y, hy, hy'⟩ := h6 g f hCg hCf hgf (by simp [hgb]) (by simp [hgf])
  rw [r1 base g hCb hCg (Ne.symm hgb)] at hx
  rw [r1 g f hCg hCf hgf] at hy
  obtain rfl : rate base g = x := Option.some.inj (Except.ok.inj hx)
  obtain rfl : rate g f = y := Option.some.inj (Except.ok.inj hy)
  refine ⟨c0, c, c', h1, h2, h3, _, _, _, hx', hy', h4, ?_, rfl, ?_⟩
  · rw [r5]; exact r3 f curve spot hf
  · rw [r5, r3 f curve spot hf]; exact Ne.symm hne

/-! ### Forwards in a container -/

theorem fxOf_forward (hτ : GoodDayCount cal.dayCount) {o T : D} (hT : o < T) {y d f : ℝ} (hy : 0 < y) {dom for_ : D → D → Py ℝ}
    (hd : dom o T = .ok d) (hf : for_ o T = .ok f) (hf0 : f ≠ 0) :
    (fxOf cal o y dom for_).price cal T = .ok (some (y * d / f)) := by
  have h := fxOf_spot cal hτ o hy dom for_
  have hl : pyLast (fxOf cal o y dom for_).base.base.domain = .ok o := rfl
  simp only [FxCurve.price, hl, Py.ok_bind, le_refl, if_true] at h
  have e1 : (fxOf cal o y dom for_).domestic = dom := rfl
  have e2 : (fxOf cal o y dom for_).foreign = for_ := rfl
  simp only [FxCurve.price, hl, Py.ok_bind, hT.not_ge, if_false, h, e1, e2, hd, hf, pyNum, pyDiv_ok hf0]
  congr 2; ring

/-- C43 (containers): forwards of the base currency against a currency `f`, and of two other currencies against each
other, use the curves of both currencies; the forward of `f` against the base currency stays at its spot. -/
theorem C43_container (hτ : GoodDayCount cal.dayCount) (base : C) (bd : D → D → Py ℝ) (o : D)
    {l : List (C × (D → D → Py ℝ) × ℝ)} (hl : GoodHistory base l) {T : D} (hT : o < T) {b : ℝ} (hb : bd o T = .ok b)
    {f : C} {cf : D → D → Py ℝ} {sf vf : ℝ} (hf : (f, cf, sf) ∈ l) (hvf : cf o T = .ok vf) (hvf0 : vf ≠ 0) :
    ∃ c0 c, FxContainer.new cal base bd o = .ok c0 ∧ c0.addAll cal l = .ok c ∧
      c.price cal base f T = .ok (some (sf * b / vf)) ∧
      c.price cal f base T = .ok (some (1 / sf)) ∧
      ∀ g cg sg vg, (g, cg, sg) ∈ l → g ≠ f → cg o T = .ok vg → vg ≠ 0 →
        c.price cal g f T = .ok (some (sf / sg * vg / vf)) := by
  obtain ⟨c0, c, x, crv, h1, h2, hc, hbd, ho, hst, hx⟩ := container_state hτ base bd o hl
  have mem : ∀ {g cg sg}, (g, cg, sg) ∈ l → Currency base l g ∧ g ≠ base ∧ 0 < sg ∧ x g = sg ∧ crv g = cg := by
    intro g cg sg hm
    exact ⟨.inr (List.mem_map.2 ⟨_, hm, rfl⟩), fun e => hl.base (e ▸ List.mem_map.2 ⟨_, hm, rfl⟩), hl.pos _ hm, hx _ hm⟩
  obtain ⟨hCf, hfb, hsf, xf, kf⟩ := mem hf
  have hone := hst.one
  have hdom := hst.dom
  rw [hc] at hone hdom
  rw [hbd] at hdom
  have hCb : Currency base l base := .inl rfl
  refine ⟨c0, c, h1, h2, ?_, ?_, fun g cg sg vg hg hgf hvg hvg0 => ?_⟩
  · rw [price_of_get ((hst.get base f).trans (if_pos (.inr ⟨hCb, hCf, Ne.symm hfb⟩))), ho, hc, if_neg hfb, hone, xf, kf, hdom, div_one]
    exact fxOf_forward hτ hT hsf hb hvf hvf0
  · rw [price_of_get ((hst.get f base).trans (if_pos (.inr ⟨hCf, hCb, hfb⟩))), ho, hc, if_pos rfl, hone, xf, kf,
      fxOf_forward hτ hT (one_div_pos.2 hsf) hvf hvf hvf0, mul_div_assoc, div_self hvf0, mul_one]
  · obtain ⟨hCg, hgb, hsg, xg, kg⟩ := mem hg
    rw [price_of_get ((hst.get g f).trans (if_pos (.inr ⟨hCg, hCf, hgf⟩))), ho, hc, if_neg hfb, xf, xg, kf, kg]
    exact fxOf_forward hτ hT (div_pos hsf hsg) hvg hvf hvf0

/-- C43 (refuted for containers): the forward of the inverse pair is not the reciprocal one whenever the discount
factors of the two currencies differ. -/
theorem C43_inverse_violated (hτ : GoodDayCount cal.dayCount) (base : C) (bd : D → D → Py ℝ) (o : D)
    {l : List (C × (D → D → Py ℝ) × ℝ)} (hl : GoodHistory base l) {T : D} (hT : o < T) {b : ℝ} (hb : bd o T = .ok b)
    {f : C} {cf : D → D → Py ℝ} {sf vf : ℝ} (hf : (f, cf, sf) ∈ l) (hvf : cf o T = .ok vf) (hvf0 : vf ≠ 0) (hne : b ≠ vf) :
    ∃ c0 c, FxContainer.new cal base bd o = .ok c0 ∧ c0.addAll cal l = .ok c ∧ ∃ p q,
      c.price cal base f T = .ok (some p) ∧ c.price cal f base T = .ok (some q) ∧ p * q ≠ 1 := by
  obtain ⟨c0, c, h1, h2, h3, h4, -⟩ := C43_container (cal := cal) hτ base bd o hl hT hb hf hvf hvf0
  refine ⟨c0, c, h1, h2, _, _, h3, h4, ?_⟩
  have : 0 < sf := hl.pos _ hf
  intro e
  apply hne
  field_simp at e
  exact e

/-- C43 (what holds for containers): forwards of two currencies other than the base currency are reciprocal. -/
theorem C43_inverse_partial (hτ : GoodDayCount cal.dayCount) (base : C) (bd : D → D → Py ℝ) (o : D)
    {l : List (C × (D → D → Py ℝ) × ℝ)} (hl : GoodHistory base l) {T : D} (hT : o < T) {b : ℝ} (hb : bd o T = .ok b)
    {f g : C} {cf cg : D → D → Py ℝ} {sf vf sg vg : ℝ} (hf : (f, cf, sf) ∈ l) (hvf : cf o T = .ok vf) (hvf0 : vf ≠ 0)
    (hg : (g, cg, sg) ∈ l) (hvg : cg o T = .ok vg) (hvg0 : vg ≠ 0) (hgf : g ≠ f) :
    ∃ c0 c, FxContainer.new cal base bd o = .ok c0 ∧ c0.addAll cal l = .ok c ∧ ∃ p q,
      c.price cal g f T = .ok (some p) ∧ c.price cal f g T = .ok (some q) ∧ p * q = 1 := by
  obtain ⟨c0, c, h1, h2, -, -, h3⟩ := C43_container (cal := cal) hτ base bd o hl hT hb hf hvf hvf0
  obtain ⟨d0, d, e1, e2, -, -, h4⟩ := C43_container (cal := cal) hτ base bd o hl hT hb hg hvg hvg0
  obtain rfl : c0 = d0 := Except.ok.inj (h1.symm.trans e1)
  obtain rfl : c = d := Except.ok.inj (h2.symm.trans e2)
  refine ⟨c0, c, h1, h2, _, _, h3 g cg sg vg hg hgf hvg hvg0, h4 f cf sf vf hf (Ne.symm hgf) hvf hvf0, ?_⟩
  have : 0 < sf := hl.pos _ hf
  have : 0 < sg := hl.pos _ hg
  field_simp

/-- The forward rate at `T` (units of domestic money for one unit of foreign money, like the spot `s`) that leaves no
arbitrage between borrowing one currency and lending the other. -/
def ArbitrageFreeForward (s df_dom df_for F : ℝ) : Prop := F * df_dom = s * df_for

/-- C79 (refuted): with the documented meaning of a spot (an amount of `f` times the spot is the amount in base
currency) the forward of a container is free of arbitrage only if both currencies have the same discount factor. -/
theorem C79_violated (hτ : GoodDayCount cal.dayCount) (base : C) (bd : D → D → Py ℝ) (o : D)
    {l : List (C × (D → D → Py ℝ) × ℝ)} (hl : GoodHistory base l) {T : D} (hT : o < T) {b : ℝ} (hb : bd o T = .ok b)
    {f : C} {cf : D → D → Py ℝ} {sf vf : ℝ} (hf : (f, cf, sf) ∈ l) (hvf : cf o T = .ok vf) (hvf0 : 0 < vf) (hb0 : 0 < b) :
    ∃ c0 c, FxContainer.new cal base bd o = .ok c0 ∧ c0.addAll cal l = .ok c ∧ ∃ F,
      c.price cal base f T = .ok (some F) ∧ (ArbitrageFreeForward sf b vf F ↔ b = vf) := by
  obtain ⟨c0, c, h1, h2, h3, h4, -⟩ := C43_container (cal := cal) hτ base bd o hl hT hb hf hvf hvf0.ne'
  refine ⟨c0, c, h1, h2, _, h3, ?_⟩
  have hs : 0 < sf := hl.pos _ hf
  unfold ArbitrageFreeForward
  constructor
  · intro e
    field_simp at e
    nlinarith [sq_nonneg (b - vf)]
  · rintro rfl
    field_simp

/-- C79 (what holds): read the other way round (an amount in base currency times the rate is the amount of `f`) the
same number leaves no arbitrage. -/
theorem C79_partial (hτ : GoodDayCount cal.dayCount) (base : C) (bd : D → D → Py ℝ) (o : D)
    {l : List (C × (D → D → Py ℝ) × ℝ)} (hl : GoodHistory base l) {T : D} (hT : o < T) {b : ℝ} (hb : bd o T = .ok b)
    {f : C} {cf : D → D → Py ℝ} {sf vf : ℝ} (hf : (f, cf, sf) ∈ l) (hvf : cf o T = .ok vf) (hvf0 : 0 < vf) (hb0 : 0 < b) :
    ∃ c0 c, FxContainer.new cal base bd o = .ok c0 ∧ c0.addAll cal l = .ok c ∧ ∃ F,
      c.price cal base f T = .ok (some F) ∧ ArbitrageFreeForward sf vf b F := by
  obtain ⟨c0, c, h1, h2, h3, h4, -⟩ := C43_container (cal := cal) hτ base bd o hl hT hb hf hvf hvf0.ne'
  refine ⟨c0, c, h1, h2, _, h3, ?_⟩
  have hs : 0 < sf := hl.pos _ hf
  unfold ArbitrageFreeForward
  field_simp

/-- Histories to which C41-C43 and C79 apply. -/
theorem example_history : GoodHistory (D := ℝ) "USD" [("EUR", fun _ _ => .ok (99 / 100), 6 / 5), ("GBP", fun _ _ => .ok (98 / 100), 7 / 5)] :=
  ⟨by simp, by simp, by simp⟩

example : ∃ c0 c : FxContainer String ℝ, FxContainer.new floatCal "USD" (fun _ _ => .ok (97 / 100)) 0 = .ok c0 ∧
    c0.addAll floatCal [("EUR", fun _ _ => .ok (99 / 100), 6 / 5), ("GBP", fun _ _ => .ok (98 / 100), 7 / 5)] = .ok c ∧
    ∃ F, c.price floatCal "USD" "EUR" 1 = .ok (some F) ∧ ¬ ArbitrageFreeForward (6 / 5) (97 / 100) (99 / 100) F := by
  obtain ⟨c0, c, h1, h2, F, h3, h4⟩ := C79_violated (cal := floatCal) goodDayCount_real "USD" (fun _ _ => .ok (97 / 100)) 0
    example_history (T := 1) one_pos (b := 97 / 100) rfl (f := "EUR") (sf := 6 / 5) (vf := 99 / 100) (by simp; rfl) rfl
    (by norm_num) (by norm_num)
  exact ⟨c0, c, h1, h2, F, h3, fun h => by have := h4.1 h; norm_num at this⟩

example : ∃ c : FxContainer String ℝ, ∃ r1 r2 r3, c.price floatCal "USD" "GBP" 0 = .ok (some r1) ∧
    c.price floatCal "GBP" "EUR" 0 = .ok (some r2) ∧ c.price floatCal "USD" "EUR" 0 = .ok (some r3) ∧ r1 * r2 ≠ r3 := by
  obtain ⟨c0, c, c', -, -, -, r1, r2, r3, h1, h2, h3, -, -, h4⟩ := C42_violated (cal := floatCal) goodDayCount_real "USD"
    (fun _ _ => .ok (97 / 100)) 0 example_history (f := "EUR") (spot := 6 / 5) (spot' := 2)
    (curve := fun _ _ => .ok (99 / 100)) (curve' := fun _ _ => .ok (99 / 100)) (by simp) two_pos (by norm_num) (g := "GBP") (by simp) (by simp)
  exact ⟨c', r1, r2, r3, h1, h2, h3, h4⟩

end

/-! ### The hypotheses can be met: each theorem applied -/

example := C41_no_arbitrage (cal := floatCal) goodDayCount_real "USD" (fun _ _ => .ok (97 / 100)) 0 example_history
example := C41_missing (cal := floatCal) goodDayCount_real "USD" (fun _ _ => .ok (97 / 100)) 0 example_history
example := C42_partial (cal := floatCal) goodDayCount_real "USD" (fun _ _ => .ok (97 / 100)) 0 example_history (f := "EUR") (spot := 6 / 5)
  (spot' := 2) (curve := fun _ _ => .ok (99 / 100)) (curve' := fun _ _ => .ok (99 / 100)) (by simp) two_pos
example := C43_container (cal := floatCal) goodDayCount_real "USD" (fun _ _ => .ok (97 / 100)) 0 example_history (T := 1) one_pos (b := 97 / 100) rfl
  (f := "EUR") (sf := 6 / 5) (vf := 99 / 100) (cf := fun _ _ => .ok (99 / 100)) (by simp) rfl (by norm_num)
example := C43_inverse_violated (cal := floatCal) goodDayCount_real "USD" (fun _ _ => .ok (97 / 100)) 0 example_history (T := 1) one_pos (b := 97 / 100) rfl
  (f := "EUR") (sf := 6 / 5) (vf := 99 / 100) (cf := fun _ _ => .ok (99 / 100)) (by simp) rfl (by norm_num) (by norm_num)
example := C43_inverse_partial (cal := floatCal) goodDayCount_real "USD" (fun _ _ => .ok (97 / 100)) 0 example_history (T := 1) one_pos (b := 97 / 100) rfl
  (f := "EUR") (sf := 6 / 5) (vf := 99 / 100) (cf := fun _ _ => .ok (99 / 100)) (g := "GBP") (sg := 7 / 5) (vg := 98 / 100)
  (cg := fun _ _ => .ok (98 / 100)) (by simp) rfl (by norm_num) (by simp) rfl (by norm_num) (by simp)
example := C79_partial (cal := floatCal) goodDayCount_real "USD" (fun _ _ => .ok (97 / 100)) 0 example_history (T := 1) one_pos (b := 97 / 100) rfl
  (f := "EUR") (sf := 6 / 5) (vf := 99 / 100) (cf := fun _ _ => .ok (99 / 100)) (by simp) rfl (by norm_num) (by norm_num)

end Dcf
