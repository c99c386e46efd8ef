import Verif.Lemmas.Pricer
import Verif.Props.Legs
import Verif.Lemmas.FlatCurve

/-! # Present values: C54, C55 and the present value part of C47 -/

set_option linter.unusedSectionVars false
set_option linter.unusedVariables false

namespace Dcf

open Spec

section
variable {D P : Type} [LinearOrder D] {cal : Cal D P}

/-- C54: the present value of a flat list is the sum over its pay dates from the valuation date on of discount factor
times flow; the flow is the one with the valuation date set in the payoff model.  It exists exactly if all of these
discount factors and flows exist (and a contingent list has a payoff model). -/
theorem C54_sum {c : CurveObj D P} {same : Bool} {v : D} {a : ℕ} {w w' : World D P} {x : ℝ} :
    pv cal c same (some v) (.list a) w = (.ok x, w') ↔
      w' = w ∧ (w.lists a).Priceable ∧ ∃ df fl : D → ℝ,
        (∀ d ∈ (w.lists a).domain, v ≤ d → c.discountFactor cal same v d = .ok (df d) ∧
          ((w.dated (some v) a).list a).getitem cal d = .ok (fl d)) ∧
        x = (((w.lists a).domain.filter (v ≤ ·)).map fun d => df d * fl d).sum := by
  rw [show pv cal c same (some v) (.list a) w = pvList cal c same (some v) a w by rw [pv, pvAt]]
  exact pvList_sum

/-- C54: without a valuation date it is the origin of the discount curve. -/
theorem C54_default {c : CurveObj D P} {o : D} (ho : c.base.origin = some o) (same : Bool) (p : Product D) :
    pv cal c same none p = pv cal c true (some o) p := by
  rw [pv, pv, ho]

mutual
theorem pvAt_state {c : CurveObj D P} {same : Bool} {v : Option D} : ∀ {p : Product D} {w w' : World D P} {x : ℝ},
    pvAt cal c same v p w = (.ok x, w') → w' = w
  | .list a, w, w', x, h => by
    rw [pvAt] at h
    exact (pvList_ok.1 h).1
  | .legs ps d o, w, w', x, h => by
    rw [pvAt] at h
    obtain ⟨l, s, h1, h2⟩ := PyM.bind_eq_ok.1 h
    cases h2
    exact pvLegs_state h1
theorem pvLegs_state {c : CurveObj D P} {same : Bool} {v : Option D} : ∀ {ps : List (Product D)} {w w' : World D P}
    {l : List ℝ}, pvLegs cal c same v ps w = (.ok l, w') → w' = w
  | [], w, w', l, h => by
    rw [pvLegs] at h
    cases h
    rfl
  | p :: ps, w, w', l, h => by
    rw [pvLegs] at h
    obtain ⟨x, s, h1, h2⟩ := PyM.bind_eq_ok.1 h
    obtain rfl := pvAt_state h1
    obtain ⟨xs, s', h3, h4⟩ := PyM.bind_eq_ok.1 h2
    cases h4
    exact pvLegs_state h3
end

theorem pvLegs_ok {c : CurveObj D P} {same : Bool} {v : Option D} {ps : List (Product D)} {w w' : World D P} {l : List ℝ} :
    pvLegs cal c same v ps w = (.ok l, w') ↔ w' = w ∧ List.Forall₂ (fun p x => pvAt cal c same v p w = (.ok x, w)) ps l := by
  induction ps generalizing l with
  | nil =>
    rw [pvLegs]
    simp only [PyM.pure_run, Prod.mk.injEq, Except.ok.injEq, List.forall₂_nil_left_iff]
    exact ⟨fun h => ⟨h.2.symm, h.1.symm⟩, fun h => ⟨h.2.symm, h.1.symm⟩⟩
  | cons p ps ih =>
    rw [pvLegs]
    constructor
    · intro h
      obtain ⟨x, s, h1, h2⟩ := PyM.bind_eq_ok.1 h
      obtain rfl := pvAt_state h1
      obtain ⟨xs, s', h3, h4⟩ := PyM.bind_eq_ok.1 h2
      cases h4
      obtain ⟨rfl, h5⟩ := ih.1 h3
      exact ⟨rfl, .cons h1 h5⟩
    · rintro ⟨rfl, h⟩
      cases h with
      | cons h1 h2 =>
        rw [PyM.bind_ok h1, PyM.bind_ok (ih.2 ⟨rfl, h2⟩)]
        rfl

theorem pv_eq_pvAt {c : CurveObj D P} {same : Bool} {v : D} {p : Product D} :
    pv cal c same (some v) p = pvAt cal c same (some v) p := rfl

/-- C54: the present value of a leg list is the sum of the present values of its legs. -/
theorem C54_legs {c : CurveObj D P} {same : Bool} {v : D} {ps : List (Product D)} {d : List D} {o : Option D}
    {w w' : World D P} {x : ℝ} :
    pv cal c same (some v) (.legs ps d o) w = (.ok x, w') ↔
      w' = w ∧ ∃ xs, List.Forall₂ (fun p y => pv cal c same (some v) p w = (.ok y, w)) ps xs ∧ x = xs.sum := by
  simp only [pv_eq_pvAt]
  rw [pvAt]
  constructor
  · intro h
    obtain ⟨l, s, h1, h2⟩ := PyM.bind_eq_ok.1 h
    cases h2
    obtain ⟨rfl, h3⟩ := pvLegs_ok.1 h1
    exact ⟨rfl, l, h3, by simp⟩
  · rintro ⟨rfl, xs, h, rfl⟩
    rw [PyM.bind_ok (pvLegs_ok.2 ⟨rfl, h⟩)]
    simp

/-- C54: flows before the valuation date have no effect: two lists with the same pay dates from the valuation date on
and the same flows there have the same present value and raise the same exceptions. -/
theorem C54_past {c : CurveObj D P} {same : Bool} {v : D} {a a' : ℕ} {w : World D P} (ha : (w.lists a).Priceable)
    (ha' : (w.lists a').Priceable) (hd : (w.lists a).domain.filter (v ≤ ·) = (w.lists a').domain.filter (v ≤ ·))
    (hf : ∀ d ∈ (w.lists a).domain, v ≤ d →
      ((w.dated (some v) a).list a).getitem cal d = ((w.dated (some v) a').list a').getitem cal d) :
    (pv cal c same (some v) (.list a) w).1 = (pv cal c same (some v) (.list a') w).1 := by
  simp only [pv_eq_pvAt, pvAt]
  rw [pvList_run c same _ ha, pvList_run c same _ ha']
  simp only [payDates, hd]
  have : ((w.dated (some v) a).list a).getitems cal ((w.lists a').domain.filter (v ≤ ·)) =
      ((w.dated (some v) a').list a').getitems cal ((w.lists a').domain.filter (v ≤ ·)) := by
    refine pyMap_congr fun d hd' => hf d ?_ ?_ <;> rw [← hd] at hd' <;> simp at hd'
    exacts [hd'.1, hd'.2]
  rw [this]
  cases ((w.dated (some v) a').list a').getitems cal ((w.lists a').domain.filter (v ≤ ·)) <;> rfl

/-- C54: present values are additive and homogeneous in the amounts. -/
theorem C54_linear {c : CurveObj D P} {same : Bool} {v : D} {a₁ a₂ a₃ : ℕ} {w : World D P} {x₁ x₂ α β : ℝ}
    (h₁ : pv cal c same (some v) (.list a₁) w = (.ok x₁, w)) (h₂ : pv cal c same (some v) (.list a₂) w = (.ok x₂, w))
    (h₃ : (w.lists a₃).Priceable) (hd₁ : (w.lists a₁).domain = (w.lists a₃).domain)
    (hd₂ : (w.lists a₂).domain = (w.lists a₃).domain)
    (hf : ∀ d ∈ (w.lists a₃).domain, v ≤ d → ∀ y₁ y₂, ((w.dated (some v) a₁).list a₁).getitem cal d = .ok y₁ →
      ((w.dated (some v) a₂).list a₂).getitem cal d = .ok y₂ →
      ((w.dated (some v) a₃).list a₃).getitem cal d = .ok (α * y₁ + β * y₂)) :
    pv cal c same (some v) (.list a₃) w = (.ok (α * x₁ + β * x₂), w) := by
  obtain ⟨-, -, df₁, f₁, H₁, rfl⟩ := C54_sum.1 h₁
  obtain ⟨-, -, df₂, f₂, H₂, rfl⟩ := C54_sum.1 h₂
  rw [hd₁] at H₁
  rw [hd₂] at H₂
  refine C54_sum.2 ⟨rfl, h₃, df₁, fun d => α * f₁ d + β * f₂ d, fun d hd hv => ⟨(H₁ d hd hv).1,
    hf d hd hv _ _ (H₁ d hd hv).2 (H₂ d hd hv).2⟩, ?_⟩
  rw [hd₁, hd₂, ← List.sum_map_mul_left, ← List.sum_map_mul_left, ← List.sum_map_add]
  congr 1
  apply List.map_congr_left
  intro d hd
  simp only [List.mem_filter, decide_eq_true_eq] at hd
  have : df₂ d = df₁ d := Except.ok.inj ((H₂ d hd.1 hd.2).1.symm.trans (H₁ d hd.1 hd.2).1)
  rw [this]
  ring

/-- C54: a flow on the valuation date counts fully, for all but discount factor curves. -/
theorem C54_today {c : CurveObj D P} {cls : IRClass} (hk : c.kind = .ir cls) (hc : cls ≠ .discount) (same : Bool) (v : D) :
    c.discountFactor cal same v v = .ok 1 := by
  simp only [CurveObj.discountFactor, CurveObj.ir?, hk]
  exact C28_empty hc same v

/-- C54: on a discount factor curve it counts fully away from the origin object. -/
theorem C54_today_discount {c : CurveObj D P} (hk : c.kind = .ir .discount) {v : D} {y : ℝ}
    (hy : c.toRateCurve.call cal v = .ok y) (h0 : y ≠ 0) : c.discountFactor cal false v v = .ok 1 := by
  simp only [CurveObj.discountFactor, CurveObj.ir?, hk, IRCurve.factor, IRCurve.discountFactorOf, IRCurve.call, hy]
  simp [pyDiv_ok h0, div_self h0]

/-- C54 (what goes wrong): on a discount factor curve a flow at the origin is multiplied by the value stored there,
whatever it is, and raises if there is none. -/
theorem C54_today_violated {c : CurveObj D P} (hk : c.kind = .ir .discount) (o : D) :
    c.discountFactor cal true o o = c.toRateCurve.call cal o := by
  simp [CurveObj.discountFactor, CurveObj.ir?, hk, IRCurve.factor, IRCurve.discountFactorOf, IRCurve.call]

/-! ### Leg lists priced by their own flows -/

mutual
/-- Addresses of the flat lists of a product. -/
def Product.leaves : Product D → List ℕ
  | .list a => [a]
  | .legs ps _ _ => Product.leavesOf ps
def Product.leavesOf : List (Product D) → List ℕ
  | [] => []
  | p :: ps => p.leaves ++ Product.leavesOf ps
end

mutual
theorem pvAt_leaves {c : CurveObj D P} {same : Bool} {v : Option D} : ∀ {p : Product D} {w w' : World D P} {x : ℝ},
    pvAt cal c same v p w = (.ok x, w') →
      ∃ xs, List.Forall₂ (fun a y => pvList cal c same v a w = (.ok y, w)) p.leaves xs ∧ x = xs.sum
  | .list a, w, w', x, h => by
    rw [pvAt] at h
    obtain rfl := (pvList_ok.1 h).1
    exact ⟨[x], by rw [Product.leaves]; exact .cons h .nil, by simp⟩
  | .legs ps d o, w, w', x, h => by
    rw [pvAt] at h
    obtain ⟨l, s, h1, h2⟩ := PyM.bind_eq_ok.1 h
    cases h2
    obtain ⟨xs, h3, h4⟩ := pvLegs_leaves h1
    exact ⟨xs, by rw [Product.leaves]; exact h3, by rw [pySum_eq]; exact h4⟩
theorem pvLegs_leaves {c : CurveObj D P} {same : Bool} {v : Option D} : ∀ {ps : List (Product D)} {w w' : World D P}
    {l : List ℝ}, pvLegs cal c same v ps w = (.ok l, w') →
      ∃ xs, List.Forall₂ (fun a y => pvList cal c same v a w = (.ok y, w)) (Product.leavesOf ps) xs ∧ l.sum = xs.sum
  | [], w, w', l, h => by
    rw [pvLegs] at h
    cases h
    exact ⟨[], by rw [Product.leavesOf]; exact .nil, rfl⟩
  | p :: ps, w, w', l, h => by
    rw [pvLegs] at h
    obtain ⟨x, s, h1, h2⟩ := PyM.bind_eq_ok.1 h
    obtain rfl := pvAt_state h1
    obtain ⟨xs, s', h3, h4⟩ := PyM.bind_eq_ok.1 h2
    cases h4
    obtain ⟨ys, h5, rfl⟩ := pvAt_leaves h1
    obtain ⟨zs, h6, h7⟩ := pvLegs_leaves h3
    refine ⟨ys ++ zs, ?_, by simp [h7]⟩
    rw [Product.leavesOf]
    exact List.rel_append h5 h6
end

/-- C54: for nested leg lists too the present value is the sum of the present values of all flat lists in them. -/
theorem C54_nested {c : CurveObj D P} {same : Bool} {v : D} {p : Product D} {w w' : World D P} {x : ℝ}
    (h : pv cal c same (some v) p w = (.ok x, w')) :
    w' = w ∧ ∃ xs, List.Forall₂ (fun a y => pv cal c same (some v) (.list a) w = (.ok y, w)) p.leaves xs ∧ x = xs.sum := by
  refine ⟨pvAt_state h, ?_⟩
  obtain ⟨xs, h1, h2⟩ := pvAt_leaves h
  refine ⟨xs, ?_, h2⟩
  simp only [pv_eq_pvAt, pvAt]
  exact h1

/-- Sum of discounted flows over a set of dates. -/
theorem sum_over_sub {ds es : List D} (hd' : ds.Nodup) (he : es.Nodup) (hsub : ∀ d ∈ es, d ∈ ds) (f : D → ℝ)
    (h0 : ∀ d ∈ ds, d ∉ es → f d = 0) : (es.map f).sum = (ds.map f).sum := by
  rw [← List.sum_toFinset f he, ← List.sum_toFinset f hd']
  refine Finset.sum_subset (fun d h => by simp at h ⊢; exact hsub d h) fun d h1 h2 => ?_
  simp at h1 h2
  exact h0 d h1 h2

theorem forall₂_mem {α β : Type} {R : α → β → Prop} {l : List α} {m : List β} (h : List.Forall₂ R l m) {a : α}
    (ha : a ∈ l) : ∃ b ∈ m, R a b := by
  induction h with
  | nil => simp at ha
  | cons h1 _ ih =>
    rcases List.mem_cons.1 ha with rfl | ha
    · exact ⟨_, by simp, h1⟩
    · obtain ⟨b, hb, hr⟩ := ih ha
      exact ⟨b, by simp [hb], hr⟩

theorem world_products_eq (w : World D P) (ps : List (Product D)) : w.products ps = ps.map w.product := by
  induction ps with
  | nil => rw [World.products]; rfl
  | cons p ps ih => rw [World.products, ih]; rfl

/-- The discount factor as a number. -/
noncomputable def dfNum (cal : Cal D P) (c : CurveObj D P) (same : Bool) (v t : D) : ℝ :=
  match c.discountFactor cal same v t with
  | .ok y => y
  | .error _ => 0

theorem dfNum_eq {c : CurveObj D P} {same : Bool} {v t : D} {y : ℝ} (h : c.discountFactor cal same v t = .ok y) :
    c.discountFactor cal same v t = .ok (dfNum cal c same v t) := by
  rw [h, dfNum, h]

theorem sum_map_add_mul (T : List D) (f g h : D → ℝ) :
    (T.map fun t => f t * (g t + h t)).sum = (T.map fun t => f t * g t).sum + (T.map fun t => f t * h t).sum := by
  induction T with
  | nil => simp
  | cons t T ih => simp only [List.map_cons, List.sum_cons, ih]; ring

/-- What is shown for a product (`dom`, `get` its dates and flows, `x` its present value). -/
def OwnFlows (cal : Cal D P) (c : CurveObj D P) (same : Bool) (v : D) (inDom : D → Prop) (get : D → Py ℝ) (x : ℝ) : Prop :=
  ∃ fl : D → ℝ, (∀ t, v ≤ t → get t = .ok (fl t)) ∧ (∀ t, ¬ inDom t → fl t = 0) ∧
    (∀ t, inDom t → v ≤ t → c.discountFactor cal same v t = .ok (dfNum cal c same v t)) ∧
    ∀ T : List D, T.Nodup → (∀ t, inDom t → t ∈ T) →
      x = ((T.filter (v ≤ ·)).map fun t => dfNum cal c same v t * fl t).sum

theorem ownFlows_list {c : CurveObj D P} {same : Bool} {v : D} {a : ℕ} {w w' : World D P} {x : ℝ} (hk : (w.list a).Keyed)
    (hn : (w.list a).domain.Nodup) (hv : w.dated (some v) a = w) (h : pvList cal c same (some v) a w = (.ok x, w')) :
    OwnFlows cal c same v (· ∈ (w.list a).domain) ((w.list a).getitem cal) x := by
  obtain ⟨-, -, df, f, H, rfl⟩ := pvList_sum.1 h
  rw [hv] at H
  have hoff : ∀ t, t ∉ (w.list a).domain → (w.list a).getitem cal t = .ok 0 := fun t ht => by
    simp only [CFList.getitem, (hk t).2 ht]
  refine ⟨fun t => if t ∈ (w.list a).domain then f t else 0, fun t ht => ?_, fun t ht => by simp [ht],
    fun t ht hvt => dfNum_eq (H t ht hvt).1, fun T hT hsub => ?_⟩
  · by_cases hm : t ∈ (w.list a).domain
    · simp only [if_pos hm]; exact (H t hm ht).2
    · simp only [if_neg hm]; exact hoff t hm
  · have h1 : (((w.lists a).domain.filter (v ≤ ·)).map fun t => df t * f t) =
        ((w.list a).domain.filter (v ≤ ·)).map fun t =>
          dfNum cal c same v t * if t ∈ (w.list a).domain then f t else 0 := by
      apply List.map_congr_left
      intro t ht
      simp only [List.mem_filter, decide_eq_true_eq] at ht
      rw [if_pos (show t ∈ (w.list a).domain from ht.1), dfNum, (H t ht.1 ht.2).1]
    rw [h1]
    refine sum_over_sub (hT.filter _) (hn.filter _) ?_ _ ?_
    · intro t ht
      simp only [List.mem_filter, decide_eq_true_eq] at ht ⊢
      exact ⟨hsub t ht.1, ht.2⟩
    · intro t ht hnt
      simp only [List.mem_filter, decide_eq_true_eq, not_and] at ht hnt
      rw [if_neg fun h => hnt h ht.2, mul_zero]

mutual
theorem ownFlows_product {c : CurveObj D P} {same : Bool} {v : D} {w : World D P} : ∀ {p : Product D} {w' : World D P}
    {x : ℝ}, (w.product p).Built → (∀ a ∈ p.leaves, (w.list a).domain.Nodup) → (∀ a ∈ p.leaves, w.dated (some v) a = w) →
    pvAt cal c same (some v) p w = (.ok x, w') →
    OwnFlows cal c same v (· ∈ (w.product p).domain) ((w.product p).getitem cal) x
  | .list a, w', x, hb, hn, hv, h => by
    rw [pvAt] at h
    rw [World.product] at hb ⊢
    have hk : (w.list a).Keyed := by
      cases hb with
      | flat h => exact h
      | legs _ hc => obtain ⟨o, h, -⟩ := CF.newLegs_eq hc; cases h
    have := ownFlows_list hk (hn a (by simp [Product.leaves])) (hv a (by simp [Product.leaves])) h
    simpa only [CF.domain, CF.getitem] using this
  | .legs ps d o, w', x, hb, hn, hv, h => by
    rw [pvAt] at h
    obtain ⟨xs, s, h1, h2⟩ := PyM.bind_eq_ok.1 h
    simp only [PyM.pure_run, Prod.mk.injEq, Except.ok.injEq, pySum_eq] at h2
    obtain ⟨rfl, -⟩ := h2
    rw [Product.leaves] at hn hv
    cases hb' : hb with
    | @legs ls _ hB hc =>
      have hdom := (C47_domain hc).2
      have hflow := fun t => C47_flow (cal := cal) hB hc t
      obtain ⟨o', he, -⟩ := CF.newLegs_eq hc
      rw [World.product] at he
      have hls : ls = w.products ps := by cases he; rfl
      subst hls
      obtain ⟨fl, f1, f2, f3, f4⟩ := ownFlows_legs hB hn hv h1
      refine ⟨fl, fun t ht => (hflow t).trans (f1 t ht), fun t ht => f2 t ?_, fun t ht => f3 t ?_, fun T hT hs => f4 T hT ?_⟩
      · rintro ⟨l, hl, hd⟩; exact ht ((hdom t).2 ⟨l, hl, hd⟩)
      · exact (hdom t).1 ht
      · intro t ht; exact hs t ((hdom t).2 ht)
theorem ownFlows_legs {c : CurveObj D P} {same : Bool} {v : D} {w : World D P} : ∀ {ps : List (Product D)}
    {w' : World D P} {xs : List ℝ}, (∀ l ∈ w.products ps, l.Built) → (∀ a ∈ Product.leavesOf ps, (w.list a).domain.Nodup) →
    (∀ a ∈ Product.leavesOf ps, w.dated (some v) a = w) → pvLegs cal c same (some v) ps w = (.ok xs, w') →
    OwnFlows cal c same v (fun t => ∃ l ∈ w.products ps, t ∈ l.domain)
      (fun t => List.sum <$> pyMap (fun l => CF.getitem cal l t) (w.products ps)) xs.sum
  | [], w', xs, hb, hn, hv, h => by
    rw [pvLegs] at h
    simp only [PyM.pure_run, Prod.mk.injEq, Except.ok.injEq] at h
    obtain ⟨rfl, -⟩ := h
    rw [World.products]
    exact ⟨fun _ => 0, fun t _ => by simp [pyMap], fun _ _ => rfl, fun t ht => by simp at ht, fun T _ _ => by simp⟩
  | p :: ps, w', xs, hb, hn, hv, h => by
    rw [pvLegs] at h
    obtain ⟨x, s, h1, h2⟩ := PyM.bind_eq_ok.1 h
    obtain rfl := pvAt_state h1
    obtain ⟨ys, s', h3, h4⟩ := PyM.bind_eq_ok.1 h2
    simp only [PyM.pure_run, Prod.mk.injEq, Except.ok.injEq] at h4
    obtain ⟨rfl, -⟩ := h4
    rw [Product.leavesOf] at hn hv
    rw [World.products] at hb ⊢
    obtain ⟨f, f1, f2, f3, f4⟩ := ownFlows_product (hb _ (by simp)) (fun a ha => hn a (by simp [ha]))
      (fun a ha => hv a (by simp [ha])) h1
    obtain ⟨g, g1, g2, g3, g4⟩ := ownFlows_legs (fun l hl => hb l (by simp [hl])) (fun a ha => hn a (by simp [ha]))
      (fun a ha => hv a (by simp [ha])) h3
    refine ⟨fun t => f t + g t, fun t ht => ?_, fun t ht => ?_, fun t ht hvt => ?_, fun T hT hs => ?_⟩
    · have e := g1 t ht
      beta_reduce at e
      simp only [pyMap_cons, f1 t ht, Py.ok_bind]
      cases hq : pyMap (fun l => CF.getitem cal l t) (s.products ps) with
      | error e' => rw [hq] at e; cases e
      | ok l =>
        rw [hq] at e
        simp only [Py.map_ok, Except.ok.injEq] at e
        simp [e]
    · show f t + g t = 0
      rw [f2 t fun h => ht ⟨_, by simp, h⟩, g2 t fun ⟨l, hl, h⟩ => ht ⟨l, by simp [hl], h⟩, add_zero]
    · obtain ⟨l, hl, h⟩ := ht
      rcases List.mem_cons.1 hl with rfl | hl
      · exact f3 t h hvt
      · exact g3 t ⟨l, hl, h⟩ hvt
    · rw [List.sum_cons, f4 T hT fun t h => hs t ⟨_, by simp, h⟩, g4 T hT fun t ⟨l, hl, h⟩ => hs t ⟨l, by simp [hl], h⟩,
        sum_map_add_mul]
end

/-- C47: the present value of a leg list (legs may be leg lists again) is the discounted sum of its own flows over its
own dates, if no flat list in it has a pay date twice and the models are at the valuation date. -/
theorem C47_present_value {c : CurveObj D P} {same : Bool} {v : D} {ps : List (Product D)} {w w' : World D P} {x : ℝ}
    {cf : CF D P} {d : List D} {o : Option D} (hcf : CF.newLegs (w.products ps) = .ok cf)
    (hp : w.product (.legs ps d o) = cf) (hb : ∀ l ∈ w.products ps, l.Built)
    (hn : ∀ a ∈ Product.leavesOf ps, (w.list a).domain.Nodup) (hv : ∀ a ∈ Product.leavesOf ps, w.dated (some v) a = w)
    (h : pv cal c same (some v) (.legs ps d o) w = (.ok x, w')) :
    ∃ df fl : D → ℝ, (∀ t ∈ cf.domain, v ≤ t → c.discountFactor cal same v t = .ok (df t) ∧ cf.getitem cal t = .ok (fl t)) ∧
      x = ((cf.domain.filter (v ≤ ·)).map fun t => df t * fl t).sum := by
  subst hp
  obtain ⟨fl, f1, f2, f3, f4⟩ := ownFlows_product (.legs hb hcf) (by rw [Product.leaves]; exact hn)
    (by rw [Product.leaves]; exact hv) h
  exact ⟨_, fl, fun t ht hvt => ⟨f3 t ht hvt, f1 t hvt⟩,
    f4 _ ((C47_domain hcf).1.imp fun h => h.ne) fun t ht => ht⟩

/-! ### State -/

/-- C55: pricing that returns leaves every object as it was. -/
theorem C55_restored {c : CurveObj D P} {same : Bool} {v : Option D} {p : Product D} {w w' : World D P} {x : ℝ}
    (h : pv cal c same v p w = (.ok x, w')) : w' = w := by
  cases v with
  | some v => exact pvAt_state h
  | none => exact pvAt_state h

/-- C55: in the world the flows are evaluated in, the model of the list has the given valuation date and nothing else
changed. -/
theorem C55_evaluated {w : World D P} {a m : ℕ} (hm : (w.lists a).hasModel = true) (ha : (w.lists a).arg = .model m) (v : D) :
    (w.dated (some v) a).models m = { w.models m with valuation := some v } ∧
      (∀ m', m' ≠ m → (w.dated (some v) a).models m' = w.models m') ∧
      (w.dated (some v) a).lists = w.lists ∧ (w.dated (some v) a).curves = w.curves := by
  have : w.dated (some v) a = w.setValuation m (some v) := by simp [World.dated, hm, ha]
  rw [this]
  exact ⟨by simp [World.setValuation], fun m' h => by simp [World.setValuation, h], rfl, rfl⟩

/-- C55 (what goes wrong): whenever the flow at some pay date from the valuation date on raises, the valuation date
stays set in the model after the exception. -/
theorem C55_failing_flow_violated {c : CurveObj D P} {same : Bool} {v d : D} {a m : ℕ} {w : World D P} {e : PyErr}
    (hm : (w.lists a).hasModel = true) (ha : (w.lists a).arg = .model m) (hd : d ∈ (w.lists a).domain) (hv : v ≤ d)
    (he : ((w.setValuation m (some v)).list a).getitem cal d = .error e) :
    ∃ e', pv cal c same (some v) (.list a) w = (.error e', w.setValuation m (some v)) := by
  have hw : w.dated (some v) a = w.setValuation m (some v) := by simp [World.dated, hm, ha]
  rw [pv_eq_pvAt, pvAt, pvList_run c same _ fun _ => ⟨m, ha⟩]
  simp only [payDates, hw]
  cases h : ((w.setValuation m (some v)).list a).getitems cal ((w.lists a).domain.filter (v ≤ ·)) with
  | error e' => exact ⟨e', rfl⟩
  | ok fl =>
    exfalso
    obtain ⟨g, hg, -⟩ := pyMap_fun.1 h
    have := hg d (by simp [hd, hv])
    rw [he] at this
    cases this

/-- C55: if all flows can be evaluated the valuation date is restored, even if discounting raises. -/
theorem C55_failing_discount {c : CurveObj D P} {same : Bool} {v : D} {a : ℕ} {w : World D P} (hm : (w.lists a).Priceable)
    (hf : ∀ d ∈ (w.lists a).domain, v ≤ d → ∃ y, ((w.dated (some v) a).list a).getitem cal d = .ok y) :
    (pv cal c same (some v) (.list a) w).2 = w := by
  rw [pv_eq_pvAt, pvAt, pvList_run c same _ hm]
  simp only [payDates]
  cases h : ((w.dated (some v) a).list a).getitems cal ((w.lists a).domain.filter (v ≤ ·)) with
  | ok fl => rfl
  | error e' =>
    exfalso
    choose! g hg using hf
    have := pyMap_ok (f := ((w.dated (some v) a).list a).getitem cal) (g := g)
      (l := (w.lists a).domain.filter (v ≤ ·)) fun d hd => by
        simp only [List.mem_filter, decide_eq_true_eq] at hd
        exact hg d hd.1 hd.2
    rw [CFList.getitems] at h
    rw [h] at this
    cases this

/-- C55 (what goes wrong): a list with an attribute `payoff_model` holding `None` or a plain curve can not be priced,
although its flows can be read. -/
theorem C55_no_model_violated {c : CurveObj D P} {same : Bool} {v : D} {a : ℕ} {w : World D P} {f : Curves D P → Fwd D}
    (hm : (w.lists a).hasModel = true) (ha : (w.lists a).arg = .fwd f) :
    pv cal c same (some v) (.list a) w = (.error .attribute, w) := by
  rw [pv_eq_pvAt, pvAt]
  refine pvList_bad c same _ fun h => ?_
  obtain ⟨m, h⟩ := h hm
  rw [ha] at h
  cases h

theorem pvList_effect {c : CurveObj D P} {same : Bool} {v : Option D} (a : ℕ) (w : World D P) :
    (pvList cal c same v a w).2 = w ∨ (pvList cal c same v a w).2 = w.dated v a := by
  by_cases hm : (w.lists a).Priceable
  · rw [pvList_run c same v hm]
    cases payDates v (w.lists a).domain with
    | error e => exact .inr rfl
    | ok ds =>
      cases h : ((w.dated v a).list a).getitems cal ds with
      | error e => simp [h]
      | ok fl => simp [h]
  · rw [pvList_bad c same v hm]
    exact .inl rfl

mutual
theorem pvAt_effect {c : CurveObj D P} {same : Bool} {v : Option D} : ∀ (p : Product D) (w : World D P),
    (pvAt cal c same v p w).2 = w ∨ ∃ a ∈ p.leaves, (pvAt cal c same v p w).2 = w.dated v a
  | .list a, w => by
    rw [pvAt, Product.leaves]
    rcases pvList_effect (cal := cal) (c := c) (same := same) (v := v) a w with h | h
    · exact .inl h
    · exact .inr ⟨a, by simp, h⟩
  | .legs ps d o, w => by
    rw [pvAt, Product.leaves]
    have := pvLegs_effect (c := c) (same := same) (v := v) ps w
    rcases h : pvLegs cal c same v ps w with ⟨r, w'⟩
    rw [h] at this
    cases r with
    | ok l => rw [PyM.bind_ok h]; exact this
    | error e => rw [PyM.bind_error h]; exact this
theorem pvLegs_effect {c : CurveObj D P} {same : Bool} {v : Option D} : ∀ (ps : List (Product D)) (w : World D P),
    (pvLegs cal c same v ps w).2 = w ∨ ∃ a ∈ Product.leavesOf ps, (pvLegs cal c same v ps w).2 = w.dated v a
  | [], w => by rw [pvLegs]; exact .inl rfl
  | p :: ps, w => by
    rw [pvLegs, Product.leavesOf]
    have h1 := pvAt_effect (c := c) (same := same) (v := v) p w
    rcases h : pvAt cal c same v p w with ⟨r, w'⟩
    rw [h] at h1
    cases r with
    | error e =>
      rw [PyM.bind_error h]
      rcases h1 with h1 | ⟨a, ha, h1⟩
      · exact .inl h1
      · exact .inr ⟨a, by simp [ha], h1⟩
    | ok x =>
      obtain rfl := pvAt_state h
      rw [PyM.bind_ok h]
      have h2 := pvLegs_effect (c := c) (same := same) (v := v) ps w'
      rcases h' : pvLegs cal c same v ps w' with ⟨r, w''⟩
      rw [h'] at h2
      have key : w'' = w' ∨ ∃ a ∈ p.leaves ++ Product.leavesOf ps, w'' = w'.dated v a := by
        rcases h2 with h2 | ⟨a, ha, h2⟩
        · exact .inl h2
        · exact .inr ⟨a, by simp [ha], h2⟩
      cases r with
      | ok l => rw [PyM.bind_ok h']; exact key
      | error e => rw [PyM.bind_error h']; exact key
end

/-- C55: whatever happens, at most the valuation date of the model of one list of the product is different afterwards. -/
theorem C55_scope (c : CurveObj D P) (same : Bool) (v : D) (p : Product D) (w : World D P) :
    (pv cal c same (some v) p w).2 = w ∨ ∃ a ∈ p.leaves, ∃ m, (w.lists a).hasModel = true ∧ (w.lists a).arg = .model m ∧
      (pv cal c same (some v) p w).2 = w.setValuation m (some v) := by
  rw [pv_eq_pvAt]
  rcases pvAt_effect (cal := cal) (c := c) (same := same) (v := some v) p w with h | ⟨a, ha, h⟩
  · exact .inl h
  · rw [h]
    by_cases hm : (w.lists a).hasModel
    · cases harg : (w.lists a).arg with
      | model m => exact .inr ⟨a, ha, m, hm, harg, by simp [World.dated, hm, harg]⟩
      | fwd f => exact .inl (by simp [World.dated, hm, harg])
    · exact .inl (by simp [World.dated, hm])

/-! ### Flows from the valuation date on -/

/-- The flat list at `a` pays the given flows from `v` on. -/
def PaysList (cal : Cal D P) (w : World D P) (v : D) (a : ℕ) (L : List (D × ℝ)) : Prop :=
  (w.lists a).Priceable ∧ ∃ fl : D → ℝ,
    (∀ d ∈ (w.lists a).domain, v ≤ d → ((w.dated (some v) a).list a).getitem cal d = .ok (fl d)) ∧
    L = ((w.lists a).domain.filter (v ≤ ·)).map fun d => (d, fl d)

/-- The product pays the given flows from `v` on. -/
def Pays (cal : Cal D P) (w : World D P) (v : D) (p : Product D) (L : List (D × ℝ)) : Prop :=
  ∃ Ls, List.Forall₂ (PaysList cal w v) p.leaves Ls ∧ L = Ls.flatten

theorem PaysList.pv {w : World D P} {v : D} {a : ℕ} {L : List (D × ℝ)} (h : PaysList cal w v a L) {c : CurveObj D P}
    {same : Bool} {df : D → ℝ} (hdf : ∀ q ∈ L, c.discountFactor cal same v q.1 = .ok (df q.1)) :
    pvList cal c same (some v) a w = (.ok (L.map fun q => df q.1 * q.2).sum, w) := by
  obtain ⟨hm, fl, hfl, rfl⟩ := h
  refine pvList_sum.2 ⟨rfl, hm, df, fl, fun d hd hv => ⟨hdf (d, fl d) ?_, hfl d hd hv⟩, ?_⟩
  · simp [hd, hv]
  · simp [List.map_map, Function.comp_def]

theorem flatten_sum (Ls : List (List (D × ℝ))) (f : D × ℝ → ℝ) :
    (Ls.flatten.map f).sum = (Ls.map fun L => (L.map f).sum).sum := by
  induction Ls with
  | nil => rfl
  | cons L Ls ih => rw [List.flatten_cons, List.map_append, List.sum_append, ih]; rfl

mutual
theorem pays_pvAt {w : World D P} {v : D} {c : CurveObj D P} {same : Bool} {df : D → ℝ} : ∀ {p : Product D}
    {Ls : List (List (D × ℝ))}, List.Forall₂ (PaysList cal w v) p.leaves Ls →
    (∀ L ∈ Ls, ∀ q ∈ L, c.discountFactor cal same v q.1 = .ok (df q.1)) →
    pvAt cal c same (some v) p w = (.ok (Ls.map fun L => (L.map fun q => df q.1 * q.2).sum).sum, w)
  | .list a, Ls, h, hdf => by
    rw [Product.leaves] at h
    cases h with
    | cons h1 h2 =>
      cases h2
      rw [pvAt, h1.pv fun q hq => hdf _ (by simp) q hq]
      simp
  | .legs ps d o, Ls, h, hdf => by
    rw [Product.leaves] at h
    obtain ⟨xs, h1, h2⟩ := pays_pvLegs h hdf
    rw [pvAt, PyM.bind_ok h1, PyM.pure_run, pySum_eq, h2]
theorem pays_pvLegs {w : World D P} {v : D} {c : CurveObj D P} {same : Bool} {df : D → ℝ} : ∀ {ps : List (Product D)}
    {Ls : List (List (D × ℝ))}, List.Forall₂ (PaysList cal w v) (Product.leavesOf ps) Ls →
    (∀ L ∈ Ls, ∀ q ∈ L, c.discountFactor cal same v q.1 = .ok (df q.1)) →
    ∃ xs, pvLegs cal c same (some v) ps w = (.ok xs, w) ∧ xs.sum = (Ls.map fun L => (L.map fun q => df q.1 * q.2).sum).sum
  | [], Ls, h, hdf => by
    rw [Product.leavesOf] at h
    cases h
    exact ⟨[], by rw [pvLegs]; rfl, rfl⟩
  | p :: ps, Ls, h, hdf => by
    rw [Product.leavesOf] at h
    obtain ⟨A, B, hA, hB, rfl⟩ : ∃ A B, List.Forall₂ (PaysList cal w v) p.leaves A ∧
        List.Forall₂ (PaysList cal w v) (Product.leavesOf ps) B ∧ Ls = A ++ B := by
      refine ⟨Ls.take p.leaves.length, Ls.drop p.leaves.length, ?_, ?_, by simp⟩
      · simpa using List.forall₂_take p.leaves.length h
      · simpa using List.forall₂_drop p.leaves.length h
    obtain ⟨xs, h3, h4⟩ := pays_pvLegs hB fun L hL => hdf L (by simp [hL])
    refine ⟨_, by rw [pvLegs, PyM.bind_ok (pays_pvAt hA fun L hL => hdf L (by simp [hL])), PyM.bind_ok h3]; rfl, ?_⟩
    simp [h4]
end

/-- C54: the present value of any product paying the flows `L` from the valuation date on. -/
theorem C54_flows {w : World D P} {v : D} {p : Product D} {L : List (D × ℝ)} (h : Pays cal w v p L) {c : CurveObj D P}
    {same : Bool} {df : D → ℝ} (hdf : ∀ q ∈ L, c.discountFactor cal same v q.1 = .ok (df q.1)) :
    pv cal c same (some v) p w = (.ok (L.map fun q => df q.1 * q.2).sum, w) := by
  obtain ⟨Ls, h1, rfl⟩ := h
  rw [pv_eq_pvAt, pays_pvAt h1 fun L hL q hq => hdf q (List.mem_flatten.2 ⟨L, hL, hq⟩), flatten_sum]

/-- C54: only rate curves discount: a credit or volatility curve given instead raises `AttributeError` as soon as there is
a flow to discount. -/
theorem C54_other_curve {w : World D P} {v : D} {a : ℕ} {q : D × ℝ} {L : List (D × ℝ)} (h : PaysList cal w v a (q :: L))
    {c : CurveObj D P} (hc : ∀ cls, c.kind ≠ .ir cls) (same : Bool) :
    pv cal c same (some v) (.list a) w = (.error .attribute, w) := by
  obtain ⟨hm, fl, hf, hL⟩ := h
  have hi : c.ir? = none := by
    cases hk : c.kind with
    | ir cls => exact absurd hk (hc cls)
    | _ => simp [CurveObj.ir?, hk]
  rw [pv_eq_pvAt, pvAt, pvList_run c same _ hm]
  have hg : ((w.dated (some v) a).list a).getitems cal ((w.lists a).domain.filter (v ≤ ·)) =
      .ok (((w.lists a).domain.filter (v ≤ ·)).map fl) :=
    pyMap_ok fun d hd => hf d (List.mem_of_mem_filter hd) (by simpa using List.of_mem_filter hd)
  simp only [payDates, hg]
  cases hd : (w.lists a).domain.filter (v ≤ ·) with
  | nil => rw [hd] at hL; simp at hL
  | cons d ds => simp [discountSum, pyMap, pyDate, CurveObj.discountFactor, hi]

end

/-! ### Examples -/

/-- A world with two lists of fixed flows and an option list. -/
noncomputable def exWorld : World ℝ FloatPeriod where
  curves := fun _ => (flatZero floatCal none .default none 0 (5 / 100)).obj
  models := fun _ => ⟨some 0, fun _ => .fn fun _ => .ok 0, fun _ => .none, none, false, intrinsicFormula⟩
  lists := fun
    | 0 => ⟨none, [0, 1, 2], .ofPairs [(0, .num 5), (1, .num 7), (2, .num 100)], .fwd fun _ => .none, false, false, false⟩
    | 1 => ⟨none, [1, 3], .ofPairs [(1, .num 1), (3, .num 2)], .fwd fun _ => .none, false, false, false⟩
    | 2 => ⟨none, [1], .ofPairs [(1, .fn fun _ => .error .value)], .model 0, true, false, false⟩
    | _ => ⟨none, [1], .ofPairs [(1, .num 1)], .fwd fun _ => .none, true, false, false⟩

theorem exDf (v t : ℝ) : (exWorld.curves 0).discountFactor floatCal false v t = .ok (Real.exp (-(5 / 100 * (t - v)))) := by
  have := flatZero_factor floatCal (o? := none) (dc := .default) (tenor := none) trivial goodDayCount_real (0 : ℝ) (5 / 100)
    false v t (by simp)
  exact this

/-- Non-vacuity of C54 (and C55, C47): the flow before the valuation date is left out, the one on it counts fully. -/
example : pv floatCal (exWorld.curves 0) false (some 1) (.legs [.list 0, .list 1] [0, 1, 2, 3] (some 0)) exWorld =
    (.ok (7 + Real.exp (-(5 / 100)) * 100 + (1 + Real.exp (-(5 / 100 * 2)) * 2)), exWorld) := by
  have h : Pays floatCal exWorld 1 (.legs [.list 0, .list 1] [0, 1, 2, 3] (some 0))
      ([(1, 7), (2, 100)] ++ [(1, 1), (3, 2)]) := by
    refine ⟨[[(1, 7), (2, 100)], [(1, 1), (3, 2)]], ?_, by simp⟩
    rw [Product.leaves, Product.leavesOf, Product.leavesOf, Product.leavesOf, Product.leaves, Product.leaves]
    refine .cons ⟨fun h => absurd h (by simp [exWorld]), fun d => if d = 1 then 7 else 100, ?_, ?_⟩ (.cons
      ⟨fun h => absurd h (by simp [exWorld]), fun d => if d = 1 then 1 else 2, ?_, ?_⟩ .nil)
    · intro d hd hv
      simp only [exWorld, List.mem_cons, List.not_mem_nil, or_false] at hd
      rcases hd with rfl | rfl | rfl
      · norm_num at hv
      · simp [World.list, World.dated, exWorld, CFList.getitem, Dict.ofPairs, Dict.get, Dict.set, PayOff.eval]
      · simp [World.list, World.dated, exWorld, CFList.getitem, Dict.ofPairs, Dict.get, Dict.set, PayOff.eval]
    · simp [exWorld, List.filter]
    · intro d hd hv
      simp only [exWorld, List.mem_cons, List.not_mem_nil, or_false] at hd
      rcases hd with rfl | rfl
      · simp [World.list, World.dated, exWorld, CFList.getitem, Dict.ofPairs, Dict.get, Dict.set, PayOff.eval]
      · simp [World.list, World.dated, exWorld, CFList.getitem, Dict.ofPairs, Dict.get, Dict.set, PayOff.eval]
    · simp [exWorld, List.filter]
  rw [C54_flows h (df := fun t => Real.exp (-(5 / 100 * (t - 1)))) fun q _ => exDf 1 q.1]
  simp
  norm_num
  ring

/-- Non-vacuity of C54_other_curve: a survival probability curve cannot discount the list paying 5, 7 and 100. -/
example : pv floatCal { (exWorld.curves 0) with kind := .credit .survival } false (some 2) (.list 0) exWorld = (.error .attribute, exWorld) :=
  C54_other_curve (q := (2, 100)) (L := []) ⟨fun h => absurd h (by simp [exWorld]), fun _ => 100, fun d hd hv => by
    simp only [exWorld, List.mem_cons, List.not_mem_nil, or_false] at hd
    rcases hd with rfl | rfl | rfl
    · norm_num at hv
    · norm_num at hv
    · simp [World.list, World.dated, exWorld, CFList.getitem, Dict.ofPairs, Dict.get, Dict.set, PayOff.eval], by
    simp [exWorld, List.filter]⟩ (by simp) false

/-- C55 (refuted): a list whose only flow raises leaves the model at the valuation date of the failed call. -/
theorem C55_violated : ∃ e, pv floatCal (exWorld.curves 0) false (some 1) (.list 2) exWorld =
    (.error e, exWorld.setValuation 0 (some 1)) ∧ exWorld.setValuation 0 (some 1) ≠ exWorld := by
  obtain ⟨e, he⟩ := C55_failing_flow_violated (cal := floatCal) (c := exWorld.curves 0) (same := false) (v := 1) (d := 1)
    (a := 2) (m := 0) (w := exWorld) (e := .value) rfl rfl (by simp [exWorld]) le_rfl
    (by simp [World.list, World.setValuation, exWorld, CFList.getitem, Dict.ofPairs, Dict.get, Dict.set, PayOff.eval])
  refine ⟨e, he, fun h => ?_⟩
  have := congrArg (fun w : World ℝ FloatPeriod => (w.models 0).valuation) h
  simp [World.setValuation, exWorld] at this

/-- C55 (refuted): a list with payoff model `None` and a plain number as flow can be read but not priced. -/
theorem C55_none_violated : (exWorld.list 3).getitem floatCal 1 = .ok 1 ∧
    pv floatCal (exWorld.curves 0) false (some 1) (.list 3) exWorld = (.error .attribute, exWorld) :=
  ⟨by simp [World.list, exWorld, CFList.getitem, Dict.ofPairs, Dict.get, Dict.set, PayOff.eval],
    C55_no_model_violated (f := fun _ => .none) rfl rfl⟩

/-- C54 (refuted): with the discount factor 0.5 given at the origin a flow at the origin counts half. -/
theorem C54_violated : ∃ c : IRCurve ℝ FloatPeriod,
    IRCurve.new floatCal .discount [0, 1] [1 / 2, 1 / 4] none none .default none = .ok c ∧
    c.obj.discountFactor floatCal true 0 0 = .ok (1 / 2) := by
  refine ⟨_, IRCurve_new_eq floatCal (pts := [(0, 1 / 2), (1, 1 / 4)]) (by simp) (by intro _ p hp; simp at hp; rcases hp with rfl | rfl <;> norm_num) rfl trivial
    goodDayCount_real, ?_⟩
  rw [C54_today_violated rfl]
  exact irOf_node floatCal (pts := [(0, 1 / 2), (1, 1 / 4)]) (i := none) (o? := none) (dc := .default) (cls := .discount)
    (tenor := none) rfl trivial goodDayCount_real (by simp) (by intro _ p hp; simp at hp; rcases hp with rfl | rfl <;> norm_num)
    (fun _ => ⟨(1, 1 / 4), by simp, by norm_num⟩) (by simp)

/-- C47 (refuted for lists with a pay date twice): the leg list of `CashFlowList([1, 1], [3, 5])` has flow 5 at date 1 only,
but its present value at date 1 is 10. -/
theorem C47_duplicate_violated : ∃ (l : CFList ℝ FloatPeriod) (cf : CF ℝ FloatPeriod) (w : World ℝ FloatPeriod),
    CFList.new [1, 1] (.list [3, 5]) none = .ok l ∧ CF.newLegs [.flat l] = .ok cf ∧ w.list 0 = l ∧
    w.product (.legs [.list 0] [1] (some 1)) = cf ∧ cf.domain = [1] ∧ cf.getitem floatCal 1 = .ok 5 ∧
    pv floatCal (w.curves 0) false (some 1) (.legs [.list 0] [1] (some 1)) w = (.ok 10, w) := by
  let w : World ℝ FloatPeriod := { exWorld with
    lists := fun _ => ⟨none, [1, 1], .ofPairs [(1, .num 3), (1, .num 5)], .fwd fun _ => .none, false, false, false⟩ }
  have hget : (w.list 0).getitem floatCal 1 = .ok 5 := by
    simp [World.list, w, CFList.getitem, Dict.ofPairs, Dict.get, Dict.set, PayOff.eval]
  have hsort : sortedSet ([1, 1] : List ℝ) = [1] := by
    have h1 := sortedSet_strict ([1, 1] : List ℝ)
    have h2 : ∀ x, x ∈ sortedSet ([1, 1] : List ℝ) ↔ x ∈ ([1] : List ℝ) := fun x => by simp [sortedSet_mem]
    exact (List.perm_ext_iff_of_nodup (h1.imp fun h => h.ne) (by simp)).2 h2 |>.eq_of_pairwise (le := (· < ·))
      (fun a b _ _ h1 h2 => absurd h1 h2.not_gt) h1 (by simp)
  have hp : Pays floatCal w 1 (.legs [.list 0] [1] (some 1)) [(1, 5), (1, 5)] := by
    refine ⟨[[(1, 5), (1, 5)]], ?_, by simp⟩
    rw [Product.leaves, Product.leavesOf, Product.leavesOf, Product.leaves]
    refine .cons ⟨fun h => absurd h (by simp [w]), fun _ => 5, ?_, by simp [w, List.filter]⟩ .nil
    intro d hd _
    have : d = 1 := by simpa [w] using hd
    subst this
    simpa [World.dated, w] using hget
  refine ⟨w.list 0, .legs [.flat (w.list 0)] [1] (some 1), w, ?_, ?_, rfl, ?_, rfl, ?_, ?_⟩
  · simp [CFList.new, CFList.ofPayoffs, NumArg.expand, World.list, w, World.arg]
  · simp only [CF.newLegs, List.map_cons, List.map_nil, minOrigin, Py.ok_bind]
    simp [CF.origin, CFList.origin, CF.domain, World.list, w, hsort]
  · rw [World.product, World.products, World.products, World.product]
  · have hm : (1 : ℝ) ∈ (w.list 0).domain := by simp [World.list, w]
    simp [CF.getitem, CF.legItems, CF.domain, hget, hm]
  · rw [C54_flows hp (df := fun t => Real.exp (-(5 / 100 * (t - 1)))) fun q _ => exDf 1 q.1]
    simp
    norm_num

end Dcf
