import Verif.Props.Delta

/-! # Portfolios: risk numbers add up (C156) and scale with the notionals (C157) -/

set_option linter.unusedSectionVars false
set_option linter.unusedVariables false
set_option linter.unusedSimpArgs false

namespace Dcf

open Spec

section
variable {D P : Type} [LinearOrder D] {cal : Cal D P}

/-! ## C156: legs -/

/-- The valuation date of `get_present_value` does not depend on the product. -/
theorem pvOn_at (disc : ℕ) (same : Bool) (v : Option D) (w : World D P) :
    ∃ s' v', ∀ p : Product D, pvOn cal disc same v p w = pvAt cal (w.curves disc) s' v' p w := by
  cases v with
  | none => exact ⟨true, (w.curves disc).base.origin, fun p => rfl⟩
  | some v => exact ⟨same, some v, fun p => rfl⟩

/-- C156: the present value of a leg list is the sum of those of its legs, with and without valuation date. -/
theorem C156_present_value {disc : ℕ} {same : Bool} {v : Option D} {ps : List (Product D)} {d : List D} {o : Option D}
    {w w' : World D P} {x : ℝ} :
    pvOn cal disc same v (.legs ps d o) w = (.ok x, w') ↔
      w' = w ∧ ∃ xs, List.Forall₂ (fun p y => pvOn cal disc same v p w = (.ok y, w)) ps xs ∧ x = xs.sum := by
  obtain ⟨s', v', h⟩ := pvOn_at (cal := cal) disc same v w
  simp only [h]
  rw [pvAt]
  constructor
  · intro h
    obtain ⟨l, s, h1, h2⟩ := PyM.bind_eq_ok.1 h
    cases h2
    obtain ⟨rfl, h3⟩ := pvLegs_ok.1 h1
    exact ⟨rfl, l, h3, by simp⟩
  · rintro ⟨rfl, xs, h, rfl⟩
    rw [PyM.bind_ok (pvLegs_ok.2 ⟨rfl, h⟩)]
    simp

variable {disc : ℕ} {same : Bool} {v : Option D} {shift : ℝ} {w : World D P}

theorem forall₂_map_of {α β : Type} {R : α → β → Prop} {f : α → β} {l : List α} (h : ∀ a ∈ l, R a (f a)) :
    List.Forall₂ R l (l.map f) := by
  induction l with
  | nil => exact .nil
  | cons a l ih => exact .cons (h a (by simp)) (ih fun b hb => h b (by simp [hb]))

theorem forall₂_left {α β : Type} {R : α → β → Prop} {l : List α} {m : List β} (h : List.Forall₂ R l m) {a : α}
    (ha : a ∈ l) : ∃ b, R a b := by
  induction h with
  | nil => simp at ha
  | cons h1 _ ih =>
    rcases List.mem_cons.1 ha with rfl | ha
    · exact ⟨_, h1⟩
    · exact ih ha

theorem pvOn_legs {ps : List (Product D)} {x : Product D → ℝ} (d : List D) (o : Option D)
    (h : ∀ p ∈ ps, pvOn cal disc same v p w = (.ok (x p), w)) :
    pvOn cal disc same v (.legs ps d o) w = (.ok (ps.map x).sum, w) :=
  C156_present_value.2 ⟨rfl, ps.map x, forall₂_map_of h, rfl⟩

theorem sum_scaled {α : Type} (ps : List α) (x y : α → ℝ) (s : ℝ) :
    (ps.map fun p => (y p - x p) / s * (1 / 10000)).sum = ((ps.map y).sum - (ps.map x).sum) / s * (1 / 10000) := by
  induction ps with
  | nil => simp
  | cons p ps ih => simp only [List.map_cons, List.sum_cons, ih]; ring

/-- C156: the basis point value of a leg list is the sum of the basis point values of its legs. -/
theorem C156_bpv {ps : List (Product D)} (hne : ps ≠ []) {delta : Option (List ℕ)} {z : Product D → ℝ}
    (h : ∀ p ∈ ps, basisPointValue cal disc same p v delta shift w = (.ok (z p), w)) (d : List D) (o : Option D) :
    basisPointValue cal disc same (.legs ps d o) v delta shift w = (.ok (ps.map z).sum, w) := by
  have h' := fun p hp => (C61_value.1 (h p hp)).2
  obtain ⟨p0, hp0⟩ := List.exists_mem_of_ne_nil _ hne
  obtain ⟨h0, hb, -⟩ := h' p0 hp0
  have hx : ∀ p, ∃ x y, p ∈ ps → pvOn cal disc same v p w = (.ok x, w) ∧
      pvOn cal disc same v p (w.bumped (delta.getD [disc]) shift) = (.ok y, w.bumped (delta.getD [disc]) shift) ∧
      z p = (y - x) / shift * (1 / 10000) := fun p => by
    by_cases hp : p ∈ ps
    · obtain ⟨-, -, x, y, h⟩ := h' p hp
      exact ⟨x, y, fun _ => h⟩
    · exact ⟨0, 0, fun h => absurd h hp⟩
  choose x y hxy using hx
  refine C61_value.2 ⟨rfl, h0, hb, _, _, pvOn_legs d o fun p hp => (hxy p hp).1, pvOn_legs d o fun p hp => (hxy p hp).2.1, ?_⟩
  rw [← sum_scaled, List.map_congr_left fun p hp => (hxy p hp).2.2]

/-- C156: if a leg list has a basis point value so has each of its legs. -/
theorem C156_bpv_legs {ps : List (Product D)} {delta : Option (List ℕ)} {d : List D} {o : Option D} {z : ℝ} {w' : World D P}
    (h : basisPointValue cal disc same (.legs ps d o) v delta shift w = (.ok z, w')) {p : Product D} (hp : p ∈ ps) :
    ∃ y, basisPointValue cal disc same p v delta shift w = (.ok y, w) := by
  obtain ⟨-, h0, hb, x, y, hx, hy, -⟩ := C61_value.1 h
  obtain ⟨-, xs, h1, -⟩ := C156_present_value.1 hx
  obtain ⟨-, ys, h2, -⟩ := C156_present_value.1 hy
  obtain ⟨a, ha⟩ := forall₂_left h1 hp
  obtain ⟨b, hb'⟩ := forall₂_left h2 hp
  exact ⟨_, C61_value.2 ⟨rfl, h0, hb, a, b, ha, hb', rfl⟩⟩

/-! ### Buckets -/

/-- Shifting for a bucket, if it works, can be undone. -/
theorem bucket_shift {l : List ℕ} {g : List D × List ℝ} {w1 : World D P}
    (h : PyM.forM (fun a => shiftCurve cal a g.1 g.2) l w = (.ok (), w1)) : w1.spreadOn l none = w := by
  cases hS : DateCurve.new cal g.1 g.2 none none .default linearScheme with
  | ok S =>
    have hact : ∀ a (w : World D P), shiftCurve cal a g.1 g.2 w =
        if (fun _ => True) (w.curves a).base then setSpread a (some (S.asSpread cal)) w else (.error .type, w) := by
      intro a w
      rw [shiftCurve, hS, PyM.lift_ok_bind]; simp
    obtain ⟨hb, rfl⟩ := shift_ok (C := fun _ => True) hact h
    rw [spreadOn_twice, spreadOn_self _ hb.free]
  | error e =>
    cases l with
    | nil => cases h; rw [spreadOn_nil]
    | cons a l =>
      rw [PyM.forM] at h
      obtain ⟨u, s, h1, -⟩ := PyM.bind_eq_ok.1 h
      rw [shiftCurve, hS, PyM.lift_error_bind] at h1
      cases h1

theorem bucket_ok {p : Product D} {l : List ℕ} {base z : ℝ} {g : List D × List ℝ} {w' : World D P} :
    bucket cal disc same p v l shift base g w = (.ok z, w') ↔ w' = w ∧ shift ≠ 0 ∧
      ∃ w1, PyM.forM (fun a => shiftCurve cal a g.1 g.2) l w = (.ok (), w1) ∧
      ∃ y, pvOn cal disc same v p w1 = (.ok y, w1) ∧ z = (y - base) / shift * (1 / 10000) := by
  rw [bucket]
  constructor
  · intro h
    obtain ⟨u, w1, h1, k⟩ := PyM.bind_eq_ok.1 h
    clear h
    obtain ⟨y, s, h2, k'⟩ := PyM.bind_eq_ok.1 k
    clear k
    obtain rfl := pvOn_state h2
    rw [PyM.bind_ok (clear_run _ _), bucket_shift h1] at k'
    by_cases h0 : shift = 0
    · subst h0
      rw [PyM.bind_run, PyM.lift_run] at k'
      simp [pyDiv] at k'
    · rw [pyDiv_ok h0, PyM.lift_ok_bind] at k'
      cases k'
      exact ⟨rfl, h0, _, h1, y, h2, rfl⟩
  · rintro ⟨rfl, h0, w1, h1, y, h2, rfl⟩
    rw [PyM.bind_ok h1, PyM.bind_ok h2, PyM.bind_ok (clear_run _ _), bucket_shift h1, pyDiv_ok h0]
    rfl

theorem mapM_ok {σ α β : Type} {F : α → PyM σ β} {s s' : σ} (hF : ∀ a z s', F a s = (.ok z, s') → s' = s) :
    ∀ {l : List α} {ys : List β}, PyM.mapM F l s = (.ok ys, s') ↔ s' = s ∧ List.Forall₂ (fun a y => F a s = (.ok y, s)) l ys
  | [], ys => by
    rw [PyM.mapM]
    simp only [PyM.pure_run, Prod.mk.injEq, Except.ok.injEq, List.forall₂_nil_left_iff]
    exact ⟨fun h => ⟨h.2.symm, h.1.symm⟩, fun h => ⟨h.2.symm, h.1.symm⟩⟩
  | a :: l, ys => by
    rw [PyM.mapM]
    constructor
    · intro h
      obtain ⟨x, s1, h1, h2⟩ := PyM.bind_eq_ok.1 h
      obtain rfl := hF _ _ _ h1
      obtain ⟨xs, s2, h3, h4⟩ := PyM.bind_eq_ok.1 h2
      cases h4
      obtain ⟨rfl, h5⟩ := (mapM_ok hF).1 h3
      exact ⟨rfl, .cons h1 h5⟩
    · rintro ⟨rfl, h⟩
      cases h with
      | cons h1 h2 =>
        rw [PyM.bind_ok h1, PyM.bind_ok ((mapM_ok hF).2 ⟨rfl, h2⟩)]
        rfl

theorem bucketedDelta_ok {p : Product D} {delta : Option (List ℕ)} {grid : Option (List D)} {zs : List ℝ} {w' : World D P} :
    bucketedDelta cal disc same p v delta grid shift w = (.ok zs, w') ↔ w' = w ∧
      ∃ base gs, pvOn cal disc same v p w = (.ok base, w) ∧ bucketShifts shift (deltaGrid (w.curves disc) grid) = .ok gs ∧
      List.Forall₂ (fun g z => bucket cal disc same p v (delta.getD [disc]) shift base g w = (.ok z, w)) gs zs := by
  rw [bucketedDelta]
  constructor
  · intro h
    obtain ⟨base, s, h1, k⟩ := PyM.bind_eq_ok.1 h
    clear h
    obtain rfl := pvOn_state h1
    rw [PyM.get_bind] at k
    obtain ⟨gs, s', h2, k'⟩ := PyM.bind_eq_ok.1 k
    cases hg : bucketShifts shift (deltaGrid (s.curves disc) grid) with
    | error e => rw [hg] at h2; cases h2
    | ok gs' =>
      rw [hg] at h2
      cases h2
      obtain ⟨rfl, h3⟩ := (mapM_ok fun g z s' h => (bucket_ok.1 h).1).1 k'
      exact ⟨rfl, base, _, h1, rfl, h3⟩
  · rintro ⟨rfl, base, gs, h1, h2, h3⟩
    rw [PyM.bind_ok h1, PyM.get_bind, h2, PyM.lift_ok_bind]
    exact (mapM_ok fun g z s' h => (bucket_ok.1 h).1).2 ⟨rfl, h3⟩

theorem bucket_legs {ps : List (Product D)} (hne : ps ≠ []) {l : List ℕ} {base z : Product D → ℝ} {g : List D × List ℝ}
    (h : ∀ p ∈ ps, bucket cal disc same p v l shift (base p) g w = (.ok (z p), w)) (d : List D) (o : Option D) :
    bucket cal disc same (.legs ps d o) v l shift (ps.map base).sum g w = (.ok (ps.map z).sum, w) := by
  have h' := fun p hp => (bucket_ok.1 (h p hp)).2
  obtain ⟨p0, hp0⟩ := List.exists_mem_of_ne_nil _ hne
  obtain ⟨h0, w1, hw, -⟩ := h' p0 hp0
  have hx : ∀ p, ∃ y, p ∈ ps → pvOn cal disc same v p w1 = (.ok y, w1) ∧
      z p = (y - base p) / shift * (1 / 10000) := fun p => by
    by_cases hp : p ∈ ps
    · obtain ⟨-, w2, hw', y, h⟩ := h' p hp
      rw [hw] at hw'
      cases hw'
      exact ⟨y, fun _ => h⟩
    · exact ⟨0, fun h => absurd h hp⟩
  choose y hy using hx
  refine bucket_ok.2 ⟨rfl, h0, w1, hw, _, pvOn_legs d o fun p hp => (hy p hp).1, ?_⟩
  rw [← sum_scaled, List.map_congr_left fun p hp => (hy p hp).2]

theorem getD_tail (l : List ℝ) (i : ℕ) : l.tail.getD i 0 = l.getD (i + 1) 0 := by
  cases l <;> simp

theorem buckets_legs {ps : List (Product D)} (hne : ps ≠ []) {l : List ℕ} {base : Product D → ℝ} (d : List D) (o : Option D) :
    ∀ {gs : List (List D × List ℝ)} {ds : Product D → List ℝ},
      (∀ p ∈ ps, List.Forall₂ (fun g z => bucket cal disc same p v l shift (base p) g w = (.ok z, w)) gs (ds p)) →
      ∃ zs, List.Forall₂ (fun g z => bucket cal disc same (.legs ps d o) v l shift (ps.map base).sum g w = (.ok z, w)) gs zs ∧
        ∀ i, zs.getD i 0 = (ps.map fun p => (ds p).getD i 0).sum
  | [], ds, h => by
    refine ⟨[], .nil, fun i => ?_⟩
    rw [List.map_congr_left (g := fun _ => (0 : ℝ)) fun p hp => by
      rw [List.forall₂_nil_left_iff.1 (h p hp)]; simp]
    simp
  | g :: gs, ds, h => by
    have h1 : ∀ p ∈ ps, bucket cal disc same p v l shift (base p) g w = (.ok ((ds p).getD 0 0), w) ∧
        List.Forall₂ (fun g z => bucket cal disc same p v l shift (base p) g w = (.ok z, w)) gs (ds p).tail := by
      intro p hp
      have := h p hp
      generalize ds p = zs at this
      cases this with
      | cons h1 h2 => exact ⟨h1, h2⟩
    obtain ⟨zs, h2, h3⟩ := buckets_legs hne d o (ds := fun p => (ds p).tail) fun p hp => (h1 p hp).2
    refine ⟨_ :: zs, .cons (bucket_legs hne (fun p hp => (h1 p hp).1) d o) h2, fun i => ?_⟩
    cases i with
    | zero => rfl
    | succ i => simp only [List.getD_cons_succ, h3, getD_tail]

/-- C156: the bucketed deltas of a leg list are, bucket by bucket, the sums of those of its legs. -/
theorem C156_deltas {ps : List (Product D)} (hne : ps ≠ []) {delta : Option (List ℕ)} {grid : Option (List D)}
    {ds : Product D → List ℝ} (h : ∀ p ∈ ps, bucketedDelta cal disc same p v delta grid shift w = (.ok (ds p), w))
    (d : List D) (o : Option D) :
    ∃ zs, bucketedDelta cal disc same (.legs ps d o) v delta grid shift w = (.ok zs, w) ∧
      (∀ p ∈ ps, (ds p).length = zs.length) ∧ ∀ i, zs.getD i 0 = (ps.map fun p => (ds p).getD i 0).sum := by
  have h' := fun p hp => (bucketedDelta_ok.1 (h p hp)).2
  obtain ⟨p0, hp0⟩ := List.exists_mem_of_ne_nil _ hne
  obtain ⟨-, gs, -, hg, -⟩ := h' p0 hp0
  have hx : ∀ p, ∃ b, p ∈ ps → pvOn cal disc same v p w = (.ok b, w) ∧
      List.Forall₂ (fun g z => bucket cal disc same p v (delta.getD [disc]) shift b g w = (.ok z, w)) gs (ds p) := fun p => by
    by_cases hp : p ∈ ps
    · obtain ⟨b, gs', h1, h2, h3⟩ := h' p hp
      rw [hg] at h2
      cases h2
      exact ⟨b, fun _ => ⟨h1, h3⟩⟩
    · exact ⟨0, fun h => absurd h hp⟩
  choose b hb using hx
  obtain ⟨zs, h1, h2⟩ := buckets_legs hne d o fun p hp => (hb p hp).2
  exact ⟨zs, bucketedDelta_ok.2 ⟨rfl, _, gs, pvOn_legs d o fun p hp => (hb p hp).1, hg, h1⟩,
    fun p hp => ((hb p hp).2.length_eq.symm.trans h1.length_eq), h2⟩

/-- C156: if a leg list has bucketed deltas so has each of its legs. -/
theorem C156_deltas_legs {ps : List (Product D)} {delta : Option (List ℕ)} {grid : Option (List D)} {d : List D}
    {o : Option D} {zs : List ℝ} {w' : World D P}
    (h : bucketedDelta cal disc same (.legs ps d o) v delta grid shift w = (.ok zs, w')) {p : Product D} (hp : p ∈ ps) :
    ∃ ys, bucketedDelta cal disc same p v delta grid shift w = (.ok ys, w) := by
  obtain ⟨-, base, gs, h1, hg, h3⟩ := bucketedDelta_ok.1 h
  obtain ⟨-, xs, h4, -⟩ := C156_present_value.1 h1
  obtain ⟨b, hb⟩ := forall₂_left h4 hp
  suffices ∃ ys, List.Forall₂ (fun g z => bucket cal disc same p v (delta.getD [disc]) shift b g w = (.ok z, w)) gs ys by
    obtain ⟨ys, h⟩ := this
    exact ⟨ys, bucketedDelta_ok.2 ⟨rfl, b, gs, hb, hg, h⟩⟩
  clear hg h
  induction h3 with
  | nil => exact ⟨[], .nil⟩
  | cons h _ ih =>
    obtain ⟨ys, hys⟩ := ih
    obtain ⟨-, h0, w1, hw, y, hy, -⟩ := bucket_ok.1 h
    obtain ⟨-, vs, h5, -⟩ := C156_present_value.1 hy
    obtain ⟨y', hy'⟩ := forall₂_left h5 hp
    exact ⟨_ :: ys, .cons (bucket_ok.2 ⟨rfl, h0, w1, hw, y', hy', rfl⟩) hys⟩

end

/-! ## C157: notionals -/

namespace Spec

/-- All amounts times `κ`. -/
def scaleArg (κ : ℝ) : NumArg → NumArg
  | .scalar x => .scalar (κ * x)
  | .list l => .list (l.map (κ * ·))

section
variable {D P : Type}

/-- The payoff with its amount (or amounts) times `κ`. -/
noncomputable def scalePay (κ : ℝ) : PayOff D P → PayOff D P
  | .num x => .num (κ * x)
  | .fixed x => .fixed (κ * x)
  | .rate p => .rate { p with amount := κ * p.amount }
  | .contingentRate p => .contingentRate { p with amount := κ * p.amount }
  | .option o => .option { o with amount := κ * o.amount }
  | .strategy os => .strategy (os.map fun o => { o with amount := κ * o.amount })
  | .fn f => .fn fun a => (κ * ·) <$> f a

/-- The list with all amounts times `κ`. -/
noncomputable def scaleList (κ : ℝ) (l : CFList D P) : CFList D P :=
  { l with flows := l.flows.map fun q => (q.1, scalePay κ q.2) }

/-- The objects of the program with the amounts of all cashflow lists times `κ`. -/
noncomputable def scaleWorld (κ : ℝ) (w : World D P) : World D P :=
  { w with lists := fun a => { w.lists a with flows := (w.lists a).flows.map fun q => (q.1, scalePay κ q.2) } }

end
end Spec

section
variable {D P : Type} [LinearOrder D] {cal : Cal D P} (κ : ℝ)

theorem map_bind_py {α β γ : Type} (f : β → γ) (x : Py α) (g : α → Py β) :
    f <$> (x >>= g) = x >>= fun a => f <$> g a := by cases x <;> rfl

theorem bind_map_py {α β γ : Type} (f : α → β) (x : Py α) (g : β → Py γ) :
    (f <$> x) >>= g = x >>= fun a => g (f a) := by cases x <;> rfl

theorem pyMap_fmap {α β γ : Type} (f : α → Py β) (g : β → γ) (l : List α) :
    pyMap (fun a => g <$> f a) l = List.map g <$> pyMap f l := by
  induction l with
  | nil => rfl
  | cons a l ih =>
    rw [pyMap_cons, pyMap_cons, ih]
    cases f a with
    | error e => rfl
    | ok b => cases pyMap f l <;> rfl

theorem sum_mul_left' (l : List ℝ) : (l.map (κ * ·)).sum = κ * l.sum := by
  induction l with
  | nil => simp
  | cons a l ih => simp [ih, mul_add]

theorem rate_scaled (p : RatePay D P) (arg : ModelArg D) : ({ p with amount := κ * p.amount } : RatePay D P).details cal arg =
    (fun d : RateDetails D => { d with cashflow := κ * d.cashflow, notional := κ * d.notional }) <$> p.details cal arg := by
  simp only [RatePay.details]
  rw [show ({ p with amount := κ * p.amount } : RatePay D P).forwardAt cal arg = p.forwardAt cal arg from rfl]
  cases p.forwardAt cal arg with
  | error e => rfl
  | ok f =>
    obtain ⟨s, e, a, dc, fo, fr⟩ := p
    cases fr with
    | none => rfl
    | some r =>
      simp only [Py.ok_bind, Py.map_ok, RatePay.tau]
      congr 2
      ring

theorem opt_scaled (o : OptPay D) (arg : ModelArg D) :
    ({ o with amount := κ * o.amount } : OptPay D).cashflow cal arg = (κ * ·) <$> o.cashflow cal arg := by
  cases arg with
  | fwd f => simp only [OptPay.cashflow]; split_ifs <;> simp
  | model m =>
    simp only [OptPay.cashflow]
    split_ifs <;> simp only [map_bind_py, Py.map_ok, mul_assoc]

theorem optlet_scaled (m : OptModel D) (value : D → Option ℝ → Py ℝ) (fixing : D) (s : ℝ) (k : Option ℝ) :
    optlet cal m value fixing (κ * s) k = (κ * ·) <$> optlet cal m value fixing s k := by
  cases k with
  | none => simp [optlet]
  | some k =>
    simp only [optlet, map_bind_py, Py.map_ok]
    congr 1; funext _; congr 1; funext y; congr 1; ring

/-- C157: a payoff with its amount times `κ` pays `κ` times as much, for any curve or model, and raises the same
exceptions. -/
theorem C157_payoff (p : PayOff D P) (arg : ModelArg D) : (scalePay κ p).eval cal arg = (κ * ·) <$> p.eval cal arg := by
  cases p with
  | num x => rfl
  | fixed x => rfl
  | rate p =>
    simp only [scalePay, PayOff.eval, rate_scaled, bind_map_py, map_bind_py, Py.map_ok]
  | contingentRate p =>
    simp only [scalePay, PayOff.eval, ContingentRatePay.cashflow, rate_scaled, bind_map_py, map_bind_py]
    cases p.toRatePay.details cal (.fwd arg.curve) with
    | error e => rfl
    | ok d =>
      simp only [Py.ok_bind]
      cases arg with
      | fwd f => rfl
      | model m =>
        simp only [map_bind_py, Py.map_ok]
        cases pyKey d.fixing with
        | error e => rfl
        | ok t =>
          simp only [Py.ok_bind]
          rw [show d.yearFraction * (κ * d.notional) = κ * (d.yearFraction * d.notional) by ring]
          generalize d.yearFraction * d.notional = s
          rw [optlet_scaled κ m (m.putValue cal) t s, optlet_scaled κ m (m.callValue cal) t s, bind_map_py]
          cases optlet cal m (m.putValue cal) t s p.floor with
          | error e => rfl
          | ok a =>
            simp only [Py.ok_bind, bind_map_py]
            cases optlet cal m (m.callValue cal) t s p.cap with
            | error e => rfl
            | ok b => simp only [Py.ok_bind]; congr 1; ring
  | option o => exact opt_scaled κ o arg
  | strategy os =>
    simp only [scalePay, PayOff.eval, strategyCashflow]
    rw [pyMap_map]
    simp only [opt_scaled]
    rw [pyMap_fmap, bind_map_py, map_bind_py]
    congr 1
    funext cfs
    cases arg with
    | fwd f => simp [sum_mul_left']
    | model m =>
      cases os with
      | nil => simp [sum_mul_left']
      | cons o os =>
        simp only [List.map_cons, map_bind_py, Py.map_ok, pySum_eq, sum_mul_left']
  | fn f => rfl

theorem expand_scaled (a : NumArg) (n : ℕ) : (scaleArg κ a).expand n = (a.expand n).map (κ * ·) := by
  cases a <;> simp [scaleArg, NumArg.expand]

theorem Dict.set_map {α β γ : Type} [DecidableEq α] (d : Dict α β) (k : α) (b : β) (f : β → γ) :
    Dict.set (d.map fun q => (q.1, f q.2)) k (f b) = (Dict.set d k b).map fun q => (q.1, f q.2) := by
  induction d with
  | nil => rfl
  | cons q d ih =>
    obtain ⟨a, c⟩ := q
    simp only [List.map_cons, Dict.set]
    by_cases h : a = k
    · simp [h]
    · simp only [h, if_false, List.map_cons, ih]

theorem Dict.foldl_map {α β γ : Type} [DecidableEq α] (f : β → γ) (l : List (α × β)) (d : Dict α β) :
    (l.map fun q => (q.1, f q.2)).foldl (fun d p => Dict.set d p.1 p.2) (d.map fun q => (q.1, f q.2)) =
      (l.foldl (fun d p => Dict.set d p.1 p.2) d).map fun q => (q.1, f q.2) := by
  induction l generalizing d with
  | nil => rfl
  | cons q l ih => simp only [List.map_cons, List.foldl_cons, Dict.set_map, ih]

theorem Dict.ofPairs_map {α β γ : Type} [DecidableEq α] (f : β → γ) (l : List (α × β)) :
    Dict.ofPairs (l.map fun q => (q.1, f q.2)) = (Dict.ofPairs l).map fun q => (q.1, f q.2) :=
  Dict.foldl_map f l []

theorem ofPayoffs_scaled (dates : List D) (l : List (PayOff D P)) (origin : Option D) (arg : ModelArg D) (b : Bool) :
    CFList.ofPayoffs dates (l.map (scalePay κ)) origin arg b = scaleList κ <$> CFList.ofPayoffs dates l origin arg b := by
  simp only [CFList.ofPayoffs, List.length_map]
  split_ifs with h
  · simp only [Py.map_ok, scaleList]
    congr 2
    rw [← Dict.ofPairs_map, List.zip_map_right]
    rfl
  · rfl

/-- C157: plain and fixed lists of amounts times `κ` are the lists of the amounts, scaled. -/
theorem C157_fixed (dates : List D) (amounts : NumArg) (origin : Option D) :
    CFList.new (P := P) dates (scaleArg κ amounts) origin = scaleList κ <$> CFList.new dates amounts origin ∧
    CFList.newFixed (P := P) dates (scaleArg κ amounts) origin = scaleList κ <$> CFList.newFixed dates amounts origin := by
  constructor <;>
  · simp only [CFList.new, CFList.newFixed, ← ofPayoffs_scaled, expand_scaled, List.map_map]
    rfl

theorem ratePays_scaled (starts dates : List D) (amounts : List ℝ) (payOffset : Option P) (mk : D → D → ℝ → PayOff D P)
    (h : ∀ s e a, mk s e (κ * a) = scalePay κ (mk s e a)) :
    ratePays cal starts dates (amounts.map (κ * ·)) payOffset mk =
      List.map (scalePay κ) <$> ratePays cal starts dates amounts payOffset mk := by
  simp only [ratePays, List.zip_map_right, pyMap_map, ← pyMap_fmap, map_bind_py, Py.map_ok, Prod.map, id, h]

/-- C157: the same for rate lists, collared or not. -/
theorem C157_rate (back : D → D → Py D) (dates : List D) (amounts : NumArg) (origin : Option D)
    (dayCount : Option (D → D → ℝ)) (fixingOffset payOffset : Option P) (fixedRate : ℝ) :
    (∀ forward : Fwd D, CFList.newRate cal back dates (scaleArg κ amounts) origin dayCount fixingOffset payOffset fixedRate forward =
      scaleList κ <$> CFList.newRate cal back dates amounts origin dayCount fixingOffset payOffset fixedRate forward) ∧
    ∀ (cap floor : Option ℝ) (arg : ModelArg D),
      CFList.newContingentRate cal back dates (scaleArg κ amounts) origin dayCount fixingOffset payOffset fixedRate cap floor arg =
      scaleList κ <$> CFList.newContingentRate cal back dates amounts origin dayCount fixingOffset payOffset fixedRate cap floor arg := by
  constructor
  · intro forward
    simp only [CFList.newRate, map_bind_py, expand_scaled]
    congr 1
    funext starts
    rw [ratePays_scaled κ _ _ _ _ _ fun s e a => rfl, bind_map_py]
    congr 1
    funext l
    exact ofPayoffs_scaled κ _ _ _ _ _
  · intro cap floor arg
    simp only [CFList.newContingentRate, map_bind_py, expand_scaled]
    congr 1
    funext starts
    rw [ratePays_scaled κ _ _ _ _ _ fun s e a => rfl, bind_map_py]
    congr 1
    funext l
    exact ofPayoffs_scaled κ _ _ _ _ _

theorem strategyOptions_scaled (expiry : D) (ca : NumArg) (cs : List ℝ) (pa : NumArg) (ps : List ℝ) :
    strategyOptions expiry (scaleArg κ ca) cs (scaleArg κ pa) ps =
      (strategyOptions expiry ca cs pa ps).map fun o => { o with amount := κ * o.amount } := by
  simp only [strategyOptions, expand_scaled]
  rw [List.map_insertionSort (f := fun o : OptPay D => { o with amount := κ * o.amount }) (r := fun a b : OptPay D => a.strike.getD 0 ≤ b.strike.getD 0)
    (s := fun a b : OptPay D => a.strike.getD 0 ≤ b.strike.getD 0) _ fun a _ b _ => Iff.rfl]
  simp only [List.zip_map_left, List.map_map, List.map_append]
  rfl

/-- C157: the same for options and strategies; strikes are not scaled. -/
theorem C157_options (dates : List D) (amounts putAmounts strikes : NumArg) (callStrikes putStrikes : List ℝ) (isPut : BoolArg)
    (fixingOffset payOffset : Option P) (origin : Option D) (arg : ModelArg D) :
    CFList.newOption cal dates (scaleArg κ amounts) strikes isPut fixingOffset payOffset origin arg =
      scaleList κ <$> CFList.newOption cal dates amounts strikes isPut fixingOffset payOffset origin arg ∧
    CFList.newStrategy cal dates (scaleArg κ amounts) callStrikes (scaleArg κ putAmounts) putStrikes fixingOffset payOffset
      origin arg = scaleList κ <$> CFList.newStrategy cal dates amounts callStrikes putAmounts putStrikes fixingOffset payOffset
      origin arg := by
  constructor
  · simp only [CFList.newOption, map_bind_py, expand_scaled, List.zip_map_left, List.zip_map_right, pyMap_map]
    simp only [CFList.newContingent, Option.getD_some, ← ofPayoffs_scaled]
    rw [← bind_map_py (List.map (scalePay κ)) _ fun l => CFList.ofPayoffs dates l origin arg true, ← pyMap_fmap]
    simp only [map_bind_py, Py.map_ok]
    rfl
  · simp only [CFList.newStrategy]
    split_ifs with h
    · rfl
    · simp only [CFList.newContingent, Option.getD_some, map_bind_py, ← ofPayoffs_scaled, strategyOptions_scaled]
      rw [← bind_map_py (List.map (scalePay κ)) _ fun l => CFList.ofPayoffs dates l origin arg true, ← pyMap_fmap]
      simp only [map_bind_py, Py.map_ok]
      rfl

/-- C157: a scaled list pays `κ` times as much on every date. -/
theorem C157_flow (l : CFList D P) (d : D) : (scaleList κ l).getitem cal d = (κ * ·) <$> l.getitem cal d := by
  simp only [CFList.getitem, scaleList, Dict.get_map]
  cases l.flows.get d with
  | none => simp
  | some p => exact C157_payoff κ p l.arg

theorem getitems_scaled (l : CFList D P) (ds : List D) :
    (scaleList κ l).getitems cal ds = List.map (κ * ·) <$> l.getitems cal ds := by
  rw [CFList.getitems, CFList.getitems, ← pyMap_fmap]
  exact pyMap_congr fun d _ => C157_flow κ l d

/-! ### Computations -/

/-- Both computations raise the same exception or return related values, on objects scaled by `κ`. -/
def Alike {α β : Type} (R : α → β → Prop) (m : PyM (World D P) α) (m' : PyM (World D P) β) : Prop := ∀ w,
  (m' (scaleWorld κ w)).2 = scaleWorld κ (m w).2 ∧
    match (m w).1, (m' (scaleWorld κ w)).1 with
    | .ok x, .ok y => R x y
    | .error e, .error e' => e' = e
    | _, _ => False

variable {κ}

theorem Alike.cases {α β : Type} {R : α → β → Prop} {m : PyM (World D P) α} {m' : PyM (World D P) β} (h : Alike κ R m m')
    (w : World D P) : (∃ x y w', R x y ∧ m w = (.ok x, w') ∧ m' (scaleWorld κ w) = (.ok y, scaleWorld κ w')) ∨
      ∃ e w', m w = (.error e, w') ∧ m' (scaleWorld κ w) = (.error e, scaleWorld κ w') := by
  obtain ⟨h1, h2⟩ := h w
  rcases hm : m w with ⟨x | x, w'⟩ <;> rcases hm' : m' (scaleWorld κ w) with ⟨y | y, w''⟩ <;>
    simp only [hm, hm'] at h1 h2 <;> subst h1
  · subst h2; exact .inr ⟨_, _, rfl, rfl⟩
  · exact .inl ⟨_, _, _, h2, rfl, rfl⟩

theorem Alike.bind {α β α' β' : Type} {R : α → β → Prop} {S : α' → β' → Prop} {m : PyM (World D P) α}
    {m' : PyM (World D P) β} {f : α → PyM (World D P) α'} {f' : β → PyM (World D P) β'} (h : Alike κ R m m')
    (hf : ∀ x y, R x y → Alike κ S (f x) (f' y)) : Alike κ S (m >>= f) (m' >>= f') := by
  intro w
  rcases h.cases w with ⟨x, y, w', hR, h1, h2⟩ | ⟨e, w', h1, h2⟩
  · rw [PyM.bind_ok h1, PyM.bind_ok h2]
    exact hf x y hR w'
  · rw [PyM.bind_error h1, PyM.bind_error h2]
    exact ⟨rfl, rfl⟩

theorem Alike.pure {α β : Type} {R : α → β → Prop} {x : α} {y : β} (h : R x y) :
    Alike κ R (Pure.pure x : PyM (World D P) α) (Pure.pure y) := fun w => ⟨rfl, h⟩

theorem Alike.lift {α β : Type} {R : α → β → Prop} {x : Py α} {f : α → β} (h : ∀ a, R a (f a)) :
    Alike κ R (PyM.lift x : PyM (World D P) α) (PyM.lift (f <$> x)) := fun w => by
  refine ⟨rfl, ?_⟩
  cases x with
  | error e => exact rfl
  | ok a => exact h a

theorem Alike.lift_same {α : Type} {x : Py α} : Alike κ (· = ·) (PyM.lift x : PyM (World D P) α) (PyM.lift x) := fun w => by
  refine ⟨rfl, ?_⟩
  cases x with
  | error e => exact rfl
  | ok a => exact rfl

theorem Alike.get : Alike κ (fun w w' => w' = scaleWorld κ w) (PyM.get : PyM (World D P) _) PyM.get := fun w => ⟨rfl, rfl⟩

theorem Alike.forM {α : Type} {f : α → PyM (World D P) Unit} (h : ∀ a, Alike κ (· = ·) (f a) (f a)) :
    ∀ l, Alike κ (· = ·) (PyM.forM f l) (PyM.forM f l)
  | [] => .pure rfl
  | a :: l => (h a).bind fun _ _ _ => Alike.forM h l

theorem Alike.mapM {α β : Type} {R : β → β → Prop} {f f' : α → PyM (World D P) β} (h : ∀ a, Alike κ R (f a) (f' a)) :
    ∀ l, Alike κ (List.Forall₂ R) (PyM.mapM f l) (PyM.mapM f' l)
  | [] => .pure .nil
  | a :: l => (h a).bind fun _ _ h1 => (Alike.mapM h l).bind fun _ _ h2 => .pure (.cons h1 h2)

/-- The second number is `κ` times the first. -/
abbrev Times (κ x y : ℝ) : Prop := y = κ * x

theorem times_list {xs ys : List ℝ} (h : List.Forall₂ (Times κ) xs ys) : ys = xs.map (κ * ·) := by
  induction h with
  | nil => rfl
  | cons h _ ih => rw [List.map_cons, h, ih]

theorem setSpread_alike (a : ℕ) (f : Option (D → Py (Option ℝ))) :
    Alike κ (· = ·) (setSpread (D := D) (P := P) a f) (setSpread a f) := fun w => by
  simp only [setSpread]
  rw [show (scaleWorld κ w).curves = w.curves from rfl]
  cases (w.curves a).toRateCurve.setSpread f with
  | error e => exact ⟨rfl, rfl⟩
  | ok c => exact ⟨rfl, trivial⟩

theorem shiftCurve_alike (a : ℕ) (grid : List D) (shifts : List ℝ) :
    Alike κ (· = ·) (shiftCurve (P := P) cal a grid shifts) (shiftCurve cal a grid shifts) :=
  Alike.lift_same.bind fun _ _ h => h ▸ setSpread_alike a _

theorem parallelShift_alike (shift : ℝ) (a : ℕ) :
    Alike κ (· = ·) (parallelShift (P := P) cal shift a) (parallelShift cal shift a) :=
  Alike.get.bind fun w w' h => by
    subst h
    exact Alike.lift_same.bind fun _ _ h => h ▸ shiftCurve_alike a _ _

theorem enterModel_alike (v : Option D) (a : ℕ) (w0 : World D P) :
    Alike κ (· = ·) (enterModel v (w0.lists a)) (enterModel v ((scaleWorld κ w0).lists a)) := fun w => by
  simp only [enterModel]
  rw [show ((scaleWorld κ w0).lists a).hasModel = (w0.lists a).hasModel from rfl,
    show ((scaleWorld κ w0).lists a).arg = (w0.lists a).arg from rfl]
  split_ifs
  · cases (w0.lists a).arg <;> exact ⟨rfl, rfl⟩
  · exact ⟨rfl, rfl⟩

theorem leaveModel_alike (s : Option (ℕ × Option D)) :
    Alike κ (· = ·) (leaveModel (P := P) s) (leaveModel s) := fun w => by
  rcases s with _ | ⟨m, v⟩ <;> exact ⟨rfl, rfl⟩

theorem discountSum_scaled (c : CurveObj D P) (same : Bool) (v : Option D) (dates : List D) (flows : List ℝ) :
    discountSum cal c same v (dates.zip (flows.map (κ * ·))) = (κ * ·) <$> discountSum cal c same v (dates.zip flows) := by
  simp only [discountSum, List.zip_map_right, pyMap_map, map_bind_py, Py.map_ok, Prod.map, id, pySum_eq, ← sum_mul_left']
  rw [← bind_map_py (List.map (κ * ·)) _ fun l => (Except.ok l.sum : Py ℝ), ← pyMap_fmap]
  simp only [map_bind_py, Py.map_ok]
  congr 2
  funext q
  congr 1; funext v'; congr 1; funext df; congr 1; ring

theorem pvList_alike (c : CurveObj D P) (same : Bool) (v : Option D) (a : ℕ) :
    Alike κ (Times κ) (pvList cal c same v a) (pvList cal c same v a) :=
  Alike.get.bind fun w w' h => by
    subst h
    refine (enterModel_alike v a w).bind fun s s' h => ?_
    subst h
    refine Alike.lift_same.bind fun ds ds' h => ?_
    subst h
    refine Alike.get.bind fun w1 w1' h => ?_
    subst h
    have : (scaleWorld κ w1).list a = scaleList κ (w1.list a) := by
      have : (scaleWorld κ w1).arg (w1.lists a).arg = w1.arg (w1.lists a).arg := by cases (w1.lists a).arg <;> rfl
      show CFList.mk _ _ _ ((scaleWorld κ w1).arg (w1.lists a).arg) _ = CFList.mk _ _ _ _ _
      rw [this]
      rfl
    rw [this, getitems_scaled]
    refine (Alike.lift (R := fun x y => y = x.map (κ * ·)) fun _ => rfl).bind fun fs fs' h => ?_
    subst h
    refine (leaveModel_alike s).bind fun _ _ _ => ?_
    rw [discountSum_scaled]
    exact Alike.lift fun _ => rfl

mutual
theorem pvAt_alike (c : CurveObj D P) (same : Bool) (v : Option D) : ∀ p : Product D,
    Alike κ (Times κ) (pvAt cal c same v p) (pvAt cal c same v p)
  | .list a => by rw [pvAt]; exact pvList_alike c same v a
  | .legs ps d o => by
    rw [pvAt]
    refine (pvLegs_alike c same v ps).bind fun xs ys h => .pure ?_
    rw [times_list h, pySum_eq, pySum_eq, sum_mul_left']

theorem pvLegs_alike (c : CurveObj D P) (same : Bool) (v : Option D) : ∀ ps : List (Product D),
    Alike κ (List.Forall₂ (Times κ)) (pvLegs cal c same v ps) (pvLegs cal c same v ps)
  | [] => by rw [pvLegs]; exact .pure .nil
  | p :: ps => by
    rw [pvLegs]
    exact (pvAt_alike c same v p).bind fun _ _ h1 => (pvLegs_alike c same v ps).bind fun _ _ h2 => .pure (.cons h1 h2)
end

theorem pvOn_alike (disc : ℕ) (same : Bool) (v : Option D) (p : Product D) :
    Alike κ (Times κ) (pvOn (P := P) cal disc same v p) (pvOn cal disc same v p) := fun w => by
  cases v with
  | none => exact pvAt_alike (w.curves disc) true _ p w
  | some v => exact pvAt_alike (w.curves disc) same _ p w

theorem change_alike (shift : ℝ) {x x' y y' : ℝ} (hx : x' = κ * x) (hy : y' = κ * y) :
    Alike κ (Times κ) ((PyM.lift (pyDiv (y - x) shift) >>= fun q => Pure.pure (q * (1 / 10000))) : PyM (World D P) ℝ)
      (PyM.lift (pyDiv (y' - x') shift) >>= fun q => Pure.pure (q * (1 / 10000))) := by
  have : pyDiv (y' - x') shift = (κ * ·) <$> pyDiv (y - x) shift := by
    simp only [pyDiv]
    split_ifs
    · rfl
    · simp only [Py.map_ok]; congr 1; rw [hx, hy]; ring
  rw [this]
  refine (Alike.lift (R := Times κ) fun _ => rfl).bind fun a b h => .pure ?_
  rw [h]; ring

theorem bpv_alike (disc : ℕ) (same : Bool) (p : Product D) (v : Option D) (delta : Option (List ℕ)) (shift : ℝ) :
    Alike κ (Times κ) (basisPointValue (P := P) cal disc same p v delta shift) (basisPointValue cal disc same p v delta shift) :=
  (pvOn_alike disc same v p).bind fun _ _ hx => (Alike.forM (parallelShift_alike shift) _).bind fun _ _ _ =>
    (pvOn_alike disc same v p).bind fun _ _ hy => (Alike.forM (fun a => setSpread_alike a none) _).bind fun _ _ _ =>
      change_alike shift hx hy

theorem bucket_alike (disc : ℕ) (same : Bool) (p : Product D) (v : Option D) (delta : List ℕ) (shift : ℝ) {x x' : ℝ}
    (hx : x' = κ * x) (g : List D × List ℝ) :
    Alike κ (Times κ) (bucket (P := P) cal disc same p v delta shift x g) (bucket cal disc same p v delta shift x' g) :=
  (Alike.forM (fun a => shiftCurve_alike a _ _) _).bind fun _ _ _ =>
    (pvOn_alike disc same v p).bind fun _ _ hy => (Alike.forM (fun a => setSpread_alike a none) _).bind fun _ _ _ =>
      change_alike shift hx hy

theorem deltas_alike (disc : ℕ) (same : Bool) (p : Product D) (v : Option D) (delta : Option (List ℕ)) (grid : Option (List D))
    (shift : ℝ) : Alike κ (List.Forall₂ (Times κ)) (bucketedDelta (P := P) cal disc same p v delta grid shift)
      (bucketedDelta cal disc same p v delta grid shift) :=
  (pvOn_alike disc same v p).bind fun _ _ hx => Alike.get.bind fun w w' h => by
    subst h
    exact Alike.lift_same.bind fun gs gs' h => h ▸ Alike.mapM (fun g => bucket_alike disc same p v _ shift hx g) gs

theorem Alike.run {α : Type} {R : α → α → Prop} {f : α → α} {m : PyM (World D P) α} (h : Alike κ R m m)
    (hR : ∀ x y, R x y → y = f x) (w : World D P) : m (scaleWorld κ w) = (f <$> (m w).1, scaleWorld κ (m w).2) := by
  rcases h.cases w with ⟨x, y, w', h1, h2, h3⟩ | ⟨e, w', h2, h3⟩
  · rw [h3, h2, hR x y h1]; rfl
  · rw [h3, h2]; rfl

variable (κ)

/-- C157: with all amounts times `κ` present values are `κ` times as large; the same calls raise the same exceptions and
leave the same changes. -/
theorem C157_present_value (disc : ℕ) (same : Bool) (v : Option D) (p : Product D) (w : World D P) :
    pvOn cal disc same v p (scaleWorld κ w) =
      ((κ * ·) <$> (pvOn cal disc same v p w).1, scaleWorld κ (pvOn cal disc same v p w).2) :=
  (pvOn_alike disc same v p).run (fun _ _ h => h) w

/-- C157: and so are basis point values. -/
theorem C157_bpv (disc : ℕ) (same : Bool) (p : Product D) (v : Option D) (delta : Option (List ℕ)) (shift : ℝ) (w : World D P) :
    basisPointValue cal disc same p v delta shift (scaleWorld κ w) =
      ((κ * ·) <$> (basisPointValue cal disc same p v delta shift w).1,
        scaleWorld κ (basisPointValue cal disc same p v delta shift w).2) :=
  (bpv_alike disc same p v delta shift).run (fun _ _ h => h) w

/-- C157: and the bucketed deltas. -/
theorem C157_deltas (disc : ℕ) (same : Bool) (p : Product D) (v : Option D) (delta : Option (List ℕ)) (grid : Option (List D))
    (shift : ℝ) (w : World D P) : bucketedDelta cal disc same p v delta grid shift (scaleWorld κ w) =
      (List.map (κ * ·) <$> (bucketedDelta cal disc same p v delta grid shift w).1,
        scaleWorld κ (bucketedDelta cal disc same p v delta grid shift w).2) :=
  (deltas_alike disc same p v delta grid shift).run (fun _ _ h => times_list h) w

theorem accruedFlow_scaled (w : World D P) (a : ℕ) (v : D) (cf : PayOff D P) :
    accruedFlow cal (scaleWorld κ w) ((scaleWorld κ w).lists a) v (scalePay κ cf) =
      (κ * ·) <$> accruedFlow cal w (w.lists a) v cf := by
  have hf : (scaleWorld κ w).forwardCurve ((scaleWorld κ w).lists a) = w.forwardCurve (w.lists a) := by
    simp only [World.forwardCurve]
    rw [show ((scaleWorld κ w).lists a).hasForward = (w.lists a).hasForward from rfl,
      show ((scaleWorld κ w).lists a).arg = (w.lists a).arg from rfl]
    split_ifs
    · cases (w.lists a).arg <;> rfl
    · rfl
  cases cf with
  | rate p =>
    simp only [accruedFlow]
    rw [show PayOff.ratePay? (scalePay κ (.rate p)) = some { p with amount := κ * p.amount } from rfl]
    simp only [hf, C157_payoff, PayOff.ratePay?, RatePay.tau]
    split_ifs
    · simp only [map_bind_py, bind_map_py, Py.map_ok]
      congr 1; funext arg; congr 1; funext x; congr 1; funext q; congr 1; ring
    · simp
  | contingentRate p =>
    simp only [accruedFlow]
    rw [show PayOff.ratePay? (scalePay κ (.contingentRate p)) = some { p.toRatePay with amount := κ * p.amount } from rfl]
    simp only [hf, C157_payoff, PayOff.ratePay?, RatePay.tau]
    split_ifs
    · simp only [map_bind_py, bind_map_py, Py.map_ok]
      congr 1; funext arg; congr 1; funext x; congr 1; funext q; congr 1; ring
    · simp
  | num x => simp [accruedFlow, scalePay, PayOff.ratePay?]
  | fixed x => simp [accruedFlow, scalePay, PayOff.ratePay?]
  | option o => simp [accruedFlow, scalePay, PayOff.ratePay?]
  | strategy os => simp [accruedFlow, scalePay, PayOff.ratePay?]
  | fn f => simp [accruedFlow, scalePay, PayOff.ratePay?]

theorem accruedAt_scaled (w : World D P) (a : ℕ) (v d : D) :
    accruedAt cal (scaleWorld κ w) ((scaleWorld κ w).lists a) v d = (κ * ·) <$> accruedAt cal w (w.lists a) v d := by
  simp only [accruedAt]
  rw [show ((scaleWorld κ w).lists a).flows = (w.lists a).flows.map fun q => (q.1, scalePay κ q.2) from rfl, Dict.get_map]
  split_ifs
  · cases (w.lists a).flows.get d with
    | none => simp
    | some p => exact accruedFlow_scaled κ w a v p
  · simp

mutual
/-- C157: and accrued interest. -/
theorem C157_accrued (w : World D P) (v : D) : ∀ p : Product D,
    accrued cal (scaleWorld κ w) v p = (κ * ·) <$> accrued cal w v p
  | .list a => by
    rw [accrued, accrued, show ((scaleWorld κ w).lists a).domain = (w.lists a).domain from rfl]
    rw [pyMap_congr fun d _ => accruedAt_scaled κ w a v d, pyMap_fmap]
    simp only [map_bind_py, bind_map_py, Py.map_ok, pySum_eq, sum_mul_left']
  | .legs ps d o => by
    rw [accrued, accrued, C157_accruedLegs w v ps]
    simp only [map_bind_py, bind_map_py, Py.map_ok, pySum_eq, sum_mul_left']

theorem C157_accruedLegs (w : World D P) (v : D) : ∀ ps : List (Product D),
    accruedLegs cal (scaleWorld κ w) v ps = List.map (κ * ·) <$> accruedLegs cal w v ps
  | [] => by rw [accruedLegs, accruedLegs]; rfl
  | p :: ps => by
    rw [accruedLegs, accruedLegs, C157_accrued w v p, C157_accruedLegs w v ps]
    simp only [map_bind_py, bind_map_py, Py.map_ok, List.map_cons]
end

end

/-! ### Examples -/

/-- Non-vacuity of C156: the same product twice. -/
example : ∃ z, basisPointValue floatCal 0 false (.legs [.list 1, .list 1] [1, 3] none) (some 0) none (1 / 100) exWorld =
    (.ok (z + (z + 0)), exWorld) ∧ z < 0 := by
  obtain ⟨z, h1, h2⟩ : ∃ z, basisPointValue floatCal 0 false (.list 1) (some 0) none (1 / 100) exWorld = (.ok z, exWorld) ∧
      z < 0 := by
    refine C61_sign (c := (flatZero floatCal none .default none 0 (5 / 100)).toRateCurve) goodDayCount_real rfl
      (fun s t => rfl) rfl (by simp [flatZero, irOf, dateCurveOf, DateCurve.origin]) (exPays rfl) (exPays rfl)
      (df := fun t => Real.exp (-(5 / 100 * (t - 0)))) (fun q _ => exDf 0 q.1) (by norm_num) ?_ ⟨(1, 1), by simp, by norm_num⟩
    simp
  refine ⟨z, C156_bpv (by simp) (z := fun _ => z) (fun p hp => ?_) _ _, h2⟩
  obtain rfl : p = .list 1 := by simpa using hp
  exact h1

/-- Non-vacuity of C157: paying instead of receiving. -/
example : (pvOn floatCal 0 false (some 0) (.list 1) (scaleWorld (-1) exWorld)).1 =
    .ok (-(Real.exp (-(5 / 100)) + 2 * Real.exp (-(15 / 100)))) := by
  have hx : pvOn floatCal 0 false (some 0) (.list 1) exWorld = (.ok _, exWorld) := C54_flows (exPays rfl)
    (df := fun t => Real.exp (-(5 / 100 * (t - 0)))) fun q _ => exDf 0 q.1
  rw [C157_present_value, hx]
  simp
  norm_num
  ring

end Dcf
