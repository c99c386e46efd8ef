import Verif.Props.Delta

/-! # C139: risk numbers of fixed flows

Basis point value and bucketed deltas of given flows discounted with a zero rate curve: the value change per basis point
is the discounted time to payment, a bucket sees the flows between the neighbours of its grid date only. -/

set_option linter.unusedSectionVars false
set_option linter.unusedVariables false
set_option linter.unusedSimpArgs false

namespace Dcf

open Spec

section
variable {D P : Type} [LinearOrder D] {cal : Cal D P}
variable {disc : ℕ} {same : Bool} {p : Product D} {shift : ℝ} {w : World D P}

/-- A difference quotient of the exponential function lies between the derivatives at the ends. -/
theorem slope_bounds {s x : ℝ} (hs : 0 < s) (hx : 0 ≤ x) :
    -x ≤ (Real.exp (-(s * x)) - 1) / s ∧ (Real.exp (-(s * x)) - 1) / s ≤ -(x * Real.exp (-(s * x))) := by
  have h1 := Real.add_one_le_exp (-(s * x))
  have h2 := Real.add_one_le_exp (s * x)
  have e : Real.exp (s * x) * Real.exp (-(s * x)) = 1 := by rw [← Real.exp_add]; simp
  have h3 := Real.exp_pos (-(s * x))
  constructor
  · rw [le_div_iff₀ hs]; linarith
  · rw [div_le_iff₀ hs]
    have : (s * x + 1) * Real.exp (-(s * x)) ≤ 1 :=
      (mul_le_mul_of_nonneg_right h2 h3.le).trans_eq e
    nlinarith

/-- The sum of time to payment times present value. -/
noncomputable def timeValue (τ : D → D → ℝ) (o : D) (df : D → ℝ) (L : List (D × ℝ)) : ℝ :=
  (L.map fun q => τ o q.1 * (df q.1 * q.2)).sum

theorem zero_df_pos {c : RateCurve D P} (hc : w.curves disc = ⟨c, .ir .zero⟩) {o t : D} {y : ℝ}
    (h : (w.curves disc).discountFactor cal same o t = .ok y) : 0 < y := by
  simp only [hc, CurveObj.discountFactor, CurveObj.ir?, IRCurve.factor] at h
  split_ifs at h
  · rw [← Except.ok.inj h]; exact one_pos
  · obtain ⟨r, -, h⟩ := Py.bind_eq_ok.1 h
    obtain ⟨t, -, h⟩ := Py.bind_eq_ok.1 h
    rw [continuousCompounding] at h
    rw [← Except.ok.inj h]
    exact Real.exp_pos _

/-- C139: for non-negative flows within `b` years the basis point value is minus the sum of time to payment times present
value, per basis point, up to a factor between `exp (-shift b)` and 1. -/
theorem C139_duration {c : RateCurve D P} {τ : D → D → ℝ} (hτ : GoodDayCount τ) (hc : w.curves disc = ⟨c, .ir .zero⟩)
    (hdc : ∀ s t, c.base.dayCount cal s t = .ok (τ s t)) (hf : c.spread = none) (ho : c.base.origin ≠ none)
    {v : D} {L : List (D × ℝ)} {df : D → ℝ} (hp : Pays cal w v p L) (hp' : Pays cal (w.bumped [disc] shift) v p L)
    (hdf : ∀ q ∈ L, (w.curves disc).discountFactor cal same v q.1 = .ok (df q.1)) (hs : 0 < shift)
    {b : ℝ} (h0 : ∀ q ∈ L, v ≤ q.1 ∧ 0 ≤ q.2 ∧ τ v q.1 ≤ b) :
    ∃ z, basisPointValue cal disc same p (some v) none shift w = (.ok z, w) ∧
      -(timeValue τ v df L) * (1 / 10000) ≤ z ∧
      z ≤ -(timeValue τ v df L) * Real.exp (-(shift * b)) * (1 / 10000) := by
  refine ⟨_, C61_zero hτ hc hdc hf ho hp hp' hdf hs.ne', ?_⟩
  have hpos : ∀ q ∈ L, 0 < df q.1 := fun q hq => zero_df_pos hc (hdf q hq)
  clear hp hp' hdf
  refine ⟨mul_le_mul_of_nonneg_right ?_ (by norm_num), mul_le_mul_of_nonneg_right ?_ (by norm_num)⟩
  · induction L with
    | nil => simp [timeValue]
    | cons q L ih =>
      have ih := ih (fun q hq => h0 q (by simp [hq])) fun q hq => hpos q (by simp [hq])
      obtain ⟨hq, hq0, -⟩ := h0 q (by simp)
      have hb := mul_le_mul_of_nonneg_left (slope_bounds hs (hτ.nonneg hq)).1
        (mul_nonneg (hpos q (by simp)).le hq0)
      simp only [timeValue, List.map_cons, List.sum_cons] at ih ⊢
      linarith
  · induction L with
    | nil => simp [timeValue]
    | cons q L ih =>
      have ih := ih (fun q hq => h0 q (by simp [hq])) fun q hq => hpos q (by simp [hq])
      obtain ⟨hq, hq0, hqb⟩ := h0 q (by simp)
      have hn := hτ.nonneg hq
      have hw := mul_nonneg (hpos q (by simp)).le hq0
      have hb := mul_le_mul_of_nonneg_left (slope_bounds hs hn).2 hw
      have he : Real.exp (-(shift * b)) ≤ Real.exp (-(shift * τ v q.1)) :=
        Real.exp_le_exp.2 (neg_le_neg (mul_le_mul_of_nonneg_left hqb hs.le))
      have := mul_le_mul_of_nonneg_left he (mul_nonneg hw hn)
      simp only [timeValue, List.map_cons, List.sum_cons] at ih ⊢
      nlinarith

/-! ## Buckets -/

/-- The triangle of height 1 over the `k`-th date of the grid, from its left to its right neighbour, flat towards a
missing neighbour. -/
noncomputable def triangle (τ : D → D → ℝ) (G : List D) (k : ℕ) (hk : k < G.length) : D → ℝ :=
  hat τ 1 (if k = 0 then none else G[k - 1]?) G[k] G[k + 1]?

theorem hat_scale (τ : D → D → ℝ) (shift : ℝ) (lo : Option D) (m : D) (hi : Option D) (x : D) :
    hat τ shift lo m hi x = shift * hat τ 1 lo m hi x := by
  cases lo <;> cases hi <;> simp only [hat] <;> split_ifs <;> simp

theorem hats_get (τ : D → D → ℝ) (shift : ℝ) : ∀ {G : List D} {lo : Option D} {k : ℕ} (hk : k < G.length),
    (hats τ shift lo G)[k]? = some (hat τ shift (if k = 0 then lo else G[k - 1]?) G[k] G[k + 1]?)
  | [], _, _, hk => absurd hk (by simp)
  | m :: rest, lo, 0, hk => by
    cases rest <;> simp [hats]
  | m :: rest, lo, k + 1, hk => by
    rw [hats, List.getElem?_cons_succ, hats_get τ shift (by simpa using hk)]
    cases k <;> simp

/-- A date strictly between the neighbours of the `k`-th grid date. -/
def InBucket (G : List D) (k : ℕ) (t : D) : Prop :=
  (∀ l, k ≠ 0 → G[k - 1]? = some l → l < t) ∧ ∀ h, G[k + 1]? = some h → t < h

theorem triangle_bounds {τ : D → D → ℝ} (hτ : GoodDayCount τ) (G : List D) (k : ℕ) (hk : k < G.length) (t : D)
    (hinc : G.Pairwise (· < ·)) : 0 ≤ triangle τ G k hk t ∧ triangle τ G k hk t ≤ 1 :=
  C62_bounds (grid := G) hτ zero_le_one (List.mem_of_getElem? (hats_get τ 1 (lo := none) hk)) t

theorem triangle_pos {τ : D → D → ℝ} (hτ : GoodDayCount τ) {G : List D} {k : ℕ} (hk : k < G.length) {t : D}
    (hinc : G.Pairwise (· < ·)) : 0 < triangle τ G k hk t ↔ InBucket G k t := by
  have hlo : ∀ l, k ≠ 0 → G[k - 1]? = some l → l < G[k] := by
    intro l h0 hl
    obtain ⟨h1, rfl⟩ := List.getElem?_eq_some_iff.1 hl
    exact List.pairwise_iff_getElem.1 hinc _ _ h1 hk (by omega)
  have hhi : ∀ h, G[k + 1]? = some h → G[k] < h := by
    intro h hh
    obtain ⟨h1, rfl⟩ := List.getElem?_eq_some_iff.1 hh
    exact List.pairwise_iff_getElem.1 hinc _ _ hk h1 (by omega)
  have hlo' : ∀ l, (if k = 0 then none else G[k - 1]?) = some l ↔ k ≠ 0 ∧ G[k - 1]? = some l := by
    intro l; by_cases h : k = 0 <;> simp [h]
  rw [triangle, InBucket]
  simp only [← and_imp, ← hlo'] at hlo ⊢
  generalize (if k = 0 then none else G[k - 1]?) = lo at *
  generalize G[k + 1]? = hi at *
  generalize G[k] = m at *
  simp only [hat]
  by_cases h : t ≤ m
  · rw [if_pos h]
    have : ∀ h, hi = some h → t < h := fun x hx => h.trans_lt (hhi x hx)
    cases lo with
    | none => simpa using this
    | some l =>
      simp only [Option.some.injEq, forall_eq'] at hlo ⊢
      by_cases hl : t ≤ l
      · simp [hl, hl.not_gt]
      · have := div_pos ((hτ.pos _ _).2 (not_le.1 hl)) ((hτ.pos _ _).2 hlo)
        simp only [hl, if_false, one_mul, this, true_iff]
        exact ⟨not_le.1 hl, by assumption⟩
  · rw [if_neg h]
    have h := not_le.1 h
    have : ∀ l, lo = some l → l < t := fun x hx => (hlo x hx).trans h
    cases hi with
    | none => simpa using this
    | some r =>
      simp only [Option.some.injEq, forall_eq'] at hhi ⊢
      by_cases hl : r ≤ t
      · simp [hl, hl.not_gt]
      · have := div_pos ((hτ.pos _ _).2 (not_le.1 hl)) ((hτ.pos _ _).2 hhi)
        simp only [hl, if_false, one_mul, this, true_iff]
        exact ⟨by assumption, not_le.1 hl⟩

/-- The bucketed deltas of given flows, one for each grid date. -/
theorem C139_buckets {c : RateCurve D P} {τ : D → D → ℝ} (hτ : GoodDayCount τ) (hτ' : GoodDayCount cal.dayCount)
    (hc : w.curves disc = ⟨c, .ir .zero⟩)
    (hdc : ∀ s t, c.base.dayCount cal s t = .ok (τ s t)) (hf : c.spread = none) {o : D} (ho : c.base.origin = some o)
    {L : List (D × ℝ)} {df : D → ℝ} (hp0 : Pays cal w o p L) (hp : ∀ φ : D → ℝ, Pays cal (w.spreadBy [disc] φ) o p L)
    (hdf : ∀ q ∈ L, (w.curves disc).discountFactor cal same o q.1 = .ok (df q.1))
    {grid : Option (List D)} {G : List D}
    (hG : deltaGrid (w.curves disc) grid = G) (hne : G ≠ []) (hinc : G.Pairwise (· < ·)) (hs : shift ≠ 0) :
    ∃ ds : List ℝ, bucketedDelta cal disc same p (some o) none grid shift w = (.ok ds, w) ∧
      ∃ hl : ds.length = G.length, ∀ k (hk : k < G.length), ds[k] =
        (L.map fun q => df q.1 * q.2 *
          ((Real.exp (-(shift * (triangle cal.dayCount G k hk q.1 * τ o q.1))) - 1) / shift)).sum * (1 / 10000) := by
  have hx : pvOn cal disc same (some o) p w = (.ok (L.map fun q => df q.1 * q.2).sum, w) := C54_flows hp0 hdf
  have hV := zero_spread_pv (same := same) hτ hc hdc hf ho hp hdf
  refine ⟨_, C63_buckets hτ' hG hne hinc hs ⟨by simp, by simp [hc, hf], fun _ _ => trivial⟩ hx
    (V := fun f => (L.map fun q : D × ℝ => df q.1 * Real.exp (-(f q.1 * τ o q.1)) * q.2).sum) fun f _ => hV f,
    by rw [List.length_map, hats_length], fun k hk => ?_⟩
  have hg := hats_get cal.dayCount shift (lo := none) hk
  obtain ⟨hk', hg⟩ := List.getElem?_eq_some_iff.1 hg
  rw [List.getElem_map, hg]
  congr 1
  rw [div_eq_iff hs]
  clear hp0 hp hdf hx hV
  induction L with
  | nil => simp
  | cons q L ih =>
    simp only [List.map_cons, List.sum_cons] at ih ⊢
    have e : df q.1 * q.2 * ((Real.exp (-(shift * (triangle cal.dayCount G k hk q.1 * τ o q.1))) - 1) / shift) * shift =
        df q.1 * q.2 * (Real.exp (-(shift * (triangle cal.dayCount G k hk q.1 * τ o q.1))) - 1) := by
      field_simp
    rw [add_mul, ← ih, e, hat_scale, ← mul_assoc shift]
    rw [triangle]
    ring

section
variable {c : RateCurve D P} {τ : D → D → ℝ} (hτ : GoodDayCount τ) (hτ' : GoodDayCount cal.dayCount)
  (hc : w.curves disc = ⟨c, .ir .zero⟩)
  (hdc : ∀ s t, c.base.dayCount cal s t = .ok (τ s t)) (hf : c.spread = none) {o : D} (ho : c.base.origin = some o)
  {L : List (D × ℝ)} {df : D → ℝ} (hp0 : Pays cal w o p L) (hp : ∀ φ : D → ℝ, Pays cal (w.spreadBy [disc] φ) o p L)
  (hdf : ∀ q ∈ L, (w.curves disc).discountFactor cal same o q.1 = .ok (df q.1))
  {grid : Option (List D)} {G : List D}
  (hG : deltaGrid (w.curves disc) grid = G) (hne : G ≠ []) (hinc : G.Pairwise (· < ·))
include hτ hτ' hc hdc hf ho hp0 hp hdf hG hne hinc

/-- C139: the delta of a bucket does not see flows paid at or before the left neighbour of its date, or at or after the
right one: two products with the same flows in between have the same delta there. -/
theorem C139_local (hs : shift ≠ 0) {p' : Product D} {L' : List (D × ℝ)} (hp0' : Pays cal w o p' L')
    (hp' : ∀ φ : D → ℝ, Pays cal (w.spreadBy [disc] φ) o p' L')
    (hdf' : ∀ q ∈ L', (w.curves disc).discountFactor cal same o q.1 = .ok (df q.1)) :
    ∃ ds ds' : List ℝ, bucketedDelta cal disc same p (some o) none grid shift w = (.ok ds, w) ∧
      bucketedDelta cal disc same p' (some o) none grid shift w = (.ok ds', w) ∧
      ds.length = G.length ∧ ds'.length = G.length ∧
      ∀ k, (∀ q, InBucket G k q.1 → L.count q = L'.count q) → ds[k]? = ds'[k]? := by
  obtain ⟨ds, h1, h2, h3⟩ := C139_buckets hτ hτ' hc hdc hf ho hp0 hp hdf hG hne hinc hs
  obtain ⟨ds', h1', h2', h3'⟩ := C139_buckets hτ hτ' hc hdc hf ho hp0' hp' hdf' hG hne hinc hs
  refine ⟨ds, ds', h1, h1', h2, h2', fun k hk => ?_⟩
  by_cases hkl : k < G.length
  swap
  · rw [List.getElem?_eq_none (by omega), List.getElem?_eq_none (by omega)]
  rw [List.getElem?_eq_getElem (by omega), List.getElem?_eq_getElem (by omega), h3 k hkl, h3' k hkl]
  congr 2
  classical
  set F : D × ℝ → ℝ := fun q => df q.1 * q.2 *
    ((Real.exp (-(shift * (triangle cal.dayCount G k hkl q.1 * τ o q.1))) - 1) / shift) with hF
  have hz : ∀ q, ¬ InBucket G k q.1 → F q = 0 := by
    intro q hq
    rw [← triangle_pos hτ' hkl hinc] at hq
    have := le_antisymm (not_lt.1 hq) (triangle_bounds hτ' G k hkl q.1 hinc).1
    simp [hF, this]
  have hsum : ∀ M : List (D × ℝ), (M.map F).sum = ((M.filter fun q => InBucket G k q.1).map F).sum := by
    intro M
    induction M with
    | nil => simp
    | cons q M ih =>
      by_cases hq : InBucket G k q.1
      · simp [hq, ih]
      · simp [hq, ih, hz q hq]
  rw [hsum L, hsum L']
  refine (List.Perm.map F (List.perm_iff_count.2 fun q => ?_)).sum_eq
  by_cases hq : InBucket G k q.1
  · rw [List.count_filter (by simpa using hq), List.count_filter (by simpa using hq)]
    exact hk q hq
  · rw [List.count_eq_zero_of_not_mem (by simp [hq]), List.count_eq_zero_of_not_mem (by simp [hq])]

/-- C139: the delta of a bucket is 0 if nothing is paid strictly between the neighbours of its date. -/
theorem C139_empty (hs : shift ≠ 0) :
    ∃ ds : List ℝ, bucketedDelta cal disc same p (some o) none grid shift w = (.ok ds, w) ∧ ds.length = G.length ∧
      ∀ k, k < G.length → (∀ q ∈ L, ¬ InBucket G k q.1) → ds[k]? = some 0 := by
  obtain ⟨ds, h1, h2, h3⟩ := C139_buckets hτ hτ' hc hdc hf ho hp0 hp hdf hG hne hinc hs
  refine ⟨ds, h1, h2, fun k hk hq => ?_⟩
  rw [List.getElem?_eq_getElem (by omega), h3 k hk, List.sum_eq_zero, zero_mul]
  intro a ha
  obtain ⟨q, hqL, rfl⟩ := List.mem_map.1 ha
  have := hq q hqL
  rw [← triangle_pos hτ' hk hinc] at this
  have := le_antisymm (not_lt.1 this) (triangle_bounds hτ' G k hk q.1 hinc).1
  simp [this]

/-- C139: for non-negative flows no delta is positive, and that of a bucket with a positive flow after the origin
strictly between the neighbours of its date is negative; each is minus the sum of time to payment times present value
weighted by the triangle of the bucket, per basis point, up to a factor between `exp (-shift b)` and 1. -/
theorem C139_bucket_duration (hs : 0 < shift) {b : ℝ} (h0 : ∀ q ∈ L, o ≤ q.1 ∧ 0 ≤ q.2 ∧ τ o q.1 ≤ b) :
    ∃ ds : List ℝ, bucketedDelta cal disc same p (some o) none grid shift w = (.ok ds, w) ∧
      ∃ hl : ds.length = G.length, ∀ k (hk : k < G.length), ds[k] ≤ 0 ∧
        ((∃ q ∈ L, o < q.1 ∧ 0 < q.2 ∧ InBucket G k q.1) → ds[k] < 0) ∧
        -(L.map fun q => triangle cal.dayCount G k hk q.1 * (τ o q.1 * (df q.1 * q.2))).sum * (1 / 10000) ≤ ds[k] ∧
        ds[k] ≤ -(L.map fun q => triangle cal.dayCount G k hk q.1 * (τ o q.1 * (df q.1 * q.2))).sum *
          Real.exp (-(shift * b)) * (1 / 10000) := by
  obtain ⟨ds, h1, h2, h3⟩ := C139_buckets hτ hτ' hc hdc hf ho hp0 hp hdf hG hne hinc hs.ne'
  refine ⟨ds, h1, h2, fun k hk => ?_⟩
  rw [h3 k hk]
  have hpos : ∀ q ∈ L, 0 < df q.1 := fun q hq => zero_df_pos hc (hdf q hq)
  have ht := fun q => triangle_bounds hτ' G k hk q hinc
  have hx : ∀ q ∈ L, 0 ≤ triangle cal.dayCount G k hk q.1 * τ o q.1 ∧ triangle cal.dayCount G k hk q.1 * τ o q.1 ≤ b := by
    intro q hq
    have hn := hτ.nonneg (h0 q hq).1
    exact ⟨mul_nonneg (ht q.1).1 hn, (mul_le_of_le_one_left hn (ht q.1).2).trans (h0 q hq).2.2⟩
  have hlow : -(L.map fun q => triangle cal.dayCount G k hk q.1 * (τ o q.1 * (df q.1 * q.2))).sum ≤
      (L.map fun q => df q.1 * q.2 *
        ((Real.exp (-(shift * (triangle cal.dayCount G k hk q.1 * τ o q.1))) - 1) / shift)).sum := by
    clear hp0 hp hdf h3
    induction L with
    | nil => simp
    | cons q L ih =>
      have ih := ih (fun q hq => h0 q (by simp [hq])) (fun q hq => hpos q (by simp [hq])) fun q hq => hx q (by simp [hq])
      have hb := mul_le_mul_of_nonneg_left (slope_bounds hs (hx q (by simp)).1).1
        (mul_nonneg (hpos q (by simp)).le (h0 q (by simp)).2.1)
      simp only [List.map_cons, List.sum_cons] at ih ⊢
      linarith
  have hup : (L.map fun q => df q.1 * q.2 *
        ((Real.exp (-(shift * (triangle cal.dayCount G k hk q.1 * τ o q.1))) - 1) / shift)).sum ≤
      -(L.map fun q => triangle cal.dayCount G k hk q.1 * (τ o q.1 * (df q.1 * q.2))).sum * Real.exp (-(shift * b)) := by
    clear hp0 hp hdf hlow h3
    induction L with
    | nil => simp
    | cons q L ih =>
      have ih := ih (fun q hq => h0 q (by simp [hq])) (fun q hq => hpos q (by simp [hq])) fun q hq => hx q (by simp [hq])
      have hw := mul_nonneg (hpos q (by simp)).le (h0 q (by simp)).2.1
      have hb := mul_le_mul_of_nonneg_left (slope_bounds hs (hx q (by simp)).1).2 hw
      have he : Real.exp (-(shift * b)) ≤ Real.exp (-(shift * (triangle cal.dayCount G k hk q.1 * τ o q.1))) :=
        Real.exp_le_exp.2 (neg_le_neg (mul_le_mul_of_nonneg_left (hx q (by simp)).2 hs.le))
      have := mul_le_mul_of_nonneg_left he (mul_nonneg hw (hx q (by simp)).1)
      simp only [List.map_cons, List.sum_cons] at ih ⊢
      nlinarith
  have hS : 0 ≤ (L.map fun q => triangle cal.dayCount G k hk q.1 * (τ o q.1 * (df q.1 * q.2))).sum := by
    refine List.sum_nonneg fun a ha => ?_
    obtain ⟨q, hq, rfl⟩ := List.mem_map.1 ha
    exact mul_nonneg (ht q.1).1 (mul_nonneg (hτ.nonneg (h0 q hq).1) (mul_nonneg (hpos q hq).le (h0 q hq).2.1))
  have he := Real.exp_pos (-(shift * b))
  refine ⟨by nlinarith [mul_nonneg hS he.le], ?_, by linarith, by linarith⟩
  rintro ⟨q, hq, hq1, hq2, hq3⟩
  have hq4 : 0 < triangle cal.dayCount G k hk q.1 * (τ o q.1 * (df q.1 * q.2)) :=
    mul_pos ((triangle_pos hτ' hk hinc).2 hq3) (mul_pos ((hτ.pos _ _).2 hq1) (mul_pos (hpos q hq) hq2))
  have hS' : 0 < (L.map fun q => triangle cal.dayCount G k hk q.1 * (τ o q.1 * (df q.1 * q.2))).sum := by
    refine hq4.trans_le (List.single_le_sum (fun a ha => ?_) _ (List.mem_map.2 ⟨q, hq, rfl⟩))
    obtain ⟨r, hr, rfl⟩ := List.mem_map.1 ha
    exact mul_nonneg (ht r.1).1 (mul_nonneg (hτ.nonneg (h0 r hr).1) (mul_nonneg (hpos r hr).le (h0 r hr).2.1))
  nlinarith [mul_pos hS' he]

end

end

/-- Hypotheses of C139 are met: flows of 1 and 2 after one and three years, buckets at 0, 2 and 4 years. -/
example : ∃ ds : List ℝ, bucketedDelta floatCal 0 false (.list 1) (some 0) none (some [0, 2, 4]) (1 / 100) exWorld =
    (.ok ds, exWorld) ∧ ds.length = 3 ∧ ∀ k (hk : k < ds.length), ds[k] < 0 := by
  obtain ⟨ds, h1, h2, h3⟩ := C139_bucket_duration (c := (flatZero floatCal none .default none 0 (5 / 100)).toRateCurve)
    (w := exWorld) (disc := 0) (same := false) (cal := floatCal) (o := 0) (p := .list 1) (G := [0, 2, 4]) (shift := 1 / 100)
    (b := 3) (grid := some [0, 2, 4]) goodDayCount_real goodDayCount_real rfl
    (fun s t => rfl) rfl (by simp [flatZero, irOf, dateCurveOf, DateCurve.origin]) (exPays rfl) (fun φ => exPays rfl)
    (df := fun t => Real.exp (-(5 / 100 * (t - 0)))) (fun q _ => exDf 0 q.1) rfl (by simp) (by norm_num) (by norm_num)
    (by simp)
  refine ⟨ds, h1, h2, fun k hk => (h3 k (h2 ▸ hk)).2.1 ?_⟩
  rw [h2] at hk
  simp only [List.length_cons, List.length_nil] at hk
  interval_cases k
  · exact ⟨(1, 1), by simp, by norm_num [InBucket]⟩
  · exact ⟨(1, 1), by simp, by norm_num [InBucket]⟩
  · exact ⟨(3, 2), by simp, by norm_num, by norm_num, by norm_num [InBucket], by simp⟩

/-- Hypotheses of `C139_empty` and `C139_local` are met: nothing is paid after five years. -/
example : ∃ ds : List ℝ, bucketedDelta floatCal 0 false (.list 1) (some 0) none (some [0, 2, 5, 7]) (1 / 100) exWorld =
    (.ok ds, exWorld) ∧ ds[3]? = some 0 := by
  obtain ⟨ds, h1, -, h3⟩ := C139_empty (c := (flatZero floatCal none .default none 0 (5 / 100)).toRateCurve)
    (w := exWorld) (disc := 0) (same := false) (cal := floatCal) (o := 0) (p := .list 1) (G := [0, 2, 5, 7]) (shift := 1 / 100)
    (grid := some [0, 2, 5, 7]) goodDayCount_real goodDayCount_real rfl
    (fun s t => rfl) rfl (by simp [flatZero, irOf, dateCurveOf, DateCurve.origin]) (exPays rfl) (fun φ => exPays rfl)
    (df := fun t => Real.exp (-(5 / 100 * (t - 0)))) (fun q _ => exDf 0 q.1) rfl (by simp) (by norm_num) (by norm_num)
  refine ⟨ds, h1, h3 3 (by simp) fun q hq => ?_⟩
  simp only [List.mem_cons, List.not_mem_nil, or_false] at hq
  rcases hq with rfl | rfl <;> norm_num [InBucket]

/-- Hypotheses of `C139_duration` are met. -/
example : ∃ z, basisPointValue floatCal 0 false (.list 1) (some 0) none (1 / 100) exWorld = (.ok z, exWorld) ∧
    -(Real.exp (-(5 / 100)) + 6 * Real.exp (-(15 / 100))) * (1 / 10000) ≤ z := by
  obtain ⟨z, h1, h2, -⟩ := C139_duration (c := (flatZero floatCal none .default none 0 (5 / 100)).toRateCurve)
    (w := exWorld) (disc := 0) (same := false) (cal := floatCal) (v := 0) (p := .list 1) (shift := 1 / 100)
    (b := 3) goodDayCount_real rfl
    (fun s t => rfl) rfl (by simp [flatZero, irOf, dateCurveOf, DateCurve.origin]) (exPays rfl) (exPays rfl)
    (df := fun t => Real.exp (-(5 / 100 * (t - 0)))) (fun q _ => exDf 0 q.1) (by norm_num)
    (by simp)
  refine ⟨z, h1, le_trans (le_of_eq ?_) h2⟩
  norm_num [timeValue]
  ring_nf

end Dcf
