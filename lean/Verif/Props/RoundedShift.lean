import Verif.Props.RoundedBuckets

/-!
# Basis point values of curves over dates in floating point arithmetic

C192: `get_basis_point_value` of flows at calendar dates on a zero rate curve of any shape, with a rounding after every operation.
-/

set_option linter.unusedSectionVars false
set_option linter.unusedSimpArgs false
set_option linter.unusedVariables false

namespace Dcf

open Spec

section
variable {p : ℕ} {rnd : ℝ → ℝ}

/-- The curve of one point answers with its value. -/
theorem parallel_spread (R : Rounding p rnd) (hp : 4 ≤ p) {o : ℤ} {shift T : ℝ} (hs : IsFloat p shift) (hT : 1500 * ((2 : ℝ) ^ (-(p : ℤ)) * T) ≤ 1) {x : ℤ}
    (hx : |((x - o : ℤ) : ℝ)| / 365.25 ≤ T) : Rounded.spreadCall rnd (some ([.cal o], [shift])) (.cal x) = .ok shift := by
  have hT0 : 0 ≤ T := (div_nonneg (abs_nonneg _) (by norm_num)).trans hx
  rcases le_or_gt x o with h | h
  · have := spread_left R hp hT (a := o) (y := shift) (pts := []) (by simp) (by simpa using hT0) (by simpa using hs) h
    simpa [Rounded.spreadCall, pyDate] using this
  · have := spread_right R hp hT (a := o) (h := o) (y := shift) (pts := []) (by simp) (by simpa using hT0) h hx
    simpa [Rounded.spreadCall, pyDate] using this

theorem fold_le (R : Rounding p rnd) {α : Type} (f g : α → ℝ) : ∀ (l : List α) {s t : ℝ}, s ≤ t → (∀ a ∈ l, f a ≤ g a) →
    (l.map f).foldl (fun s v => rnd (s + v)) s ≤ (l.map g).foldl (fun s v => rnd (s + v)) t
  | [], _, _, h, _ => h
  | a :: l, _, _, h, hl => fold_le R f g l (R.mono (add_le_add h (hl a (by simp)))) fun b hb => hl b (by simp [hb])

/-- Values with a higher spread are not higher. -/
theorem spread_value_le (R : Rounding p rnd) (hp : 4 ≤ p) {exp : ℝ → ℝ} (he : Monotone exp)
    {pts : List (ℤ × ℝ)} {o : ℤ} (hn : (pts.map Prod.fst).Nodup) (hne : pts ≠ []) (hf : ∀ a ∈ pts, IsFloat p a.2) {T : ℝ}
    (hT : 1500 * ((2 : ℝ) ^ (-(p : ℤ)) * T) ≤ 1) (hpts : ∀ a ∈ pts, |((a.1 - o : ℤ) : ℝ)| / 365.25 ≤ T) {flows : List (ℤ × ℝ)}
    (hfl : ∀ a ∈ flows, |((a.1 - o : ℤ) : ℝ)| / 365.25 ≤ T) (h0 : ∀ a ∈ flows, o ≤ a.1 ∧ 0 ≤ a.2) {g g' : Option (List (PyDate ℝ) × List ℝ)} {s s' : ℤ → ℝ}
    (hg : ∀ a ∈ flows, Rounded.spreadCall rnd g (.cal a.1) = .ok (s a.1)) (hg' : ∀ a ∈ flows, Rounded.spreadCall rnd g' (.cal a.1) = .ok (s' a.1))
    (hss : ∀ a ∈ flows, s a.1 ≤ s' a.1) :
    ∃ w w', Rounded.spreadValue rnd exp (.cal o) ((pts.map Prod.fst).map .cal) (pts.map Prod.snd) (flows.map fun a => (.cal a.1, a.2)) g = .ok w ∧
      Rounded.spreadValue rnd exp (.cal o) ((pts.map Prod.fst).map .cal) (pts.map Prod.snd) (flows.map fun a => (.cal a.1, a.2)) g' = .ok w' ∧ w' ≤ w := by
  obtain ⟨M, hM⟩ : ∃ M, ∀ a ∈ pts, |a.2| ≤ M := ⟨(pts.map fun a => |a.2|).sum, fun a ha =>
    List.single_le_sum (fun x hx => by obtain ⟨b, -, rfl⟩ := List.mem_map.1 hx; exact abs_nonneg _) _ (List.mem_map.2 ⟨a, ha, rfl⟩)⟩
  have hy : ∀ x : ℤ, (∃ a ∈ flows, a.1 = x) → ∃ z, Rounded.dateCall rnd (.cal o) ((pts.map Prod.fst).map .cal) (pts.map Prod.snd) (.cal x) = .ok z := by
    rintro x ⟨a, ha, rfl⟩
    obtain ⟨z, h, -⟩ := dateCall_err R hp hn hne hf hM hT hpts (hfl a ha)
    exact ⟨z, h⟩
  choose! y hy using hy
  have hd : ∀ {g : Option (List (PyDate ℝ) × List ℝ)} {s : ℤ → ℝ}, (∀ a ∈ flows, Rounded.spreadCall rnd g (.cal a.1) = .ok (s a.1)) → ∀ a ∈ flows,
      Rounded.spreadDiscount rnd exp (.cal o) ((pts.map Prod.fst).map .cal) (pts.map Prod.snd) g (.cal a.1) =
        .ok (if rnd (dayCal.dayCount o a.1) = 0 then 1 else exp (rnd (rnd (-1 * rnd (y a.1 + s a.1)) * rnd (dayCal.dayCount o a.1)))) := by
    intro g s hg a ha
    unfold Rounded.spreadDiscount
    rw [dayCount_cal, Py.ok_bind]
    by_cases h0 : rnd (dayCal.dayCount o a.1) = 0
    · rw [if_pos h0, if_pos h0]
    · rw [if_neg h0, if_neg h0]
      unfold Rounded.spreadRate
      rw [hg a ha, Py.ok_bind, hy a.1 ⟨a, ha, rfl⟩, Py.ok_bind, Py.ok_bind]
      rfl
  have hv : ∀ {g : Option (List (PyDate ℝ) × List ℝ)} {s : ℤ → ℝ}, (∀ a ∈ flows, Rounded.spreadCall rnd g (.cal a.1) = .ok (s a.1)) →
      Rounded.spreadValue rnd exp (.cal o) ((pts.map Prod.fst).map .cal) (pts.map Prod.snd) (flows.map fun a => (.cal a.1, a.2)) g =
        .ok (Rounded.sum rnd (flows.map fun a => rnd ((if rnd (dayCal.dayCount o a.1) = 0 then 1 else
          exp (rnd (rnd (-1 * rnd (y a.1 + s a.1)) * rnd (dayCal.dayCount o a.1)))) * a.2))) := by
    intro g s hg
    unfold Rounded.spreadValue
    rw [pyMap_map, pyMap_ok (g := fun a : ℤ × ℝ => rnd ((if rnd (dayCal.dayCount o a.1) = 0 then 1 else
      exp (rnd (rnd (-1 * rnd (y a.1 + s a.1)) * rnd (dayCal.dayCount o a.1)))) * a.2)) (fun a ha => by simp only [hd hg a ha, Py.ok_bind]), Py.ok_bind]
  refine ⟨_, _, hv hg, hv hg', fold_le R _ _ flows le_rfl fun a ha => R.mono (mul_le_mul_of_nonneg_right ?_ (h0 a ha).2)⟩
  by_cases h : rnd (dayCal.dayCount o a.1) = 0
  · rw [if_pos h, if_pos h]
  · rw [if_neg h, if_neg h]
    have ht : 0 ≤ rnd (dayCal.dayCount o a.1) := R.nonneg (by
      have := dayCal_le (o := o) (h0 a ha).1
      rwa [show dayCal.dayCount o o = 0 from goodDayCount_int.self o] at this)
    refine he (R.mono (mul_le_mul_of_nonneg_right (R.mono ?_) ht))
    have := R.mono (add_le_add_right (hss a ha) (y a.1))
    linarith

/-- C192: the basis point value of flows that are not negative is never positive, whatever the shift and without any tolerance. -/
theorem C192_sign (R : Rounding p rnd) (hp : 4 ≤ p) {exp : ℝ → ℝ} (he : Monotone exp)
    {pts : List (ℤ × ℝ)} {o : ℤ} (hn : (pts.map Prod.fst).Nodup) (hne : pts ≠ []) (hf : ∀ a ∈ pts, IsFloat p a.2) {T shift : ℝ}
    (hT : 1500 * ((2 : ℝ) ^ (-(p : ℤ)) * T) ≤ 1) (hpts : ∀ a ∈ pts, |((a.1 - o : ℤ) : ℝ)| / 365.25 ≤ T) {flows : List (ℤ × ℝ)}
    (hfl : ∀ a ∈ flows, |((a.1 - o : ℤ) : ℝ)| / 365.25 ≤ T) (h0 : ∀ a ∈ flows, o ≤ a.1 ∧ 0 ≤ a.2) (hs : IsFloat p shift) (hs0 : shift ≠ 0) :
    ∃ b, Rounded.basisPointValue rnd exp (.cal o) ((pts.map Prod.fst).map .cal) (pts.map Prod.snd) (flows.map fun a => (.cal a.1, a.2)) shift = .ok b ∧ b ≤ 0 := by
  have k0 : ∀ a ∈ flows, Rounded.spreadCall rnd none (.cal a.1) = .ok ((fun _ => 0 : ℤ → ℝ) a.1) := fun _ _ => rfl
  have k1 : ∀ a ∈ flows, Rounded.spreadCall rnd (some ([.cal o], [shift])) (.cal a.1) = .ok ((fun _ => shift : ℤ → ℝ) a.1) := fun a ha =>
    parallel_spread R hp hs hT (hfl a ha)
  have hc : 0 ≤ rnd (1 / 10000) := R.nonneg (by norm_num)
  have fin : ∀ pv sh, Rounded.basisPoint rnd pv sh shift = .ok (rnd (rnd (rnd (sh - pv) / shift) * rnd (1 / 10000))) := fun pv sh => by
    unfold Rounded.basisPoint Rounded.div
    rw [pyDiv_ok hs0, Py.map_ok, Py.ok_bind]
  rcases lt_or_gt_of_ne hs0 with h | h
  · obtain ⟨sh, pv, e1, e2, e3⟩ := spread_value_le R hp he hn hne hf hT hpts hfl h0 (s := fun _ => shift) (s' := fun _ => 0) k1 k0 fun _ _ => h.le
    refine ⟨_, by unfold Rounded.basisPointValue; rw [e2, Py.ok_bind, e1, Py.ok_bind, fin], ?_⟩
    exact R.nonpos (mul_nonpos_of_nonpos_of_nonneg (R.nonpos (div_nonpos_of_nonneg_of_nonpos (R.nonneg (by linarith)) h.le)) hc)
  · obtain ⟨pv, sh, e1, e2, e3⟩ := spread_value_le R hp he hn hne hf hT hpts hfl h0 (s := fun _ => 0) (s' := fun _ => shift) k0 k1 fun _ _ => h.le
    refine ⟨_, by unfold Rounded.basisPointValue; rw [e1, Py.ok_bind, e2, Py.ok_bind, fin], ?_⟩
    exact R.nonpos (mul_nonpos_of_nonpos_of_nonneg (R.nonpos (div_nonpos_of_nonpos_of_nonneg (R.nonpos (by linarith)) h.le)) hc)

/-- Between its first two dates a spread that starts at zero is on the side of its second value, exactly. -/
theorem spread_rise (R : Rounding p rnd) (hp : 4 ≤ p) {a m : ℤ} {y T : ℝ} (hT : 1500 * ((2 : ℝ) ^ (-(p : ℤ)) * T) ≤ 1) {pts : List (ℤ × ℝ)}
    (hs : (((a, 0) :: (m, y) :: pts).map Prod.fst).Pairwise (· < ·)) (hpts : ∀ b ∈ (a, 0) :: (m, y) :: pts, |((b.1 - a : ℤ) : ℝ)| / 365.25 ≤ T)
    {x : ℤ} (hx : a < x) (hxm : x ≤ m) (hxT : |((x - a : ℤ) : ℝ)| / 365.25 ≤ T) :
    ∃ z, Rounded.dateCall rnd (.cal a) ((((a, 0) :: (m, y) :: pts).map Prod.fst).map .cal) (((a, 0) :: (m, y) :: pts).map Prod.snd) (.cal x) = .ok z ∧
      (0 ≤ y → 0 ≤ z) ∧ (y ≤ 0 → z ≤ 0) := by
  have hτ : GoodDayCount dayCal.dayCount := goodDayCount_int
  have hl := rndPts_strict R hp hT hs hpts
  have hn : ((rndPts rnd a ((a, 0) :: (m, y) :: pts)).map Prod.fst).Nodup := by
    unfold StrictX at hl
    rw [List.Nodup, List.pairwise_map]; exact hl.imp fun h => h.ne
  have h0 : rnd (dayCal.dayCount a a) = 0 := by rw [hτ.self, R.zero]
  have hx0 : 0 < rnd (dayCal.dayCount a x) := by
    obtain ⟨s, t, h1, h2, h3⟩ := C172_separates R hp hx hT (hpts (a, 0) (by simp)) hxT
    rw [dayCount_cal] at h1 h2
    rw [← Except.ok.inj h1, ← Except.ok.inj h2, h0] at h3
    exact h3
  have hx1 : rnd (dayCal.dayCount a x) ≤ rnd (dayCal.dayCount a m) := R.mono (dayCal_le hxm)
  have e : rndPts rnd a ((a, 0) :: (m, y) :: pts) = (0, 0) :: (rnd (dayCal.dayCount a m), y) :: rndPts rnd a pts := by simp [rndPts, h0]
  rw [dateCall_cal hn, sortPairs_eq_self hl]
  rw [e] at hl hn ⊢
  have hl' := (List.pairwise_cons.1 hl).2
  have hle : ∀ b ∈ (rnd (dayCal.dayCount a m), y) :: rndPts rnd a pts, rnd (dayCal.dayCount a m) ≤ b.1 := by
    intro b hb
    rcases List.mem_cons.1 hb with rfl | hb
    · exact le_rfl
    · exact (List.rel_of_pairwise_cons hl' hb).le
  have hnb : Spec.Neighbours ((0, 0) :: (rnd (dayCal.dayCount a m), y) :: rndPts rnd a pts) ((0 : ℝ), (0 : ℝ)) (rnd (dayCal.dayCount a m), y) := by
    refine ⟨by simp, by simp, hx0.trans_le hx1, fun r hr => ?_⟩
    rcases List.mem_cons.1 hr with rfl | hr
    · exact .inl le_rfl
    · exact .inr (hle r hr)
  have hlin := roundedLinear R hp hn hnb hx0 hx1
  rw [Pts_new_eq, sortPairs_eq_self hl] at hlin
  unfold Rounded.linearSchemeCall
  rw [first_xs (List.cons_ne_nil _ _), Py.ok_bind, List.head_cons, if_neg (not_lt.2 hx0.le), last_xs (List.cons_ne_nil _ _), Py.ok_bind,
    if_neg (not_lt.2 (hx1.trans (by rw [List.getLast_cons (List.cons_ne_nil _ _)]; exact hle _ (List.getLast_mem _)))), hlin]
  have h2 : rnd (0 - rnd (dayCal.dayCount a m)) ≤ 0 := R.nonpos (by linarith)
  have h3 : rnd (0 - rnd (dayCal.dayCount a x)) ≤ 0 := R.nonpos (by linarith)
  refine ⟨_, rfl, fun hy => ?_, fun hy => ?_⟩
  · refine R.nonneg ?_
    rw [zero_add]
    exact R.nonneg (div_nonneg_of_nonpos (R.nonpos (mul_nonpos_of_nonneg_of_nonpos (R.nonneg (by simpa using hy)) h3)) h2)
  · refine R.nonpos ?_
    rw [zero_add]
    exact R.nonpos (div_nonpos_of_nonneg_of_nonpos (R.nonneg (mul_nonneg_of_nonpos_of_nonpos (R.nonpos (by simpa using hy)) h3)) h2)

/-- C191: the delta of flows that are not negative is never positive, whatever the shift and without any tolerance, if no flow is on the falling side
of the bucket: every flow is up to the grid date or after its right neighbour, or there is no right neighbour. -/
theorem C191_sign (R : Rounding p rnd) (hp : 4 ≤ p) {exp : ℝ → ℝ} (he : Monotone exp) {v : ℝ} (hv : ∀ x, |exp x - Real.exp x| ≤ v * Real.exp x)
    {pts : List (ℤ × ℝ)} {o : ℤ} (hn : (pts.map Prod.fst).Nodup) (hne : pts ≠ []) (hf : ∀ a ∈ pts, IsFloat p a.2) {T shift : ℝ}
    (hT : 1500 * ((2 : ℝ) ^ (-(p : ℤ)) * T) ≤ 1) (hpts : ∀ a ∈ pts, |((a.1 - o : ℤ) : ℝ)| / 365.25 ≤ T) {flows : List (ℤ × ℝ)}
    (hfl : ∀ a ∈ flows, |((a.1 - o : ℤ) : ℝ)| / 365.25 ≤ T) (h0 : ∀ a ∈ flows, o ≤ a.1 ∧ 0 ≤ a.2) {G : List ℤ} (hG : G ≠ []) (hinc : G.Pairwise (· < ·))
    (hGT : ∀ a ∈ G, ∀ b ∈ G, |((a - b : ℤ) : ℝ)| / 365.25 ≤ T) (hfG : ∀ a ∈ flows, ∀ b ∈ G, |((a.1 - b : ℤ) : ℝ)| / 365.25 ≤ T)
    (hs : IsFloat p shift) (hs0 : shift ≠ 0) :
    ∃ ds, Rounded.bucketedDelta rnd exp (.cal o) ((pts.map Prod.fst).map .cal) (pts.map Prod.snd) (flows.map fun a => (.cal a.1, a.2)) (G.map .cal) shift = .ok ds ∧
      ds.length = G.length ∧ ∀ k (hk : k < G.length), (∀ a ∈ flows, a.1 ≤ G[k] ∨ ∀ h, G[k + 1]? = some h → h < a.1) → ∃ d, ds[k]? = some d ∧ d ≤ 0 := by
  obtain ⟨M, hM⟩ : ∃ M, ∀ a ∈ pts, |a.2| ≤ M := ⟨(pts.map fun a => |a.2|).sum, fun a ha =>
    List.single_le_sum (fun x hx => by obtain ⟨b, -, rfl⟩ := List.mem_map.1 hx; exact abs_nonneg _) _ (List.mem_map.2 ⟨a, ha, rfl⟩)⟩
  obtain ⟨pv, ds, h1, -, h2, hl, h3⟩ := bucket_core R hp hv hn hne hf hM hT hpts hfl hG hinc hGT hfG hs hs0
  refine ⟨ds, h2, hl, fun k hk hout => ⟨_, List.getElem?_eq_getElem (hl ▸ hk), ?_⟩⟩
  obtain ⟨sh, k1, -, k3⟩ := h3 k hk
  obtain ⟨c1, c2, c3⟩ := bucketPts_cases shift hk hinc
  have hz : ∀ x : ℤ, (∃ a ∈ flows, a.1 = x) → ∃ z, Rounded.spreadCall rnd (some (((bucketPts shift none G k hk).map Prod.fst).map .cal, (bucketPts shift none G k hk).map Prod.snd)) (.cal x) = .ok z ∧
      (0 ≤ shift → 0 ≤ z) ∧ (shift ≤ 0 → z ≤ 0) := by
    rintro x ⟨a, ha, rfl⟩
    have hfs : ∀ b ∈ bucketPts shift none G k hk, IsFloat p b.2 := fun b hb => by rcases (c2 b hb).2 with h | h <;> rw [h]; exacts [IsFloat.zero, hs]
    rcases le_or_gt a.1 G[k] with hle | hgt
    · rcases k with _ | j
      · have e : bucketPts shift none G 0 hk = (G[0], shift) :: (G[0 + 1]?.map fun h => (h, (0 : ℝ))).toList := by simp [bucketPts]
        rw [e] at c1 c2 hfs ⊢
        have := spread_left R hp hT c1 (fun b hb => hGT _ (c2 b hb).1 _ (List.getElem_mem _)) hfs hle
        exact ⟨shift, by simpa [Rounded.spreadCall, pyDate] using this, id, id⟩
      · have hj : j < G.length := by omega
        have e : bucketPts shift none G (j + 1) hk = (G[j], 0) :: (G[j + 1], shift) :: (G[j + 1 + 1]?.map fun h => (h, (0 : ℝ))).toList := by
          simp [bucketPts, List.getElem?_eq_getElem hj]
        rw [e] at c1 c2 hfs ⊢
        have hd := fun b hb => hGT _ (c2 b hb).1 _ (List.getElem_mem hj)
        rcases le_or_gt a.1 G[j] with h | h
        · have := spread_left R hp hT c1 hd hfs h
          exact ⟨0, by simpa [Rounded.spreadCall, pyDate] using this, fun _ => le_rfl, fun _ => le_rfl⟩
        · obtain ⟨z, g1, g2⟩ := spread_rise R hp hT c1 hd h hle (hfG a ha _ (List.getElem_mem hj))
          exact ⟨z, by simpa [Rounded.spreadCall, pyDate] using g1, g2⟩
    · have hr := (hout a ha).resolve_left (not_le.2 hgt)
      obtain ⟨B, h, w, e, hw, hh⟩ : ∃ B h w, bucketPts shift none G k hk = B ++ [(h, w)] ∧ (w = 0 ∨ w = shift) ∧ h < a.1 := by
        rcases hq : G[k + 1]? with _ | h
        · exact ⟨((if k = 0 then none else G[k - 1]?).map fun l => (l, (0 : ℝ))).toList, G[k], shift, by simp [bucketPts, hq], .inr rfl, hgt⟩
        · exact ⟨((if k = 0 then none else G[k - 1]?).map fun l => (l, (0 : ℝ))).toList ++ [(G[k], shift)], h, 0, by simp [bucketPts, hq], .inl rfl, hr h hq⟩
      rw [e] at c1 c2 ⊢
      refine ⟨w, ?_, by rcases hw with rfl | rfl <;> simp, by rcases hw with rfl | rfl <;> simp⟩
      cases hB : B ++ [(h, w)] with
      | nil => exact absurd hB (by simp)
      | cons b r =>
        have hb : b.1 ∈ G := (c2 b (by rw [hB]; simp)).1
        have := spread_right R hp hT (a := b.1) c1 (fun q hq => hGT _ (c2 q hq).1 _ hb) hh (hfG a ha _ hb)
        rw [hB] at this
        simpa [Rounded.spreadCall, pyDate] using this
  choose! s hz hpos hneg using hz
  have k0 : ∀ a ∈ flows, Rounded.spreadCall rnd none (.cal a.1) = .ok ((fun _ => 0 : ℤ → ℝ) a.1) := fun _ _ => rfl
  have hc : 0 ≤ rnd (1 / 10000) := R.nonneg (by norm_num)
  have fin : Rounded.basisPoint rnd pv sh shift = .ok (rnd (rnd (rnd (sh - pv) / shift) * rnd (1 / 10000))) := by
    unfold Rounded.basisPoint Rounded.div
    rw [pyDiv_ok hs0, Py.map_ok, Py.ok_bind]
  rw [fin] at k3
  rw [← Except.ok.inj k3]
  rcases lt_or_gt_of_ne hs0 with h | h
  · obtain ⟨w, w', e1, e2, e3⟩ := spread_value_le R hp he hn hne hf hT hpts hfl h0 (s := s) (s' := fun _ => 0) (fun a ha => hz _ ⟨a, ha, rfl⟩) k0
      fun a ha => hneg _ ⟨a, ha, rfl⟩ h.le
    rw [k1] at e1; rw [h1] at e2
    obtain rfl := Except.ok.inj e1; obtain rfl := Except.ok.inj e2
    exact R.nonpos (mul_nonpos_of_nonpos_of_nonneg (R.nonpos (div_nonpos_of_nonneg_of_nonpos (R.nonneg (by linarith)) h.le)) hc)
  · obtain ⟨w, w', e1, e2, e3⟩ := spread_value_le R hp he hn hne hf hT hpts hfl h0 (s := fun _ => 0) (s' := s) k0 (fun a ha => hz _ ⟨a, ha, rfl⟩)
      fun a ha => hpos _ ⟨a, ha, rfl⟩ h.le
    rw [h1] at e1; rw [k1] at e2
    obtain rfl := Except.ok.inj e1; obtain rfl := Except.ok.inj e2
    exact R.nonpos (mul_nonpos_of_nonpos_of_nonneg (R.nonpos (div_nonpos_of_nonpos_of_nonneg (R.nonpos (by linarith)) h.le)) hc)

/-- C192: flows at the origin of the curve have a basis point value of exactly zero. -/
theorem C192_today {exp : ℝ → ℝ} (R : Rounding p rnd) (origin : ℤ) (dates : List (PyDate ℝ)) (data : List ℝ) {flows : List (ℤ × ℝ)} (h : ∀ a ∈ flows, a.1 = origin) {shift : ℝ} (hs0 : shift ≠ 0) :
    Rounded.basisPointValue rnd exp (.cal origin) dates data (flows.map fun a => (.cal a.1, a.2)) shift = .ok 0 := by
  have hd : ∀ g, ∀ a ∈ flows, Rounded.spreadDiscount rnd exp (.cal origin) dates data g (.cal a.1) = .ok 1 := fun g a ha => by
    unfold Rounded.spreadDiscount
    rw [h a ha, dayCount_cal, Py.ok_bind, show dayCal.dayCount origin origin = 0 from goodDayCount_int.self origin, R.zero, if_pos rfl]
  have hv : ∀ g, Rounded.spreadValue rnd exp (.cal origin) dates data (flows.map fun a => (.cal a.1, a.2)) g = .ok (Rounded.sum rnd (flows.map fun a => rnd (1 * a.2))) := fun g => by
    unfold Rounded.spreadValue
    rw [pyMap_map, pyMap_ok (g := fun a : ℤ × ℝ => rnd (1 * a.2)) (fun a ha => by simp only [hd g a ha, Py.ok_bind]), Py.ok_bind]
  unfold Rounded.basisPointValue
  rw [hv, Py.ok_bind, hv, Py.ok_bind]
  simp [Rounded.basisPoint, Rounded.div, pyDiv, hs0, R.zero]

/-- C192: the basis point value is computed up to a bound, relative to the value of the absolute flows over the shift. -/
theorem C192_error (R : Rounding p rnd) (hp : 4 ≤ p) {exp : ℝ → ℝ} {v : ℝ} (hv : ∀ x, |exp x - Real.exp x| ≤ v * Real.exp x)
    {pts : List (ℤ × ℝ)} {o? : Option ℤ} {o : ℤ} {tenor : Option ℤ} (hn : (pts.map Prod.fst).Nodup) (hne : pts ≠ [])
    (ho : o?.or (pts.map Prod.fst).head? = some o) (hf : ∀ a ∈ pts, IsFloat p a.2) {M T shift : ℝ} (hM : ∀ a ∈ pts, |a.2| ≤ M)
    (hT : 1500 * ((2 : ℝ) ^ (-(p : ℤ)) * T) ≤ 1) (hpts : ∀ a ∈ pts, |((a.1 - o : ℤ) : ℝ)| / 365.25 ≤ T) {flows : List (ℤ × ℝ)}
    (hfl : ∀ a ∈ flows, |((a.1 - o : ℤ) : ℝ)| / 365.25 ≤ T) (hs : IsFloat p shift) (hs0 : shift ≠ 0) {Z : IRCurve ℤ ℤ}
    (hZ : IRCurve.new dayCal .zero (pts.map Prod.fst) (pts.map Prod.snd) none o? .default tenor = .ok Z) {w : World ℤ ℤ} {disc : ℕ} {same : Bool}
    (hw : w.curves disc = Z.obj) {P : Product ℤ} (hp0 : Pays dayCal w o P flows) (hp1 : Pays dayCal (w.bumped [disc] shift) o P flows) :
    ∃ (df : ℤ → ℝ) (d e : ℝ), (∀ x, Z.discount dayCal x = .ok (df x)) ∧
      basisPointValue dayCal disc same P (some o) none shift w = (.ok d, w) ∧
      Rounded.basisPointValue rnd exp (.cal o) ((pts.map Prod.fst).map .cal) (pts.map Prod.snd) (flows.map fun a => (.cal a.1, a.2)) shift = .ok e ∧
      |e - d| ≤ (5 * (2 : ℝ) ^ (-(p : ℤ)) + 3 * ((1 + v) * Real.exp ((25 + 6611 * T) * T * (2 : ℝ) ^ (-(p : ℤ)) * (M + |shift|)) *
          (1 + (2 : ℝ) ^ (-(p : ℤ))) ^ (flows.length + 1) - 1)) * (Real.exp (|shift| * T) * (flows.map fun a => |df a.1 * a.2|).sum) / |shift| * (1 / 10000) := by
  have hτ : GoodDayCount dayCal.dayCount := goodDayCount_int
  have hT0 : 0 ≤ T := (div_nonneg (abs_nonneg _) (by norm_num)).trans (hpts _ (List.head_mem hne))
  have hM0 : 0 ≤ M := (abs_nonneg _).trans (hM _ (List.head_mem hne))
  have hu0 : 0 ≤ (2 : ℝ) ^ (-(p : ℤ)) := ulp_nonneg
  have hv0 : 0 ≤ v := by
    have := (abs_nonneg _).trans (hv 0)
    simpa using this
  rw [IRCurve_new_eq dayCal (dc := .default) hn (by simp [IRClass.dflt, linearScheme, FuncSpec.isLog, Kind.isLog]) ho trivial hτ] at hZ
  obtain rfl := Except.ok.inj hZ
  have ha := zero_answers (cal := dayCal) (dc := .default) (tenor := tenor) hn hne ho trivial hτ
  obtain ⟨df, -, e1, e2, e3⟩ := C28_zero ha rfl
  have hdf : ∀ x, df o x = bucketFactor o pts (fun _ => 0) x := fun x => by
    rw [e1, bucketFactor]
    congr 1
    have h0 : dayCal.dayCount o o = 0 := hτ.self o
    show linVal dayCal.dayCount o pts o * dayCal.dayCount o o - linVal dayCal.dayCount o pts x * dayCal.dayCount o x = _
    rw [h0]
    ring
  have hfac : ∀ q ∈ flows, (w.curves disc).discountFactor dayCal same o q.1 = .ok (bucketFactor o pts (fun _ => 0) q.1) := fun q _ => by
    rw [hw, ← hdf]
    exact e2 same o q.1 fun _ => rfl
  have hd := C61_zero (cal := dayCal) (same := same) (shift := shift) (τ := dayCal.dayCount) hτ (hw.trans rfl)
    (irOf_dayCount dayCal (dc := .default) trivial) rfl (by rw [show (irOf dayCal o o? DayCountArg.default none IRClass.zero tenor pts).toRateCurve.base.origin = some o from ha.origin]; simp) hp0 hp1 hfac hs0
  obtain ⟨pv, p1, p2⟩ := spread_value R hp hv hn hne hf hM hT hpts hfl (spread := none) (σ := fun _ => 0) (S := |shift|)
    (fun a _ => ⟨by simp, 0, rfl, by rw [sub_self, abs_zero]; positivity⟩) (abs_nonneg _)
  obtain ⟨sh, s1, s2⟩ := spread_value R hp hv hn hne hf hM hT hpts hfl (spread := some ([.cal o], [shift])) (σ := fun _ => shift) (S := |shift|)
    (fun a ha => ⟨le_rfl, shift, parallel_spread R hp hs hT (hfl a ha), by rw [sub_self, abs_zero]; positivity⟩) (abs_nonneg _)
  change |pv - (flows.map fun a => bucketFactor o pts (fun _ => 0) a.1 * a.2).sum| ≤ _ * (flows.map fun a => |bucketFactor o pts (fun _ => 0) a.1 * a.2|).sum at p2
  change |sh - (flows.map fun a => bucketFactor o pts (fun _ => shift) a.1 * a.2).sum| ≤ _ * (flows.map fun a => |bucketFactor o pts (fun _ => shift) a.1 * a.2|).sum at s2
  set A := (1 + v) * Real.exp ((25 + 6611 * T) * T * (2 : ℝ) ^ (-(p : ℤ)) * (M + |shift|)) * (1 + (2 : ℝ) ^ (-(p : ℤ))) ^ (flows.length + 1) with hA
  have hA1 : 1 ≤ A := one_le_mul_of_one_le_of_one_le (one_le_mul_of_one_le_of_one_le (by linarith) (Real.one_le_exp (by positivity)))
    (one_le_pow₀ (by linarith))
  set E := Real.exp (|shift| * T) with hE
  have hE1 : 1 ≤ E := Real.one_le_exp (by positivity)
  have hg : ∀ a ∈ flows, 0 < Real.exp (-(shift * dayCal.dayCount o a.1)) ∧ Real.exp (-(shift * dayCal.dayCount o a.1)) ≤ E := fun a ha => by
    refine ⟨Real.exp_pos _, Real.exp_le_exp.2 ((neg_le_abs _).trans ?_)⟩
    have h := hfl a ha
    rw [← dayCal_abs] at h
    rw [abs_mul]
    exact mul_le_mul_of_nonneg_left h (abs_nonneg _)
  obtain ⟨f1, f2⟩ := sum_factors hE1 flows (fun a => bucketFactor o pts (fun _ => 0) a.1 * a.2) _ hg
  have hSH : ∀ a : ℤ × ℝ, bucketFactor o pts (fun _ => shift) a.1 * a.2 =
      bucketFactor o pts (fun _ => 0) a.1 * a.2 * Real.exp (-(shift * dayCal.dayCount o a.1)) := fun a => by
    rw [bucketFactor_shift]; ring
  simp only [hSH] at s2
  have hN0 : 0 ≤ (flows.map fun a => |bucketFactor o pts (fun _ => 0) a.1 * a.2|).sum :=
    List.sum_nonneg fun x hx => by obtain ⟨b, -, rfl⟩ := List.mem_map.1 hx; exact abs_nonneg _
  rw [sum_slope shift flows (fun a => bucketFactor o pts (fun _ => 0) a.1 * a.2)] at hd
  obtain ⟨b, b1, b2⟩ := C174_basis_point R hp (ε := (A - 1) * (E * (flows.map fun a => |bucketFactor o pts (fun _ => 0) a.1 * a.2|).sum)) hs0
    (p2.trans (mul_le_mul_of_nonneg_left (le_mul_of_one_le_left hN0 hE1) (by linarith)))
    (s2.trans (mul_le_mul_of_nonneg_left f2 (by linarith)))
  refine ⟨df o, _, b, e3, hd, by unfold Rounded.basisPointValue; rw [p1, Py.ok_bind, s1, Py.ok_bind, b1], b2.trans ?_⟩
  simp only [hdf]
  gcongr
  nlinarith [mul_le_mul_of_nonneg_left f1 (by positivity : (0 : ℝ) ≤ 5 * (2 : ℝ) ^ (-(p : ℤ)))]

/-- The value of flows scaled by a factor the rounding commutes with. -/
theorem spreadValue_scale {c : ℝ} (hc : ∀ x, rnd (c * x) = c * rnd x) (exp : ℝ → ℝ) (origin : PyDate ℝ) (dates : List (PyDate ℝ)) (data : List ℝ)
    (flows : List (PyDate ℝ × ℝ)) (g : Option (List (PyDate ℝ) × List ℝ)) :
    Rounded.spreadValue rnd exp origin dates data (flows.map fun a => (a.1, c * a.2)) g =
      (fun x => c * x) <$> Rounded.spreadValue rnd exp origin dates data flows g := by
  have hsum : ∀ (l : List ℝ) (s : ℝ), (l.map fun x => c * x).foldl (fun s v => rnd (s + v)) (c * s) = c * l.foldl (fun s v => rnd (s + v)) s := by
    intro l
    induction l with
    | nil => intro s; rfl
    | cons a l ih => intro s; rw [List.map_cons, List.foldl_cons, List.foldl_cons, ← mul_add, hc, ih]
  unfold Rounded.spreadValue
  have hF : ∀ a : PyDate ℝ × ℝ, (do
      let df ← Rounded.spreadDiscount rnd exp origin dates data g a.1
      .ok (rnd (df * (c * a.2))) : Py ℝ) = (fun x => c * x) <$> (do
      let df ← Rounded.spreadDiscount rnd exp origin dates data g a.1
      .ok (rnd (df * a.2)) : Py ℝ) := fun a => by
    cases Rounded.spreadDiscount rnd exp origin dates data g a.1 with
    | error e => rfl
    | ok d =>
      rw [Py.ok_bind, Py.ok_bind, Py.map_ok, ← hc]
      congr 2
      ring
  rw [pyMap_map]
  simp only [hF]
  rw [pyMap_fmap]
  cases pyMap (fun f : PyDate ℝ × ℝ => (do
      let df ← Rounded.spreadDiscount rnd exp origin dates data g f.1
      .ok (rnd (df * f.2)) : Py ℝ)) flows with
  | error e => rfl
  | ok l =>
    have := hsum l 0
    rw [mul_zero] at this
    rw [Py.map_ok, Py.ok_bind, Py.ok_bind, Py.map_ok, Rounded.sum, Rounded.sum, this]

theorem basisPoint_scale {c : ℝ} (hc : ∀ x, rnd (c * x) = c * rnd x) (pv sh shift : ℝ) :
    Rounded.basisPoint rnd (c * pv) (c * sh) shift = (fun x => c * x) <$> Rounded.basisPoint rnd pv sh shift := by
  unfold Rounded.basisPoint Rounded.div pyDiv
  rw [← mul_sub, hc]
  by_cases h : shift = 0
  · rw [if_pos h, if_pos h]; rfl
  · rw [if_neg h, if_neg h]
    simp only [Py.map_ok, Py.ok_bind]
    rw [mul_div_assoc, hc, mul_assoc, hc]

/-- C192: flows scaled by a factor the rounding commutes with have the scaled basis point value and the scaled bucketed deltas, without any tolerance. -/
theorem C192_scale {c : ℝ} (hc : ∀ x, rnd (c * x) = c * rnd x) (exp : ℝ → ℝ) (origin : PyDate ℝ) (dates : List (PyDate ℝ)) (data : List ℝ)
    (flows : List (PyDate ℝ × ℝ)) (grid : List (PyDate ℝ)) (shift : ℝ) :
    Rounded.basisPointValue rnd exp origin dates data (flows.map fun a => (a.1, c * a.2)) shift =
      (fun x => c * x) <$> Rounded.basisPointValue rnd exp origin dates data flows shift ∧
    Rounded.bucketedDelta rnd exp origin dates data (flows.map fun a => (a.1, c * a.2)) grid shift =
      List.map (fun x => c * x) <$> Rounded.bucketedDelta rnd exp origin dates data flows grid shift := by
  unfold Rounded.basisPointValue Rounded.bucketedDelta
  simp only [spreadValue_scale hc]
  cases Rounded.spreadValue rnd exp origin dates data flows none with
  | error e => exact ⟨rfl, rfl⟩
  | ok pv =>
    have hF : ∀ g, (do
        let sh ← (fun x => c * x) <$> Rounded.spreadValue rnd exp origin dates data flows g
        Rounded.basisPoint rnd (c * pv) sh shift : Py ℝ) = (fun x => c * x) <$> (do
        let sh ← Rounded.spreadValue rnd exp origin dates data flows g
        Rounded.basisPoint rnd pv sh shift : Py ℝ) := fun g => by
      cases Rounded.spreadValue rnd exp origin dates data flows g with
      | error e => rfl
      | ok sh => rw [Py.map_ok, Py.ok_bind, Py.ok_bind, basisPoint_scale hc]
    constructor
    · rw [Py.map_ok, Py.ok_bind, Py.ok_bind, hF]
    · rw [Py.map_ok, Py.ok_bind, Py.ok_bind]
      cases bucketShifts shift grid with
      | error e => rfl
      | ok gs =>
        rw [Py.ok_bind, Py.ok_bind]
        simp only [hF]
        exact pyMap_fmap _ _ gs

/-- C192: with a symmetric rounding the other side of a deal has the opposite basis point value and bucketed deltas. -/
theorem C192_opposite (hs : Symmetric rnd) (exp : ℝ → ℝ) (origin : PyDate ℝ) (dates : List (PyDate ℝ)) (data : List ℝ)
    (flows : List (PyDate ℝ × ℝ)) (grid : List (PyDate ℝ)) (shift : ℝ) :
    Rounded.basisPointValue rnd exp origin dates data (flows.map fun a => (a.1, -a.2)) shift =
      (fun x => -x) <$> Rounded.basisPointValue rnd exp origin dates data flows shift ∧
    Rounded.bucketedDelta rnd exp origin dates data (flows.map fun a => (a.1, -a.2)) grid shift =
      List.map (fun x => -x) <$> Rounded.bucketedDelta rnd exp origin dates data flows grid shift := by
  have := C192_scale (rnd := rnd) (c := -1) (fun x => by rw [neg_one_mul, neg_one_mul, hs]) exp origin dates data flows grid shift
  simpa only [neg_one_mul] using this

/-- Without rounding a curve over dates answers as in exact arithmetic. -/
theorem date_unrounded {pts : List (ℤ × ℝ)} {o : ℤ} (hn : (pts.map Prod.fst).Nodup) (hne : pts ≠ []) (x : ℤ) :
    Rounded.dateCall id (.cal o) ((pts.map Prod.fst).map .cal) (pts.map Prod.snd) (.cal x) = .ok (linVal dayCal.dayCount o pts x) := by
  have hτ : GoodDayCount dayCal.dayCount := goodDayCount_int
  have hp : rndPts id o pts = timePts dayCal.dayCount o pts := by simp [rndPts, timePts]
  have hn' : ((rndPts id o pts).map Prod.fst).Nodup := by rw [hp]; exact timePts_nodup hτ o hn
  have htne : timePts dayCal.dayCount o pts ≠ [] := by simpa [timePts] using hne
  rw [dateCall_cal hn', hp, ← Pts_new_eq]
  exact linearScheme_unrounded (timePts_nodup hτ o hn) htne _

theorem bucket_unrounded (shift : ℝ) {G : List ℤ} (hinc : G.Pairwise (· < ·)) {k : ℕ} (hk : k < G.length) (x : ℤ) :
    Rounded.spreadCall id (some (((bucketPts shift none G k hk).map Prod.fst).map .cal, (bucketPts shift none G k hk).map Prod.snd)) (.cal x) =
      .ok (shift * triangle dayCal.dayCount G k hk x) := by
  have hτ : GoodDayCount dayCal.dayCount := goodDayCount_int
  obtain ⟨c1, c2, c3⟩ := bucketPts_cases shift hk hinc
  have hcurve := hatGrids_curves (cal := dayCal) hτ shift G none (by simpa using hinc)
  have hcurve' : CurveIs dayCal (splitPts (bucketPts shift none G k hk)) (hat dayCal.dayCount shift (if k = 0 then none else G[k - 1]?) G[k] G[k + 1]?) := by
    have h1 := hatGrids_get shift (lo := none) hk
    have h2 := hats_get dayCal.dayCount shift (lo := none) hk
    obtain ⟨l1, e1⟩ := List.getElem?_eq_some_iff.1 h1
    obtain ⟨l2, e2⟩ := List.getElem?_eq_some_iff.1 h2
    have := (List.forall₂_iff_get.1 hcurve).2 k (by simpa using l1) l2
    simpa [e1, e2] using this
  generalize hb : bucketPts shift none G k hk = B at *
  obtain ⟨⟨a, y⟩, rest, rfl⟩ : ∃ b r, B = b :: r := List.exists_cons_of_ne_nil c3
  obtain ⟨c, Z, h1, -, h2⟩ := C172_unrounded (pts := (a, y) :: rest) (o? := none) (o := a) (tenor := none) (c1.imp fun h => h.ne) c3 rfl
  obtain ⟨S, k1, k2⟩ := hcurve'
  rw [splitPts, h1] at k1
  obtain rfl := Except.ok.inj k1
  have h3 := (h2 x).1
  rw [k2, hat_scale, date_unrounded (c1.imp fun h => h.ne) c3, Py.map_ok] at h3
  have h4 := Option.some.inj (Except.ok.inj h3)
  have h5 := date_unrounded (o := a) (c1.imp fun h => h.ne) c3 x
  rw [← h4] at h5
  simpa [Rounded.spreadCall, pyDate, triangle] using h5

theorem value_unrounded {pts : List (ℤ × ℝ)} {o : ℤ} (hn : (pts.map Prod.fst).Nodup) (hne : pts ≠ []) (flows : List (ℤ × ℝ))
    {g : Option (List (PyDate ℝ) × List ℝ)} {σ : ℤ → ℝ} (hg : ∀ x, Rounded.spreadCall id g (.cal x) = .ok (σ x)) :
    Rounded.spreadValue id Real.exp (.cal o) ((pts.map Prod.fst).map .cal) (pts.map Prod.snd) (flows.map fun a => (.cal a.1, a.2)) g =
      .ok (flows.map fun a => bucketFactor o pts σ a.1 * a.2).sum := by
  have hd : ∀ x : ℤ, Rounded.spreadDiscount id Real.exp (.cal o) ((pts.map Prod.fst).map .cal) (pts.map Prod.snd) g (.cal x) = .ok (bucketFactor o pts σ x) := fun x => by
    unfold Rounded.spreadDiscount
    rw [dayCount_cal, Py.ok_bind, bucketFactor]
    by_cases h0 : id (dayCal.dayCount o x) = 0
    · rw [if_pos h0, show dayCal.dayCount o x = 0 from h0, mul_zero, neg_zero, Real.exp_zero]
    · rw [if_neg h0]
      unfold Rounded.spreadRate
      rw [hg, Py.ok_bind, date_unrounded hn hne, Py.ok_bind, Py.ok_bind]
      show Except.ok (Real.exp (-1 * (linVal dayCal.dayCount o pts x + σ x) * dayCal.dayCount o x)) = _
      congr 2
      ring
  unfold Rounded.spreadValue
  rw [pyMap_map, pyMap_ok (g := fun a : ℤ × ℝ => bucketFactor o pts σ a.1 * a.2) (fun a ha => by simp only [hd, Py.ok_bind]; rfl), Py.ok_bind, Rounded.sum, List.sum_eq_foldl]
  rfl

/-- C192: without rounding and with the exact exponential function these are the basis point value and the bucketed deltas of the model in exact arithmetic. -/
theorem C192_unrounded {pts : List (ℤ × ℝ)} {o? : Option ℤ} {o : ℤ} {tenor : Option ℤ} (hn : (pts.map Prod.fst).Nodup) (hne : pts ≠ [])
    (ho : o?.or (pts.map Prod.fst).head? = some o) {flows : List (ℤ × ℝ)} {shift : ℝ} (hs0 : shift ≠ 0) {Z : IRCurve ℤ ℤ}
    (hZ : IRCurve.new dayCal .zero (pts.map Prod.fst) (pts.map Prod.snd) none o? .default tenor = .ok Z) {w : World ℤ ℤ} {disc : ℕ} {same : Bool}
    (hw : w.curves disc = Z.obj) {P : Product ℤ} (hp0 : Pays dayCal w o P flows) (hpφ : ∀ φ : ℤ → ℝ, Pays dayCal (w.spreadBy [disc] φ) o P flows)
    (hp1 : Pays dayCal (w.bumped [disc] shift) o P flows) :
    (∃ d, basisPointValue dayCal disc same P (some o) none shift w = (.ok d, w) ∧
      Rounded.basisPointValue id Real.exp (.cal o) ((pts.map Prod.fst).map .cal) (pts.map Prod.snd) (flows.map fun a => (.cal a.1, a.2)) shift = .ok d) ∧
    ∀ {grid : Option (List ℤ)} {G : List ℤ}, deltaGrid (w.curves disc) grid = G → G ≠ [] → G.Pairwise (· < ·) →
      ∃ ds, bucketedDelta dayCal disc same P (some o) none grid shift w = (.ok ds, w) ∧
        Rounded.bucketedDelta id Real.exp (.cal o) ((pts.map Prod.fst).map .cal) (pts.map Prod.snd) (flows.map fun a => (.cal a.1, a.2)) (G.map .cal) shift = .ok ds := by
  have hτ : GoodDayCount dayCal.dayCount := goodDayCount_int
  rw [IRCurve_new_eq dayCal (dc := .default) hn (by simp [IRClass.dflt, linearScheme, FuncSpec.isLog, Kind.isLog]) ho trivial hτ] at hZ
  obtain rfl := Except.ok.inj hZ
  have ha := zero_answers (cal := dayCal) (dc := .default) (tenor := tenor) hn hne ho trivial hτ
  obtain ⟨df, -, e1, e2, e3⟩ := C28_zero ha rfl
  have hdf : ∀ x, df o x = bucketFactor o pts (fun _ => 0) x := fun x => by
    rw [e1, bucketFactor]
    congr 1
    have h0 : dayCal.dayCount o o = 0 := hτ.self o
    show linVal dayCal.dayCount o pts o * dayCal.dayCount o o - linVal dayCal.dayCount o pts x * dayCal.dayCount o x = _
    rw [h0]
    ring
  have hfac : ∀ q ∈ flows, (w.curves disc).discountFactor dayCal same o q.1 = .ok (bucketFactor o pts (fun _ => 0) q.1) := fun q _ => by
    rw [hw, ← hdf]
    exact e2 same o q.1 fun _ => rfl
  have hpv := value_unrounded hn hne (o := o) flows (g := none) (σ := fun _ => 0) fun _ => rfl
  have hbp : ∀ pv sh, Rounded.basisPoint id pv sh shift = .ok ((sh - pv) / shift * (1 / 10000)) := fun pv sh => by
    rw [(C174_unrounded 0 0 0 0 0 0 pv sh shift []).2.2.1, pyDiv_ok hs0, Py.ok_bind]
  have hSH : ∀ (σ : ℤ → ℝ) (a : ℤ × ℝ), bucketFactor o pts σ a.1 * a.2 = bucketFactor o pts (fun _ => 0) a.1 * a.2 * Real.exp (-(σ a.1 * dayCal.dayCount o a.1)) := fun σ a => by
    rw [bucketFactor_shift]; ring
  constructor
  · have hd := C61_zero (cal := dayCal) (same := same) (shift := shift) (τ := dayCal.dayCount) hτ (hw.trans rfl)
      (irOf_dayCount dayCal (dc := .default) trivial) rfl (by rw [show (irOf dayCal o o? DayCountArg.default none IRClass.zero tenor pts).toRateCurve.base.origin = some o from ha.origin]; simp) hp0 hp1 hfac hs0
    rw [sum_slope shift flows (fun a => bucketFactor o pts (fun _ => 0) a.1 * a.2)] at hd
    refine ⟨_, hd, ?_⟩
    have hone : ∀ x : ℤ, Rounded.spreadCall id (some ([.cal o], [shift])) (.cal x) = .ok ((fun _ => shift : ℤ → ℝ) x) := fun x => by
      have h := date_unrounded (pts := [(o, shift)]) (o := o) (by simp) (by simp) x
      have e : linVal dayCal.dayCount o [(o, shift)] x = shift := by simp [linVal, timePts, sortPairs, flin]
      rw [e] at h
      simpa [Rounded.spreadCall, pyDate] using h
    have hsh := value_unrounded hn hne (o := o) flows hone
    unfold Rounded.basisPointValue
    rw [hpv, Py.ok_bind, hsh, Py.ok_bind, hbp]
    simp only [hSH (fun _ => shift)]
  · intro grid G hgrid hG hinc
    obtain ⟨ds, d1, d2, d3⟩ := C139_buckets (cal := dayCal) (same := same) (shift := shift) (grid := grid) (G := G) (τ := dayCal.dayCount) hτ hτ (hw.trans rfl)
      (irOf_dayCount dayCal (dc := .default) trivial) rfl ha.origin hp0 hpφ hfac hgrid hG hinc hs0
    refine ⟨ds, d1, ?_⟩
    have hlen : (hatGrids shift none G).length = G.length := hatGrids_length shift G none
    have hget : ∀ k (hk : k < (hatGrids shift none G).length), (hatGrids shift none G)[k] = bucketPts shift none G k (hlen ▸ hk) := fun k hk =>
      (List.getElem?_eq_some_iff.1 (hatGrids_get shift (lo := none) (hlen ▸ hk))).2
    have hrun : ∀ k (hk : k < (hatGrids shift none G).length), (do
        let sh ← Rounded.spreadValue id Real.exp (.cal o) ((pts.map Prod.fst).map .cal) (pts.map Prod.snd) (flows.map fun a : ℤ × ℝ => (.cal a.1, a.2))
          (some (((hatGrids shift none G)[k].map Prod.fst).map .cal, (hatGrids shift none G)[k].map Prod.snd))
        Rounded.basisPoint id (flows.map fun a : ℤ × ℝ => bucketFactor o pts (fun _ => 0) a.1 * a.2).sum sh shift) = .ok (ds[k]'(by rw [d2, ← hlen]; exact hk)) := fun k hk => by
      rw [hget k hk, value_unrounded hn hne (o := o) flows (bucket_unrounded shift hinc (hlen ▸ hk)), Py.ok_bind, hbp, d3 k (hlen ▸ hk)]
      simp only [hSH (fun x => shift * triangle dayCal.dayCount G k (hlen ▸ hk) x)]
      rw [← sum_slope shift flows (fun a => bucketFactor o pts (fun _ => 0) a.1 * a.2)]
      simp only [mul_assoc]
    have hmem : ∀ b ∈ hatGrids shift none G, ∃ e, (do
        let sh ← Rounded.spreadValue id Real.exp (.cal o) ((pts.map Prod.fst).map .cal) (pts.map Prod.snd) (flows.map fun a : ℤ × ℝ => (.cal a.1, a.2))
          (some ((b.map Prod.fst).map .cal, b.map Prod.snd))
        Rounded.basisPoint id (flows.map fun a : ℤ × ℝ => bucketFactor o pts (fun _ => 0) a.1 * a.2).sum sh shift) = .ok e := by
      intro b hb
      obtain ⟨k, hk, rfl⟩ := List.getElem_of_mem hb
      exact ⟨_, hrun k hk⟩
    choose! g hg using hmem
    have hds : (hatGrids shift none G).map g = ds := List.ext_getElem (by rw [List.length_map, hlen, d2]) fun k hk hk' => by
      rw [List.getElem_map]
      have h1 := hg _ (List.getElem_mem (by simpa using hk : k < (hatGrids shift none G).length))
      rw [hrun k (by simpa using hk)] at h1
      exact (Except.ok.inj h1).symm
    unfold Rounded.bucketedDelta
    rw [hpv, Py.ok_bind, bucketShifts_cal shift hG, Py.ok_bind, pyMap_map, ← hds]
    exact pyMap_ok hg

/-! ### Examples -/

/-- A single flow after four years: the delta of the last grid date is not positive. -/
example : ∃ rnd, Rounding 53 rnd ∧ ∃ ds, Rounded.bucketedDelta rnd Real.exp (.cal 0) [.cal 0] [1 / 64] [(.cal 1461, 7)] [.cal 365, .cal 730, .cal 1461] (1 / 8192) = .ok ds ∧
    ds.length = 3 ∧ ∃ d, ds[2]? = some d ∧ d ≤ 0 := by
  obtain ⟨rnd, R⟩ := exists_rounding (p := 53) (by norm_num)
  obtain ⟨ds, h1, h2, h3⟩ := C191_sign R (by norm_num) Real.exp_monotone (v := 0) (by simp) (pts := [(0, 1 / 64)]) (o := 0) (by simp) (by simp) exBucket_rate (T := 4)
    (by norm_num) (by simp) (flows := [(1461, 7)]) (by norm_num [abs_le]) (by simp) (G := [365, 730, 1461]) (by simp) (by norm_num) exBucket_grid exBucket_flow exBucket_shift (by norm_num)
  exact ⟨rnd, R, ds, h1, h2, h3 2 (by simp) (by simp)⟩

example : ∃ rnd, Rounding 53 rnd ∧ ∃ b, Rounded.basisPointValue rnd Real.exp (.cal 0) [.cal 0] [1 / 64] [(.cal 1461, 7)] (1 / 8192) = .ok b ∧ b ≤ 0 := by
  obtain ⟨rnd, R⟩ := exists_rounding (p := 53) (by norm_num)
  exact ⟨rnd, R, C192_sign R (by norm_num) Real.exp_monotone (pts := [(0, 1 / 64)]) (o := 0) (by simp) (by simp) exBucket_rate (T := 4)
    (by norm_num) (by simp) (flows := [(1461, 7)]) (by norm_num [abs_le]) (by simp) exBucket_shift (by norm_num)⟩

example : ∃ rnd, Rounding 53 rnd ∧ Rounded.basisPointValue rnd Real.exp (.cal 3) [.cal 0] [1 / 64] [(.cal 3, 7)] (1 / 8192) = .ok 0 := by
  obtain ⟨rnd, R⟩ := exists_rounding (p := 53) (by norm_num)
  exact ⟨rnd, R, C192_today R 3 [.cal 0] [1 / 64] (flows := [(3, 7)]) (by simp) (by norm_num)⟩

theorem oneFlow_bumped_pays (c : CurveObj ℤ ℤ) (shift : ℝ) {v d : ℤ} (h : v ≤ d) : Pays dayCal ((oneFlow c d).bumped [0] shift) v (.list 0) [(d, 7)] := by
  refine ⟨[[(d, 7)]], ?_, by simp⟩
  rw [Product.leaves]
  refine .cons ⟨fun h' => absurd h' (by simp [oneFlow, World.bumped, World.spreadOn]), fun _ => 7, ?_, by simp [oneFlow, World.bumped, World.spreadOn, h]⟩ .nil
  intro x hx _
  simp only [oneFlow, World.bumped, World.spreadOn, List.mem_singleton] at hx
  subst hx
  simp [World.list, World.dated, oneFlow, World.bumped, World.spreadOn, CFList.getitem, Dict.ofPairs, Dict.get, Dict.set, PayOff.eval]

/-- Non-vacuity of C192_error. -/
example : ∃ rnd, Rounding 53 rnd ∧ ∃ Z d e, IRCurve.new dayCal .zero [0] [1 / 64] none none .default none = .ok Z ∧
    basisPointValue dayCal 0 false (.list 0) (some 0) none (1 / 8192) (oneFlow Z.obj 1461) = (.ok d, oneFlow Z.obj 1461) ∧
    Rounded.basisPointValue rnd Real.exp (.cal 0) [.cal 0] [1 / 64] [(.cal 1461, 7)] (1 / 8192) = .ok e := by
  obtain ⟨rnd, R⟩ := exists_rounding (p := 53) (by norm_num)
  have hZ := flatZero_new dayCal (o? := none) (dc := .default) (tenor := none) trivial goodDayCount_int 0 (1 / 64)
  obtain ⟨df, d, e, -, h1, h2, -⟩ := C192_error R (by norm_num) (exp := Real.exp) (v := 0) (by simp) (pts := [(0, 1 / 64)]) (o? := none) (o := 0) (by simp) (by simp) rfl
    exBucket_rate (M := 1) (by norm_num [abs_le]) (T := 4) (by norm_num) (by simp) (flows := [(1461, 7)]) (by norm_num [abs_le]) exBucket_shift (by norm_num) hZ
    (w := oneFlow _ 1461) (disc := 0) (same := false) rfl (oneFlow_pays _ (by norm_num)) (oneFlow_bumped_pays _ _ (by norm_num))
  exact ⟨rnd, R, _, d, e, hZ, h1, h2⟩

/-- Non-vacuity of C192_scale and C192_opposite: a rounding to 53 bits that commutes with signs and factors of two. -/
example : ∃ rnd, Rounding 53 rnd ∧ (∀ x, rnd (2 * x) = 2 * rnd x) ∧
    Rounded.basisPointValue rnd Real.exp (.cal 0) [.cal 0] [1 / 64] [(.cal 1461, 2 * 7)] (1 / 8192) =
      (fun x => 2 * x) <$> Rounded.basisPointValue rnd Real.exp (.cal 0) [.cal 0] [1 / 64] [(.cal 1461, 7)] (1 / 8192) ∧
    Rounded.basisPointValue rnd Real.exp (.cal 0) [.cal 0] [1 / 64] [(.cal 1461, -7)] (1 / 8192) =
      (fun x => -x) <$> Rounded.basisPointValue rnd Real.exp (.cal 0) [.cal 0] [1 / 64] [(.cal 1461, 7)] (1 / 8192) := by
  obtain ⟨rnd, R, h1, h2⟩ := exists_symmetric (p := 53) (by norm_num)
  exact ⟨rnd, R, h2, (C192_scale h2 Real.exp (.cal 0) [.cal 0] [1 / 64] [(.cal 1461, 7)] [] (1 / 8192)).1,
    (C192_opposite h1 Real.exp (.cal 0) [.cal 0] [1 / 64] [(.cal 1461, 7)] [] (1 / 8192)).1⟩

/-- Non-vacuity of C192_unrounded. -/
example : ∃ Z d ds, IRCurve.new dayCal .zero [0] [1 / 64] none none .default none = .ok Z ∧
    basisPointValue dayCal 0 false (.list 0) (some 0) none (1 / 8192) (oneFlow Z.obj 1461) = (.ok d, oneFlow Z.obj 1461) ∧
    Rounded.basisPointValue id Real.exp (.cal 0) [.cal 0] [1 / 64] [(.cal 1461, 7)] (1 / 8192) = .ok d ∧
    Rounded.bucketedDelta id Real.exp (.cal 0) [.cal 0] [1 / 64] [(.cal 1461, 7)] [.cal 365, .cal 730, .cal 1461] (1 / 8192) = .ok ds := by
  have hZ := flatZero_new dayCal (o? := none) (dc := .default) (tenor := none) trivial goodDayCount_int 0 (1 / 64)
  obtain ⟨⟨d, h1, h2⟩, h3⟩ := C192_unrounded (pts := [(0, 1 / 64)]) (o? := none) (o := 0) (by simp) (by simp) rfl (flows := [(1461, 7)]) (shift := 1 / 8192) (by norm_num) hZ
    (w := oneFlow _ 1461) (disc := 0) (same := false) rfl (oneFlow_pays _ (by norm_num)) (fun φ => oneFlow_spread_pays _ φ (by norm_num)) (oneFlow_bumped_pays _ _ (by norm_num))
  obtain ⟨ds, -, h4⟩ := h3 (grid := some [365, 730, 1461]) (G := [365, 730, 1461]) rfl (by simp) (by norm_num)
  exact ⟨_, d, ds, hZ, h1, h2, h4⟩

end

end Dcf
