import Verif.Props.InterpShape
import Verif.Props.RateCast
import Verif.Props.CreditData

/-! # Points read off a curve: C154 -/

set_option linter.unusedSectionVars false
set_option linter.unusedSimpArgs false
set_option linter.unusedVariables false

namespace Dcf

open Spec

/-- The interpolations that do not change by adding points of their graph: all single classes but `nearest`, and the schemes
with linear, log-linear or log-linear rate interpolation inside and constant values or rates outside. -/
def Spec.Refinable : FuncSpec → Prop
  | .base k => k ≠ .nearest
  | .scheme l m r _ => (l, m, r) ∈ [(Kind.constant, Kind.linear, Kind.constant), (.constant, .loglinear, .constant),
      (.logconstantrate, .loglinearrate, .logconstantrate)]

/-! ### Piecewise linear functions -/

theorem plin_affine {l : List (ℝ × ℝ)} (hl : StrictX l) {u v : ℝ} (h : ∀ r ∈ l, r.1 ≤ u ∨ v ≤ r.1) :
    ∃ a b : ℝ, ∀ t, (u ≤ t ∨ ∀ r ∈ l, u ≤ r.1) → (t ≤ v ∨ ∀ r ∈ l, r.1 ≤ v) → plin l t = a + b * t := by
  induction l with
  | nil => exact ⟨0, 0, fun t _ _ => by simp [plin]⟩
  | cons p l ih =>
    match l, hl, h, ih with
    | [], _, _, _ => exact ⟨p.2, 0, fun t _ _ => by simp [plin]⟩
    | [q], _, _, _ => exact ⟨p.2 - (q.2 - p.2) / (q.1 - p.1) * p.1, (q.2 - p.2) / (q.1 - p.1), fun t _ _ => by
        simp only [plin, chord]; ring⟩
    | q :: r :: l, hl, h, ih =>
      have hl' : StrictX (q :: r :: l) := (List.pairwise_cons.1 hl).2
      have hpq : p.1 < q.1 := (List.pairwise_cons.1 hl).1 q (by simp)
      have hqr : q.1 < r.1 := (List.pairwise_cons.1 hl').1 r (by simp)
      rcases h q (by simp) with hq | hq
      · obtain ⟨a, b, hab⟩ := ih hl' fun s hs => h s (List.mem_cons_of_mem _ hs)
        refine ⟨a, b, fun t h1 h2 => ?_⟩
        have hut : u ≤ t := h1.elim id fun h => absurd (h p (by simp)) (by linarith)
        have e := hab t (.inl hut) (h2.imp id fun h s hs => h s (List.mem_cons_of_mem _ hs))
        rw [plin]
        split_ifs with hc
        · have : t = q.1 := le_antisymm hc (hq.trans hut)
          rw [← e, this, chord_right hpq, plin_node hl' (x := q.1) (y := q.2) (by simp)]
        · exact e
      · refine ⟨p.2 - (q.2 - p.2) / (q.1 - p.1) * p.1, (q.2 - p.2) / (q.1 - p.1), fun t h1 h2 => ?_⟩
        have htv : t ≤ v := h2.elim id fun h => absurd (h r (by simp)) (by linarith)
        rw [plin, if_pos (htv.trans hq)]
        simp only [chord]; ring

theorem chord_on {p q : ℝ × ℝ} (hpq : p.1 < q.1) {a b : ℝ} (hp : p.2 = a + b * p.1) (hq : q.2 = a + b * q.1) (x : ℝ) :
    chord p q x = a + b * x := by
  have : q.1 - p.1 ≠ 0 := by linarith [sub_pos.2 hpq]
  unfold chord
  rw [hp, hq, show a + b * q.1 - (a + b * p.1) = b * (q.1 - p.1) by ring, mul_div_cancel_right₀ _ this]
  ring

theorem plin_finer {A B : List (ℝ × ℝ)} (hA : StrictX A) (hB : StrictX B) (hne : A ≠ []) (hsub : ∀ p ∈ A, p ∈ B)
    (hon : ∀ q ∈ B, plin A q.1 = q.2) (x : ℝ) : plin B x = plin A x := by
  have hB0 : B ≠ [] := List.ne_nil_of_mem (hsub _ (List.head_mem hne))
  match B, hB, hB0, hsub, hon with
  | [b], _, _, hsub, hon =>
    have : A = [b] := by
      match A, hA, hne, hsub with
      | [a], _, _, hsub => simpa using hsub a (by simp)
      | a :: a' :: A, hA, _, hsub =>
        have h1 := hsub a (by simp)
        have h2 := hsub a' (by simp)
        have := (List.pairwise_cons.1 hA).1 a' (by simp)
        simp only [List.mem_singleton] at h1 h2
        rw [h1, h2] at this
        exact absurd this (lt_irrefl _)
    rw [this]
  | b :: b' :: B, hB, _, hsub, hon =>
    obtain ⟨p, q, ⟨hp, hq, hpq, hno⟩, e, h1, h2⟩ := plin_linear_value hB (by simp) x
    obtain ⟨a, c, hab⟩ := plin_affine hA (u := p.1) (v := q.1) fun r hr => hno r (hsub r hr)
    rw [e, hab x (h1.imp id fun h r hr => h r (hsub r hr)) (h2.imp id fun h r hr => h r (hsub r hr))]
    refine chord_on hpq ?_ ?_ x
    · rw [← hon p hp, hab _ (.inl le_rfl) (.inl hpq.le)]
    · rw [← hon q hq, hab _ (.inl hpq.le) (.inl le_rfl)]

theorem flin_finer {A B : List (ℝ × ℝ)} (hA : StrictX A) (hB : StrictX B) (hne : A ≠ []) (hsub : ∀ p ∈ A, p ∈ B)
    (hon : ∀ q ∈ B, flin A q.1 = q.2) (x : ℝ) : flin B x = flin A x := by
  have hs : (B.map Prod.fst).Pairwise (· < ·) := by rw [List.pairwise_map]; exact hB
  have hm : ∀ p ∈ A, p.1 ∈ B.map Prod.fst := fun p hp => List.mem_map.2 ⟨p, hsub p hp, rfl⟩
  have := flin_comb hA hA hne hne hs hm hm 1 0 x
  simp only [one_mul, zero_mul, add_zero, List.map_map] at this
  rw [← this]
  congr 1
  conv_lhs => rw [← List.map_id B]
  refine List.map_congr_left fun q hq => ?_
  simp only [Function.comp, hon q hq, id]

/-! ### Single classes -/

section Raw
variable {S T : List (ℝ × ℝ)}

theorem left_finer (hS : (S.map Prod.fst).Nodup) (hT : (T.map Prod.fst).Nodup) (hsub : ∀ p ∈ S, p ∈ T)
    (hon : ∀ t ∈ T, leftCall (ptsOf (sortPairs S)) t.1 = .ok t.2) (z : ℝ) :
    leftCall (ptsOf (sortPairs T)) z = leftCall (ptsOf (sortPairs S)) z := by
  rcases S.eq_nil_or_concat' with rfl | ⟨_, _, hc⟩
  · match T, hon with
    | [], _ => rfl
    | t :: T, hon => have := hon t (by simp); simp [sortPairs, ptsOf, leftCall] at this
  have hne : S ≠ [] := by rw [hc]; simp
  obtain ⟨p0, hp0⟩ := List.exists_mem_of_ne_nil _ hne
  obtain ⟨y, h1, p, hp, rfl, h2⟩ := leftCall_sorted hS hne z
  obtain ⟨y', h3, q, hq, rfl, h4⟩ := leftCall_sorted hT (List.ne_nil_of_mem (hsub _ hp0)) z
  rw [h1, h3]
  obtain ⟨w, h5, h6⟩ := leftCall_sorted hS hne q.1
  have hw : w = q.2 := by have := hon q hq; rw [h5] at this; exact Except.ok.inj this
  rw [hw] at h6
  refine congrArg _ ((C12_unique S hS q.1 q.2 p.2).1 h6 ⟨p, hp, rfl, ?_⟩)
  rcases h2 with ⟨a, b⟩ | ⟨a, b⟩
  · rcases h4 with ⟨c, d⟩ | ⟨c, d⟩
    · exact .inl ⟨d p (hsub p hp) a, fun r hr hrq => b r hr (hrq.trans c)⟩
    · exact absurd (c p (hsub p hp)) (by linarith)
  · have hle : q.1 ≤ p.1 := by
      rcases h4 with ⟨c, d⟩ | ⟨c, d⟩
      · exact (c.trans (a p hp).le)
      · exact d p (hsub p hp)
    rcases hle.eq_or_lt with e | hlt
    · exact .inl ⟨e.ge, fun r hr hrq => by rw [← e]; exact hrq⟩
    · exact .inr ⟨fun r hr => hlt.trans_le (b r hr), b⟩

theorem rightCall_sorted (hn : (S.map Prod.fst).Nodup) (hne : S ≠ []) (x : ℝ) :
    ∃ y, rightCall (ptsOf (sortPairs S)) x = .ok y ∧ IsRightValue S x y := by
  obtain ⟨y, h1, h2⟩ := rightCall_spec (sortPairs_strict hn) (sortPairs_ne_nil hne) x
  exact ⟨y, h1, h2.perm (sortPairs_perm S)⟩

theorem right_finer (hS : (S.map Prod.fst).Nodup) (hT : (T.map Prod.fst).Nodup) (hsub : ∀ p ∈ S, p ∈ T)
    (hon : ∀ t ∈ T, rightCall (ptsOf (sortPairs S)) t.1 = .ok t.2) (z : ℝ) :
    rightCall (ptsOf (sortPairs T)) z = rightCall (ptsOf (sortPairs S)) z := by
  rcases S.eq_nil_or_concat' with rfl | ⟨_, _, hc⟩
  · match T, hon with
    | [], _ => rfl
    | t :: T, hon => have := hon t (by simp); simp [sortPairs, ptsOf, rightCall] at this
  have hne : S ≠ [] := by rw [hc]; simp
  obtain ⟨p0, hp0⟩ := List.exists_mem_of_ne_nil _ hne
  obtain ⟨y, h1, p, hp, rfl, h2⟩ := rightCall_sorted hS hne z
  obtain ⟨y', h3, q, hq, rfl, h4⟩ := rightCall_sorted hT (List.ne_nil_of_mem (hsub _ hp0)) z
  rw [h1, h3]
  obtain ⟨w, h5, h6⟩ := rightCall_sorted hS hne q.1
  have hw : w = q.2 := by have := hon q hq; rw [h5] at this; exact Except.ok.inj this
  rw [hw] at h6
  refine congrArg _ ((C12_unique S hS q.1 q.2 p.2).2.1 h6 ⟨p, hp, rfl, ?_⟩)
  rcases h2 with ⟨a, b⟩ | ⟨a, b⟩
  · rcases h4 with ⟨c, d⟩ | ⟨c, d⟩
    · exact .inl ⟨d p (hsub p hp) a, fun r hr hrq => b r hr (c.trans hrq)⟩
    · exact absurd (c p (hsub p hp)) (by linarith)
  · have hle : p.1 ≤ q.1 := by
      rcases h4 with ⟨c, d⟩ | ⟨c, d⟩
      · exact ((a p hp).le.trans c)
      · exact d p (hsub p hp)
    rcases hle.eq_or_lt with e | hlt
    · exact .inl ⟨e.ge, fun r hr hrq => by rw [e]; exact hrq⟩
    · exact .inr ⟨fun r hr => (b r hr).trans_lt hlt, b⟩

theorem linear_finer (hS : (S.map Prod.fst).Nodup) (hT : (T.map Prod.fst).Nodup) (hsub : ∀ p ∈ S, p ∈ T)
    (hon : ∀ t ∈ T, linearCall (ptsOf (sortPairs S)) t.1 = .ok t.2) (z : ℝ) :
    linearCall (ptsOf (sortPairs T)) z = linearCall (ptsOf (sortPairs S)) z := by
  rcases S.eq_nil_or_concat' with rfl | ⟨_, _, hc⟩
  · match T, hon with
    | [], _ => rfl
    | t :: T, hon => have := hon t (by simp); simp [sortPairs, ptsOf, linearCall] at this
  have hne : S ≠ [] := by rw [hc]; simp
  obtain ⟨p0, hp0⟩ := List.exists_mem_of_ne_nil _ hne
  have hneT : T ≠ [] := List.ne_nil_of_mem (hsub _ hp0)
  rw [linearCall_eq (sortPairs_strict hS) (sortPairs_ne_nil hne), linearCall_eq (sortPairs_strict hT) (sortPairs_ne_nil hneT)]
  refine congrArg _ (plin_finer (sortPairs_strict hS) (sortPairs_strict hT) (sortPairs_ne_nil hne) (fun p hp => ?_) (fun q hq => ?_) z)
  · exact (sortPairs_perm T).mem_iff.2 (hsub p ((sortPairs_perm S).mem_iff.1 hp))
  · have := hon q ((sortPairs_perm T).mem_iff.1 hq)
    rw [linearCall_eq (sortPairs_strict hS) (sortPairs_ne_nil hne)] at this
    exact Except.ok.inj this

end Raw

theorem Py.map_some_eq {x : Py ℝ} {f : ℝ → ℝ} {y : ℝ} (h : (fun l => some (f l)) <$> x = .ok (some y)) :
    ∃ l, x = .ok l ∧ f l = y := by
  cases x with
  | error e => cases h
  | ok l => exact ⟨l, rfl, Option.some.inj (Except.ok.inj h)⟩

/-- Values of the log classes are positive. -/
theorem interpOf_pos {k : Kind} (hk : k.isLog) {pts : List (ℝ × ℝ)} (hpos : ∀ p ∈ pts, 0 < p.2) {x y : ℝ}
    (h : (interpOf k pts).call x = .ok (some y)) : 0 < y := by
  have hz : ∀ z, .ok ((pts.find? fun p => p.1 = 0).map Prod.snd) = (Except.ok (some z) : Py (Option ℝ)) → 0 < z := by
    intro z hz
    obtain ⟨p, hp, rfl⟩ := Option.map_eq_some_iff.1 (Except.ok.inj hz)
    exact hpos p (List.mem_of_find?_eq_some hp)
  cases k <;> simp only [Kind.isLog] at hk <;> try contradiction
  · obtain ⟨l, -, rfl⟩ := Py.map_some_eq h
    exact Real.exp_pos _
  · simp only [interpOf, Interp.call, storedZero, Kind.isRate, if_true] at h
    split_ifs at h with h0
    · exact hz y h
    · obtain ⟨l, -, rfl⟩ := Py.map_some_eq (f := fun l => Real.exp (l * x)) h
      exact Real.exp_pos _
  · simp only [interpOf, Interp.call, storedZero, Kind.isRate, if_true] at h
    split_ifs at h with h0
    · exact hz y h
    · obtain ⟨l, -, rfl⟩ := Py.map_some_eq (f := fun l => Real.exp (-l * x)) h
      exact Real.exp_pos _

theorem interpOf_finer {k : Kind} (hk : k ≠ .nearest) {P Q : List (ℝ × ℝ)} (hP : (P.map Prod.fst).Nodup)
    (hQ : (Q.map Prod.fst).Nodup) (hsub : ∀ p ∈ P, p ∈ Q) (hpos : k.isLog → ∀ p ∈ P, 0 < p.2)
    (hon : ∀ q ∈ Q, (interpOf k P).call q.1 = .ok (some q.2)) (z : ℝ) :
    (interpOf k Q).call z = (interpOf k P).call z := by
  have hposQ : k.isLog → ∀ q ∈ Q, 0 < q.2 := fun h q hq => interpOf_pos h (hpos h) (hon q hq)
  have hnS := storedPts_nodup k hP
  have hnT := storedPts_nodup k hQ
  have onto : ∀ (f : ℝ → ℝ) (x : Py ℝ) (y : ℝ), f.Injective → (fun l => some (f l)) <$> x = .ok (some (f y)) → x = .ok y := by
    intro f x y hf h
    obtain ⟨l, rfl, e⟩ := Py.map_some_eq h
    rw [hf e]
  have hdef : ∀ d : Option ℝ, (∀ q ∈ Q, defaultCall (ptsOf (sortPairs P)) d q.1 = .ok (some q.2)) →
      (∀ q ∈ Q, defaultCall (ptsOf (sortPairs Q)) d q.1 = .ok (some q.2)) →
      defaultCall (ptsOf (sortPairs Q)) d z = defaultCall (ptsOf (sortPairs P)) d z := by
    intro d h1 h2
    by_cases hz : z ∈ Q.map Prod.fst
    · obtain ⟨q, hq, rfl⟩ := List.mem_map.1 hz
      rw [h1 q hq, h2 q hq]
    · have hz' : z ∉ P.map Prod.fst := fun h => by
        obtain ⟨p, hp, rfl⟩ := List.mem_map.1 h
        exact hz (List.mem_map.2 ⟨p, hsub p hp, rfl⟩)
      have a : ∀ L : List (ℝ × ℝ), z ∉ L.map Prod.fst → z ∉ (ptsOf (sortPairs L)).xs := fun L h hm =>
        h (((sortPairs_perm L).map Prod.fst).mem_iff.1 hm)
      unfold defaultCall
      rw [if_neg (a Q hz), if_neg (a P hz')]
  have hzero : z = 0 → k.isRate → storedZero k Q = storedZero k P := by
    intro hz hr
    have hc : ∀ q ∈ Q, q.1 = 0 → storedZero k P = some q.2 := by
      intro q hq h0
      have := hon q hq
      rw [h0] at this
      cases k <;> simp only [Kind.isRate] at hr <;> try contradiction
      all_goals
        simp only [interpOf, Interp.call, if_true] at this
        exact Except.ok.inj this
    by_cases h : ∃ q ∈ Q, q.1 = 0
    · obtain ⟨q, hq, h0⟩ := h
      rw [hc q hq h0]
      unfold storedZero
      rw [if_pos hr]
      exact find_zero_eq hQ (by rw [← h0]; exact hq)
    · have h' : ∀ q ∈ Q, q.1 ≠ 0 := fun q hq h0 => h ⟨q, hq, h0⟩
      unfold storedZero
      rw [if_pos hr, if_pos hr, find_zero_none h', find_zero_none fun p hp => h' p (hsub p hp)]
  have hnode : ∀ q ∈ Q, (interpOf k Q).call q.1 = .ok (some q.2) := fun q hq => Interp_node k hQ hposQ hq
  cases k with
  | nearest => exact absurd rfl hk
  | no => exact hdef none hon hnode
  | zero => exact hdef (some 0) hon hnode
  | left =>
    exact congrArg (fun r => some <$> r) (left_finer hP hQ hsub (fun t ht => onto id _ _ Function.injective_id (hon t ht)) z)
  | constant =>
    exact congrArg (fun r => some <$> r) (left_finer hP hQ hsub (fun t ht => onto id _ _ Function.injective_id (hon t ht)) z)
  | right =>
    exact congrArg (fun r => some <$> r) (right_finer hP hQ hsub (fun t ht => onto id _ _ Function.injective_id (hon t ht)) z)
  | linear =>
    exact congrArg (fun r => some <$> r) (linear_finer hP hQ hsub (fun t ht => onto id _ _ Function.injective_id (hon t ht)) z)
  | loglinear =>
    refine congrArg (fun r => (fun l => some (Real.exp l)) <$> r) (linear_finer hnS hnT (fun p hp => ?_) (fun t ht => ?_) z)
    · obtain ⟨q, hq, rfl⟩ := List.mem_map.1 hp
      exact List.mem_map.2 ⟨q, hsub q hq, rfl⟩
    · obtain ⟨q, hq, rfl⟩ := List.mem_map.1 ht
      refine onto Real.exp _ _ Real.exp_injective ?_
      have := hon q hq
      rw [← Real.exp_log (hposQ rfl q hq)] at this
      exact this
  | loglinearrate =>
    by_cases hz : z = 0
    · simp only [interpOf, Interp.call, hz, if_true, hzero hz rfl]
    · simp only [interpOf, Interp.call, hz, if_false]
      refine congrArg _ (linear_finer hnS hnT (fun p hp => ?_) (fun t ht => ?_) z)
      · obtain ⟨q, hq, rfl⟩ := List.mem_map.1 hp
        obtain ⟨hq, h0⟩ := List.mem_filter.1 hq
        exact List.mem_map.2 ⟨q, List.mem_filter.2 ⟨hsub q hq, h0⟩, rfl⟩
      · obtain ⟨q, hq, rfl⟩ := List.mem_map.1 ht
        obtain ⟨hq, h0⟩ := List.mem_filter.1 hq
        have h0 : q.1 ≠ 0 := by simpa using h0
        have := hon q hq
        simp only [interpOf, Interp.call, h0, if_false] at this
        refine onto (fun l => Real.exp (l * q.1)) _ _ (fun a b h => mul_right_cancel₀ h0 (Real.exp_injective h)) ?_
        rw [this, div_mul_cancel₀ _ h0, Real.exp_log (hposQ rfl q hq)]
  | logconstantrate =>
    by_cases hz : z = 0
    · simp only [interpOf, Interp.call, hz, if_true, hzero hz rfl]
    · simp only [interpOf, Interp.call, hz, if_false]
      refine congrArg _ (left_finer hnS hnT (fun p hp => ?_) (fun t ht => ?_) z)
      · obtain ⟨q, hq, rfl⟩ := List.mem_map.1 hp
        obtain ⟨hq, h0⟩ := List.mem_filter.1 hq
        exact List.mem_map.2 ⟨q, List.mem_filter.2 ⟨hsub q hq, h0⟩, rfl⟩
      · obtain ⟨q, hq, rfl⟩ := List.mem_map.1 ht
        obtain ⟨hq, h0⟩ := List.mem_filter.1 hq
        have h0 : q.1 ≠ 0 := by simpa using h0
        have := hon q hq
        simp only [interpOf, Interp.call, h0, if_false] at this
        refine onto (fun l => Real.exp (-l * q.1)) _ _ (fun a b h => neg_injective (mul_right_cancel₀ h0 (Real.exp_injective h))) ?_
        rw [this, neg_div, neg_neg, div_mul_cancel₀ _ h0, Real.exp_log (hposQ rfl q hq)]

/-! ### Schemes -/

theorem funcOf_empty (l m r : Kind) (str : Bool) {P : List (ℝ × ℝ)} (h : storedPts l P = []) (x : ℝ) :
    (funcOf (.scheme l m r str) P).call x = .error .index := by
  simp only [funcOf, Func.call, interpOf, h]
  rfl

theorem funcOf_finer {s : FuncSpec} (hs : Refinable s) {P Q : List (ℝ × ℝ)} (hP : (P.map Prod.fst).Nodup)
    (hQ : (Q.map Prod.fst).Nodup) (hsub : ∀ p ∈ P, p ∈ Q) (hpos : s.isLog → ∀ p ∈ P, 0 < p.2)
    (hon : ∀ q ∈ Q, (funcOf s P).call q.1 = .ok (some q.2)) :
    (s.isLog → ∀ q ∈ Q, 0 < q.2) ∧ ∀ z, (funcOf s Q).call z = (funcOf s P).call z := by
  have sorted : ∀ {p}, p ∈ sortPairs P → p ∈ sortPairs Q := fun hp =>
    (sortPairs_perm Q).mem_iff.2 (hsub _ ((sortPairs_perm P).mem_iff.1 hp))
  cases s with
  | base k => exact ⟨fun h q hq => interpOf_pos h (hpos h) (hon q hq), interpOf_finer hs hP hQ hsub hpos hon⟩
  | scheme l m r str =>
    simp only [Refinable, List.mem_cons, Prod.mk.injEq, List.not_mem_nil, or_false] at hs
    rcases hs with ⟨rfl, rfl, rfl⟩ | ⟨rfl, rfl, rfl⟩ | ⟨rfl, rfl, rfl⟩
    · refine ⟨by simp [FuncSpec.isLog, Kind.isLog], fun z => ?_⟩
      rcases P.eq_nil_or_concat' with rfl | ⟨_, _, hc⟩
      · match Q, hon with
        | [], _ => rfl
        | q :: Q, hon => have := hon q (by simp); rw [funcOf_empty _ _ _ _ rfl] at this; cases this
      have hne : P ≠ [] := by rw [hc]; simp
      obtain ⟨p0, hp0⟩ := List.exists_mem_of_ne_nil _ hne
      have hneQ : Q ≠ [] := List.ne_nil_of_mem (hsub _ hp0)
      show (funcOf linearScheme Q).call z = (funcOf linearScheme P).call z
      rw [funcOf_linear_call hP hne, funcOf_linear_call hQ hneQ]
      refine congrArg (fun r : ℝ => (Except.ok (some r) : Py (Option ℝ))) (flin_finer (sortPairs_strict hP) (sortPairs_strict hQ) (sortPairs_ne_nil hne)
        (fun p hp => sorted hp) (fun q hq => ?_) z)
      have := hon q ((sortPairs_perm Q).mem_iff.1 hq)
      rw [show FuncSpec.scheme .constant .linear .constant str = .scheme .constant .linear .constant str from rfl] at this
      exact Option.some.inj (Except.ok.inj ((funcOf_linear_call hP hne q.1).symm.trans this))
    · have hpos' := hpos rfl
      rcases P.eq_nil_or_concat' with rfl | ⟨_, _, hc⟩
      · match Q, hon with
        | [], _ => exact ⟨fun _ q hq => by simp at hq, fun _ => rfl⟩
        | q :: Q, hon => have := hon q (by simp); rw [funcOf_empty _ _ _ _ rfl] at this; cases this
      have hne : P ≠ [] := by rw [hc]; simp
      obtain ⟨p0, hp0⟩ := List.exists_mem_of_ne_nil _ hne
      have hneQ : Q ≠ [] := List.ne_nil_of_mem (hsub _ hp0)
      have hval : ∀ q ∈ Q, Real.exp (flin (logPts (sortPairs P)) q.1) = q.2 := fun q hq =>
        Option.some.inj (Except.ok.inj ((funcOf_loglinear_call hP hne hpos' q.1).symm.trans (hon q hq)))
      have hposQ : ∀ q ∈ Q, 0 < q.2 := fun q hq => by rw [← hval q hq]; exact Real.exp_pos _
      refine ⟨fun _ => hposQ, fun z => ?_⟩
      show (funcOf logLinearScheme Q).call z = (funcOf logLinearScheme P).call z
      rw [funcOf_loglinear_call hP hne hpos', funcOf_loglinear_call hQ hneQ hposQ]
      refine congrArg (fun r : ℝ => (Except.ok (some (Real.exp r)) : Py (Option ℝ))) (flin_finer (logPts_strict (sortPairs_strict hP))
        (logPts_strict (sortPairs_strict hQ)) (by unfold logPts; simpa using sortPairs_ne_nil hne) (fun p hp => ?_) (fun q hq => ?_) z)
      · obtain ⟨p, hp', rfl⟩ := List.mem_map.1 hp
        exact List.mem_map.2 ⟨p, sorted hp', rfl⟩
      · obtain ⟨q, hq', rfl⟩ := List.mem_map.1 hq
        rw [← hval q ((sortPairs_perm Q).mem_iff.1 hq'), Real.log_exp]
    · have hpos' := hpos rfl
      by_cases h0 : ∃ p ∈ P, p.1 ≠ 0
      swap
      · have he : storedPts .logconstantrate P = [] := by
          have : P.filter (fun p => p.1 ≠ 0) = [] := by
            rw [List.filter_eq_nil_iff]
            intro p hp hne
            exact h0 ⟨p, hp, by simpa using hne⟩
          simp only [storedPts, this, List.map_nil]
        match Q, hon, hsub with
        | [], _, hsub =>
          have : P = [] := List.eq_nil_iff_forall_not_mem.2 fun p hp => by simpa using hsub p hp
          rw [this]
          exact ⟨fun _ q hq => by simp at hq, fun _ => rfl⟩
        | q :: Q, hon, _ => have := hon q (by simp); rw [funcOf_empty _ _ _ _ he] at this; cases this
      have h0Q : ∃ p ∈ Q, p.1 ≠ 0 := h0.imp fun p hp => ⟨hsub p hp.1, hp.2⟩
      have hval : ∀ q ∈ Q, q.1 ≠ 0 → Real.exp (-(flin (sortPairs (ratePts P)) q.1 * q.1)) = q.2 := fun q hq hne =>
        Option.some.inj (Except.ok.inj ((funcOf_rate_call hP h0 hne).symm.trans (hon q hq)))
      have hval0 : ∀ q ∈ Q, q.1 = 0 → (P.find? fun p => p.1 = 0).map Prod.snd = some q.2 := fun q hq hz => by
        have := hon q hq
        rw [hz] at this
        exact Except.ok.inj ((funcOf_rate_zero hP h0).symm.trans this)
      have hposQ : ∀ q ∈ Q, 0 < q.2 := by
        intro q hq
        by_cases hz : q.1 = 0
        · obtain ⟨p, hp, e⟩ := Option.map_eq_some_iff.1 (hval0 q hq hz)
          rw [← e]
          exact hpos' p (List.mem_of_find?_eq_some hp)
        · rw [← hval q hq hz]; exact Real.exp_pos _
      refine ⟨fun _ => hposQ, fun z => ?_⟩
      show (funcOf logLinearRateScheme Q).call z = (funcOf logLinearRateScheme P).call z
      by_cases hz : z = 0
      · rw [hz, funcOf_rate_zero hP h0, funcOf_rate_zero hQ h0Q]
        by_cases h : ∃ q ∈ Q, q.1 = 0
        · obtain ⟨q, hq, e⟩ := h
          rw [hval0 q hq e, find_zero_eq hQ (by rw [← e]; exact hq)]
        · have h' : ∀ q ∈ Q, q.1 ≠ 0 := fun q hq h0 => h ⟨q, hq, h0⟩
          rw [find_zero_none h', find_zero_none fun p hp => h' p (hsub p hp)]
      · rw [funcOf_rate_call hP h0 hz, funcOf_rate_call hQ h0Q hz]
        refine congrArg (fun r : ℝ => (Except.ok (some (Real.exp (-(r * z)))) : Py (Option ℝ))) (flin_finer (sortPairs_strict (ratePts_nodup hP))
          (sortPairs_strict (ratePts_nodup hQ)) (sortPairs_ne_nil (ratePts_ne h0)) (fun p hp => ?_) (fun q hq => ?_) z)
        · rw [(sortPairs_perm _).mem_iff] at hp ⊢
          obtain ⟨q, hq, rfl⟩ := List.mem_map.1 hp
          obtain ⟨hq, h0⟩ := List.mem_filter.1 hq
          exact List.mem_map.2 ⟨q, List.mem_filter.2 ⟨hsub q hq, h0⟩, rfl⟩
        · rw [(sortPairs_perm _).mem_iff] at hq
          obtain ⟨q, hq', rfl⟩ := List.mem_map.1 hq
          obtain ⟨hq, hn⟩ := List.mem_filter.1 hq'
          have hn : q.1 ≠ 0 := by simpa using hn
          show _ = -Real.log q.2 / q.1
          rw [← hval q hq hn, Real.log_exp, neg_neg, mul_div_cancel_right₀ _ hn]

/-! ### C154 -/

/-- C154: an interpolation built from its own values on any finer grid is the same function. -/
theorem C154_function {s : FuncSpec} (hs : Refinable s) {P Q : List (ℝ × ℝ)} (hP : (P.map Prod.fst).Nodup)
    (hQ : (Q.map Prod.fst).Nodup) (hpos : s.isLog → ∀ p ∈ P, 0 < p.2) {f : Func}
    (hf : Func.new s (P.map Prod.fst) (P.map Prod.snd) = .ok f) (hsub : ∀ p ∈ P, p ∈ Q)
    (hon : ∀ q ∈ Q, f.call q.1 = .ok (some q.2)) :
    ∃ g, Func.new s (Q.map Prod.fst) (Q.map Prod.snd) = .ok g ∧ ∀ z, g.call z = f.call z := by
  rw [Func_new_eq s hP hpos] at hf
  obtain rfl := Except.ok.inj hf
  obtain ⟨h1, h2⟩ := funcOf_finer hs hP hQ hsub hpos hon
  exact ⟨_, Func_new_eq s hQ h1, h2⟩

theorem readable_nonzero {s : FuncSpec} (hs : Refinable s) {P : List (ℝ × ℝ)} {x v : ℝ} (hx : (funcOf s P).call x = .ok (some v))
    (h : s.needsNonzero) : ∃ p ∈ P, p.1 ≠ 0 := by
  cases s with
  | base k => cases h
  | scheme l m r str =>
    simp only [Refinable, List.mem_cons, Prod.mk.injEq, List.not_mem_nil, or_false] at hs
    rcases hs with ⟨rfl, rfl, rfl⟩ | ⟨rfl, rfl, rfl⟩ | ⟨rfl, rfl, rfl⟩
    · cases h
    · cases h
    · by_contra h0
      have he : storedPts .logconstantrate P = [] := by
        have : P.filter (fun p => p.1 ≠ 0) = [] := by
          rw [List.filter_eq_nil_iff]
          intro p hp hne
          exact h0 ⟨p, hp, by simpa using hne⟩
        simp only [storedPts, this, List.map_nil]
      rw [funcOf_empty _ _ _ _ he] at hx
      cases hx

/-- Putting a point of the graph. -/
theorem funcOf_put {s : FuncSpec} (hs : Refinable s) {P : List (ℝ × ℝ)} (hP : (P.map Prod.fst).Nodup)
    (hpos : s.isLog → ∀ p ∈ P, 0 < p.2) {x v : ℝ} (hx : (funcOf s P).call x = .ok (some v)) :
    (s.isLog → ∀ q ∈ putPt P x v, 0 < q.2) ∧ ∀ z, (funcOf s (putPt P x v)).call z = (funcOf s P).call z := by
  have hnode : ∀ p ∈ P, (funcOf s P).call p.1 = .ok (some p.2) := fun p hp =>
    funcOf_node s hP hpos (readable_nonzero hs hx) hp
  refine funcOf_finer hs hP (putPt_nodup hP x v) (fun p hp => ?_) hpos (fun q hq => ?_)
  · rw [putPt_mem]
    by_cases h : p.1 = x
    · refine .inl ?_
      have := hnode p hp
      rw [h, hx] at this
      rw [Option.some.inj (Except.ok.inj this), ← h]
    · exact .inr ⟨hp, h⟩
  · rcases putPt_mem.1 hq with rfl | ⟨hq, -⟩
    · exact hx
    · exact hnode q hq

/-- C154 (curves): assigning values read off the curve, any number of them in any order, does not change the curve. -/
theorem C154_curve {i : Option FuncSpec} (hs : Refinable (i.getD linearScheme)) {P : List (ℝ × ℝ)} (hP : (P.map Prod.fst).Nodup)
    (hpos : (i.getD linearScheme).isLog → ∀ p ∈ P, 0 < p.2) {c : Curve}
    (hc : Curve.new (P.map Prod.fst) (P.map Prod.snd) i = .ok c) {xs : List ℝ}
    (hx : ∀ x ∈ xs, ∃ v, c.call x = .ok (some v)) :
    ∃ c', xs.foldlM (fun c x => do Curve.setitem c x (← c.num x)) c = .ok c' ∧ (∀ z, c'.call z = c.call z) ∧
      ∀ z, z ∈ c'.domain ↔ z ∈ c.domain ∨ z ∈ xs := by
  rw [Curve_new_eq i hP hpos] at hc
  obtain rfl := Except.ok.inj hc
  clear hc
  induction xs generalizing P with
  | nil => exact ⟨_, rfl, fun _ => rfl, by simp⟩
  | cons x xs ih =>
    obtain ⟨v, hv⟩ := hx x (by simp)
    have hv' : (funcOf (i.getD linearScheme) P).call x = .ok (some v) := hv
    obtain ⟨h1, h2⟩ := funcOf_put hs hP hpos hv'
    have hset := Curve_setitem_eq i hP hpos (readable_nonzero hs hv') x v fun h => h1 h (x, v) (putPt_mem.2 (.inl rfl))
    have h2' : ∀ z, (curveOf i (putPt P x v)).call z = (curveOf i P).call z := h2
    obtain ⟨c', h3, h4, h5⟩ := ih (putPt_nodup hP x v) h1 (fun y hy => by
      rw [h2']
      exact hx y (by simp [hy]))
    refine ⟨c', ?_, fun z => (h4 z).trans (h2' z), fun z => ?_⟩
    · rw [List.foldlM_cons]
      have hnum : (curveOf i P).num x = .ok v := by simp only [Curve.num, hv, Py.ok_bind]; rfl
      rw [hnum, Py.ok_bind, hset, Py.ok_bind, h3]
    · have hd : ∀ L : List (ℝ × ℝ), z ∈ (curveOf i L).domain ↔ z ∈ L.map Prod.fst := fun L =>
        ((sortPairs_perm L).map Prod.fst).mem_iff
      have hput : z ∈ (putPt P x v).map Prod.fst ↔ z = x ∨ z ∈ P.map Prod.fst := by
        constructor
        · intro h
          obtain ⟨q, hq, rfl⟩ := List.mem_map.1 h
          rcases putPt_mem.1 hq with rfl | ⟨hq, -⟩
          · exact .inl rfl
          · exact .inr (List.mem_map.2 ⟨q, hq, rfl⟩)
        · intro h
          by_cases e : z = x
          · exact List.mem_map.2 ⟨(x, v), putPt_mem.2 (.inl rfl), e.symm⟩
          · obtain ⟨q, hq, rfl⟩ := List.mem_map.1 (h.resolve_left e)
            exact List.mem_map.2 ⟨q, putPt_mem.2 (.inr ⟨hq, e⟩), rfl⟩
      rw [h5, hd, hd, hput, List.mem_cons]
      tauto

section Date
variable {D P : Type} [LinearOrder D] {cal : Cal D P}

theorem timePts_put {τ : D → D → ℝ} (hτ : GoodDayCount τ) (o : D) (pts : List (D × ℝ)) (x : D) (v : ℝ) :
    timePts τ o (putPt pts x v) = putPt (timePts τ o pts) (τ o x) v := by
  have hinj : ∀ a b, τ o a = τ o b ↔ a = b := fun a b => by
    constructor
    · intro h
      rcases lt_trichotomy a b with h' | h' | h'
      · exact absurd h ((hτ.lt_iff o _ _).2 h').ne
      · exact h'
      · exact absurd h ((hτ.lt_iff o _ _).2 h').ne'
    · rintro rfl; rfl
  have hmem : τ o x ∈ (timePts τ o pts).map Prod.fst ↔ x ∈ pts.map Prod.fst := by
    rw [timePts_fst]
    constructor
    · intro h
      obtain ⟨a, ha, e⟩ := List.mem_map.1 h
      rw [← (hinj a x).1 e]; exact ha
    · intro h; exact List.mem_map.2 ⟨x, h, rfl⟩
  unfold putPt
  by_cases h : x ∈ pts.map Prod.fst
  · rw [if_pos h, if_pos (hmem.2 h)]
    simp only [timePts, List.map_map]
    refine List.map_congr_left fun p _ => ?_
    simp only [Function.comp, hinj]
    split_ifs <;> rfl
  · rw [if_neg h, if_neg fun h' => h (hmem.1 h')]
    simp [timePts]

theorem putPt_head {pts : List (D × ℝ)} {o? : Option D} {o : D} (ho : o?.or (pts.map Prod.fst).head? = some o) (x : D) (v : ℝ) :
    o?.or ((putPt pts x v).map Prod.fst).head? = some o := by
  cases o? with
  | some a => exact ho
  | none =>
    cases pts with
    | nil => cases ho
    | cons p pts =>
      unfold putPt
      split_ifs with h
      · simp only [List.map_cons, List.head?_cons, Option.none_or] at ho ⊢
        split_ifs with e
        · rw [← ho, e]
        · exact ho
      · exact ho

theorem dateCurveOf_put {i : Option FuncSpec} {dflt : FuncSpec} (hs : Refinable (i.getD dflt)) {o? : Option D} {o : D}
    {dc : DayCountArg D} (hd : dc.Usable) (hτ : GoodDayCount (dc.fn cal)) {pts : List (D × ℝ)} (hn : (pts.map Prod.fst).Nodup)
    (ho : o?.or (pts.map Prod.fst).head? = some o) (hpos : (i.getD dflt).isLog → ∀ p ∈ pts, 0 < p.2) {x : D} {v : ℝ}
    (hx : (dateCurveOf (dc.fn cal) o o? dc i dflt pts).call cal x = .ok (some v)) :
    (dateCurveOf (dc.fn cal) o o? dc i dflt pts).setitem cal x v = .ok (dateCurveOf (dc.fn cal) o o? dc i dflt (putPt pts x v)) ∧
      ((i.getD dflt).isLog → ∀ q ∈ putPt pts x v, 0 < q.2) ∧
      ∀ z, (dateCurveOf (dc.fn cal) o o? dc i dflt (putPt pts x v)).call cal z =
        (dateCurveOf (dc.fn cal) o o? dc i dflt pts).call cal z := by
  have hposT : (i.getD dflt).isLog → ∀ p ∈ timePts (dc.fn cal) o pts, 0 < p.2 := fun h p hp => by
    obtain ⟨q, hq, rfl⟩ := List.mem_map.1 hp
    exact hpos h q hq
  have hnT := timePts_nodup hτ o hn
  rw [dateCurveOf_call cal ho hd] at hx
  obtain ⟨h1, h2⟩ := funcOf_put hs hnT hposT hx
  have h1' : (i.getD dflt).isLog → ∀ q ∈ putPt pts x v, 0 < q.2 := fun h q hq => by
    refine h1 h (dc.fn cal o q.1, q.2) ?_
    rw [← timePts_put hτ]
    exact List.mem_map.2 ⟨q, hq, rfl⟩
  refine ⟨?_, h1', fun z => ?_⟩
  · set c := dateCurveOf (dc.fn cal) o o? dc i dflt pts with hc
    have hvals : pyMap (c.num cal) c.domain = .ok (pts.map Prod.snd) := by
      have : ∀ l : List (D × ℝ), (∀ p ∈ l, p ∈ pts) → pyMap (c.num cal) (l.map Prod.fst) = .ok (l.map Prod.snd) := by
        intro l
        induction l with
        | nil => intro _; rfl
        | cons p l ih =>
          intro h
          have hp : c.num cal p.1 = .ok p.2 := by
            have : c.call cal p.1 = .ok (some p.2) := by
              rw [hc, dateCurveOf_call cal ho hd]
              exact funcOf_node _ hnT hposT (readable_nonzero hs hx) (List.mem_map.2 ⟨p, h p (by simp), rfl⟩)
            simp [DateCurve.num, this, pyNum]
          rw [List.map_cons, pyMap_cons, hp, Py.ok_bind, ih fun q hq => h q (by simp [hq])]; rfl
      exact this pts fun p hp => hp
    unfold DateCurve.setitem DateCurve.setitemWith
    rw [hvals, Py.ok_bind]
    simp only [show c.domain = pts.map Prod.fst from rfl, setPoint_eq hn]
    rw [update_eq cal (c := c) (o := o) ho hd (timePts_nodup hτ o (putPt_nodup hn x v)) h1']
    rfl
  · rw [dateCurveOf_call cal ho hd, dateCurveOf_call cal (putPt_head ho x v) hd, timePts_put hτ]
    exact h2 _

theorem put_domain {pts : List (D × ℝ)} {x : D} {v : ℝ} {z : D} :
    z ∈ (putPt pts x v).map Prod.fst ↔ z ∈ pts.map Prod.fst ∨ z = x := by
  constructor
  · intro h
    obtain ⟨q, hq, rfl⟩ := List.mem_map.1 h
    rcases putPt_mem.1 hq with rfl | ⟨hq, -⟩
    · exact .inr rfl
    · exact .inl (List.mem_map.2 ⟨q, hq, rfl⟩)
  · intro h
    by_cases e : z = x
    · exact List.mem_map.2 ⟨(x, v), putPt_mem.2 (.inl rfl), e.symm⟩
    · obtain ⟨q, hq, rfl⟩ := List.mem_map.1 (h.resolve_right e)
      exact List.mem_map.2 ⟨q, putPt_mem.2 (.inr ⟨hq, e⟩), rfl⟩

/-- C154 (date curves): the same for date curves, whose origin may be given or their first date. -/
theorem C154_date_curve {i : Option FuncSpec} {dflt : FuncSpec} (hs : Refinable (i.getD dflt)) {o? : Option D} {o : D}
    {dc : DayCountArg D} (hd : dc.Usable) (hτ : GoodDayCount (dc.fn cal)) {pts : List (D × ℝ)} (hn : (pts.map Prod.fst).Nodup)
    (ho : o?.or (pts.map Prod.fst).head? = some o) (hpos : (i.getD dflt).isLog → ∀ p ∈ pts, 0 < p.2) {c : DateCurve D}
    (hc : DateCurve.new cal (pts.map Prod.fst) (pts.map Prod.snd) i o? dc dflt = .ok c) {xs : List D}
    (hx : ∀ x ∈ xs, ∃ v, c.call cal x = .ok (some v)) :
    ∃ c', xs.foldlM (fun c x => do DateCurve.setitem cal c x (← c.num cal x)) c = .ok c' ∧
      (∀ z, c'.call cal z = c.call cal z) ∧ ∀ z, z ∈ c'.domain ↔ z ∈ c.domain ∨ z ∈ xs := by
  rw [DateCurve_new_eq cal i o? dc dflt ho hd (timePts_nodup hτ o hn) hpos] at hc
  obtain rfl := Except.ok.inj hc
  clear hc
  induction xs generalizing pts with
  | nil => exact ⟨_, rfl, fun _ => rfl, by simp⟩
  | cons x xs ih =>
    obtain ⟨v, hv⟩ := hx x (by simp)
    obtain ⟨h1, h2, h3⟩ := dateCurveOf_put hs hd hτ hn ho hpos hv
    obtain ⟨c', h4, h5, h6⟩ := ih (putPt_nodup hn x v) (putPt_head ho x v) h2 (fun y hy => by
      rw [h3]
      exact hx y (by simp [hy]))
    refine ⟨c', ?_, fun z => (h5 z).trans (h3 z), fun z => ?_⟩
    · rw [List.foldlM_cons]
      have hnum : (dateCurveOf (dc.fn cal) o o? dc i dflt pts).num cal x = .ok v := by
        simp only [DateCurve.num, hv, Py.ok_bind]; rfl
      rw [hnum, Py.ok_bind, h1, Py.ok_bind, h4]
    · rw [h6, show z ∈ (dateCurveOf (dc.fn cal) o o? dc i dflt (putPt pts x v)).domain ↔ _ from put_domain, List.mem_cons]
      show _ ↔ z ∈ pts.map Prod.fst ∨ _
      tauto

theorem rate_of_base {c : RateCurve D P} (hc : c.spread = none) (x : D) : c.call cal x = c.base.num cal x := by
  simp only [RateCurve.call, hc, DateCurve.num, Py.ok_bind]
  cases c.base.call cal x with
  | error e => rfl
  | ok y => cases y <;> simp [pyNum]

theorem rate_refine {i : Option FuncSpec} {dflt : FuncSpec} (hs : Refinable (i.getD dflt)) {o? : Option D} {o : D}
    {dc : DayCountArg D} (hd : dc.Usable) (hτ : GoodDayCount (dc.fn cal)) {pts : List (D × ℝ)} (hn : (pts.map Prod.fst).Nodup)
    (ho : o?.or (pts.map Prod.fst).head? = some o) (hpos : (i.getD dflt).isLog → ∀ p ∈ pts, 0 < p.2) (tenor : Option P) {xs : List D}
    (hx : ∀ x ∈ xs, ∃ v, (⟨dateCurveOf (dc.fn cal) o o? dc i dflt pts, tenor, none⟩ : RateCurve D P).call cal x = .ok v) :
    ∃ c' : RateCurve D P, xs.foldlM (fun c x => do RateCurve.setitem cal c x (← c.call cal x))
        (⟨dateCurveOf (dc.fn cal) o o? dc i dflt pts, tenor, none⟩ : RateCurve D P) = .ok c' ∧
      (∀ z, c'.call cal z = (⟨dateCurveOf (dc.fn cal) o o? dc i dflt pts, tenor, none⟩ : RateCurve D P).call cal z) ∧
      (∀ z, z ∈ c'.base.domain ↔ z ∈ pts.map Prod.fst ∨ z ∈ xs) ∧ c'.tenor = tenor ∧ c'.spread = none := by
  have hread : ∀ x ∈ xs, ∃ v, (dateCurveOf (dc.fn cal) o o? dc i dflt pts).call cal x = .ok (some v) := by
    intro x hxs
    obtain ⟨v, hv⟩ := hx x hxs
    rw [rate_of_base rfl] at hv
    obtain ⟨y, h1, h2⟩ := Py.bind_eq_ok.1 hv
    cases y with
    | none => cases h2
    | some y => exact ⟨y, h1⟩
  obtain ⟨c', h1, h2, h3⟩ := C154_date_curve hs hd hτ hn ho hpos
    (DateCurve_new_eq cal i o? dc dflt ho hd (timePts_nodup hτ o hn) hpos) hread
  have hfold : ∀ (xs : List D) (b b' : DateCurve D),
      xs.foldlM (fun c x => do DateCurve.setitem cal c x (← c.num cal x)) b = .ok b' →
      xs.foldlM (fun c x => do RateCurve.setitem cal c x (← c.call cal x)) (⟨b, tenor, none⟩ : RateCurve D P) = .ok ⟨b', tenor, none⟩ := by
    intro xs
    induction xs with
    | nil => intro b b' h; obtain rfl := Except.ok.inj h; rfl
    | cons x xs ih =>
      intro b b' h
      rw [List.foldlM_cons] at h ⊢
      obtain ⟨b1, h1, h2⟩ := Py.bind_eq_ok.1 h
      obtain ⟨v, h3, h4⟩ := Py.bind_eq_ok.1 h1
      rw [rate_of_base rfl, h3, Py.ok_bind, RateCurve_setitem_none rfl, h4]
      exact ih b1 b' h2
  refine ⟨⟨c', tenor, none⟩, hfold _ _ _ h1, fun z => ?_, h3, rfl, rfl⟩
  rw [rate_of_base rfl, rate_of_base rfl]
  simp only [DateCurve.num, h2]

/-- C154 (interest rate curves): the same for every class of interest rate curves. -/
theorem C154_rate_curve {cls : IRClass} {i : Option FuncSpec} (hs : Refinable (i.getD cls.dflt)) {o? : Option D} {o : D}
    {dc : DayCountArg D} (hd : dc.Usable) (hτ : GoodDayCount (dc.fn cal)) {pts : List (D × ℝ)} (hn : (pts.map Prod.fst).Nodup)
    (ho : o?.or (pts.map Prod.fst).head? = some o) (hpos : (i.getD cls.dflt).isLog → ∀ p ∈ pts, 0 < p.2) {tenor : Option P}
    {c : IRCurve D P} (hc : IRCurve.new cal cls (pts.map Prod.fst) (pts.map Prod.snd) i o? dc tenor = .ok c) {xs : List D}
    (hx : ∀ x ∈ xs, ∃ v, c.call cal x = .ok v) :
    ∃ c', xs.foldlM (fun c x => do RateCurve.setitem cal c x (← c.call cal x)) c.toRateCurve = .ok c' ∧
      (∀ z, c'.call cal z = c.call cal z) ∧ ∀ z, z ∈ c'.base.domain ↔ z ∈ c.base.domain ∨ z ∈ xs := by
  rw [IRCurve_new_eq cal hn hpos ho hd hτ] at hc
  obtain rfl := Except.ok.inj hc
  obtain ⟨c', h1, h2, h3, -⟩ := rate_refine hs hd hτ hn ho hpos tenor hx
  exact ⟨c', h1, h2, h3⟩

/-- C154 (credit curves): and of credit curves, whose probabilities are stored within their bounds. -/
theorem C154_credit_curve {cls : CRClass} {i : Option FuncSpec} (hs : Refinable (i.getD cls.dflt)) {o? : Option D} {o : D}
    {dc : DayCountArg D} (hd : dc.Usable) (hτ : GoodDayCount (dc.fn cal)) {pts : List (D × ℝ)} (hn : (pts.map Prod.fst).Nodup)
    (ho : o?.or (pts.map Prod.fst).head? = some o) (hpos : cls.isProb = false → (i.getD cls.dflt).isLog → ∀ p ∈ pts, 0 < p.2)
    {tenor : Option P} {c : CRCurve D P} (hc : CRCurve.new cal cls (pts.map Prod.fst) (pts.map Prod.snd) i o? dc tenor = .ok c)
    {xs : List D} (hx : ∀ x ∈ xs, ∃ v, c.call cal x = .ok v) :
    ∃ c', xs.foldlM (fun c x => do RateCurve.setitem cal c x (← c.call cal x)) c.toRateCurve = .ok c' ∧
      (∀ z, c'.call cal z = c.call cal z) ∧ ∀ z, z ∈ c'.base.domain ↔ z ∈ c.base.domain ∨ z ∈ xs := by
  cases hp : cls.isProb with
  | false =>
    rw [CRCurve_new_rate hp, CRCurve_make_eq cal hn (hpos hp) ho hd hτ] at hc
    obtain rfl := Except.ok.inj hc
    obtain ⟨c', h1, h2, h3, -⟩ := rate_refine hs hd hτ hn ho (hpos hp) tenor hx
    exact ⟨c', h1, h2, h3⟩
  | true =>
    rw [CRCurve_new_eq hp hn ho hd hτ] at hc
    obtain rfl := Except.ok.inj hc
    set pts' := pts.map fun p => (p.1, storedProb cls p.2) with hpts'
    have e1 : pts'.map Prod.fst = pts.map Prod.fst := by
      rw [hpts', List.map_map]; rfl
    have hpos' : (i.getD cls.dflt).isLog → ∀ q ∈ pts', 0 < q.2 := fun _ q hq => by
      obtain ⟨p, -, rfl⟩ := List.mem_map.1 hq
      exact storedProb_pos cls p.2
    rw [← e1] at hn ho
    obtain ⟨c', h1, h2, h3, -⟩ := rate_refine hs hd hτ hn ho hpos' tenor hx
    exact ⟨c', h1, h2, h3⟩

end Date

/-- C154 (`zero_linear_scheme`): unchanged by points of the graph that are not before the data. -/
theorem C154_zero_linear {P Q : List (ℝ × ℝ)} (hP : (P.map Prod.fst).Nodup) (hQ : (Q.map Prod.fst).Nodup) {f : Func}
    (hf : Func.new zeroLinearScheme (P.map Prod.fst) (P.map Prod.snd) = .ok f) (hsub : ∀ p ∈ P, p ∈ Q)
    (hon : ∀ q ∈ Q, f.call q.1 = .ok (some q.2)) (hge : ∀ q ∈ Q, ∃ p ∈ P, p.1 ≤ q.1) :
    ∃ g, Func.new zeroLinearScheme (Q.map Prod.fst) (Q.map Prod.snd) = .ok g ∧ ∀ z, g.call z = f.call z := by
  rcases P.eq_nil_or_concat' with rfl | ⟨_, _, hc⟩
  · have : Q = [] := List.eq_nil_iff_forall_not_mem.2 fun q hq => by
      obtain ⟨p, hp, -⟩ := hge q hq
      simp at hp
    rw [this]
    exact ⟨f, hf, fun _ => rfl⟩
  have hne : P ≠ [] := by rw [hc]; simp
  obtain ⟨p0, hp0⟩ := List.exists_mem_of_ne_nil _ hne
  obtain ⟨f', g', h1, h2, h3⟩ := C15_zero_linear P hP hne
  obtain rfl := Except.ok.inj (hf.symm.trans h1)
  obtain ⟨f2, g2, h4, h5, h6⟩ := C15_zero_linear Q hQ (List.ne_nil_of_mem (hsub _ hp0))
  obtain ⟨g3, h7, h8⟩ := C154_function (s := linearScheme) (by simp [Refinable, linearScheme]) hP hQ
    (by simp [linearScheme, FuncSpec.isLog, Kind.isLog]) h2 hsub fun q hq => by
      rw [← (h3 q.1).2 (hge q hq)]
      exact hon q hq
  obtain rfl := Except.ok.inj (h5.symm.trans h7)
  refine ⟨f2, h4, fun z => ?_⟩
  by_cases hz : ∃ p ∈ P, p.1 ≤ z
  · rw [(h3 z).2 hz, (h6 z).2 (hz.imp fun p hp => ⟨hsub p hp.1, hp.2⟩), h8]
  · push Not at hz
    rw [(h3 z).1 hz, (h6 z).1 fun q hq => ?_]
    obtain ⟨p, hp, hpq⟩ := hge q hq
    exact (hz p hp).trans_le hpq

/-- C154 (refuted for `zero_linear_scheme`): adding the value zero before the data moves the curve in between. -/
theorem C154_zero_violated : ∃ c c', Curve.new [1, 2] [1, 1] (some zeroLinearScheme) = .ok c ∧ c.call 0 = .ok (some 0) ∧
    c.setitem 0 0 = .ok c' ∧ c.call (1 / 2) = .ok (some 0) ∧ c'.call (1 / 2) = .ok (some (1 / 2)) := by
  have hn : (([(1, 1), (2, 1)] : List (ℝ × ℝ)).map Prod.fst).Nodup := by norm_num
  have hn' : (([(1, 1), (2, 1), (0, 0)] : List (ℝ × ℝ)).map Prod.fst).Nodup := by norm_num
  have hl : ((some zeroLinearScheme).getD linearScheme).isLog = false := rfl
  have h0 : ((some zeroLinearScheme).getD linearScheme).needsNonzero = false := rfl
  have hset := Curve_setitem_eq (some zeroLinearScheme) hn (by rw [hl]; simp) (by rw [h0]; simp) 0 0 (by rw [hl]; simp)
  have hput : putPt [((1 : ℝ), (1 : ℝ)), (2, 1)] 0 0 = [(1, 1), (2, 1), (0, 0)] := by norm_num [putPt]
  rw [hput] at hset
  obtain ⟨f, g, hf, hg, h⟩ := C15_zero_linear _ hn (by simp)
  obtain ⟨f', g', hf', hg', h'⟩ := C15_zero_linear _ hn' (by simp)
  rw [Func_new_eq _ hn (by simp [zeroLinearScheme, FuncSpec.isLog, Kind.isLog])] at hf
  rw [Func_new_eq _ hn' (by simp [zeroLinearScheme, FuncSpec.isLog, Kind.isLog])] at hf'
  obtain rfl := Except.ok.inj hf
  obtain rfl := Except.ok.inj hf'
  rw [Func_new_eq _ hn' (by simp [linearScheme, FuncSpec.isLog, Kind.isLog])] at hg'
  obtain rfl := Except.ok.inj hg'
  have hst : sortPairs [((1 : ℝ), (1 : ℝ)), (2, 1), (0, 0)] = [(0, 0), (1, 1), (2, 1)] := by
    rw [← sortPairs_eq_self (l := [((0 : ℝ), (0 : ℝ)), (1, 1), (2, 1)]) (by simp [StrictX])]
    refine sortPairs_congr ?_
    exact (List.perm_append_comm (l₁ := [((1 : ℝ), (1 : ℝ)), (2, 1)]) (l₂ := [(0, 0)]))
  refine ⟨_, _, Curve_new_eq (some zeroLinearScheme) hn (by rw [hl]; simp), (h 0).1 (by norm_num), hset, (h (1 / 2)).1 (by norm_num), ?_⟩
  show (funcOf zeroLinearScheme _).call _ = _
  rw [(h' (1 / 2)).2 ⟨(0, 0), by simp, by norm_num⟩, funcOf_linear_call hn' (by simp), hst]
  norm_num [flin, chord]

/-- C154 (refuted for `nearest`): a point read off the curve attracts its own neighbourhood. -/
theorem C154_nearest_violated : ∃ c c', Curve.new [0, 2] [0, 1] (some (.base .nearest)) = .ok c ∧ c.call (1 / 2) = .ok (some 0) ∧
    c.setitem (1 / 2) 0 = .ok c' ∧ c.call (6 / 5) = .ok (some 1) ∧ c'.call (6 / 5) = .ok (some 0) := by
  have hn : (([(0, 0), (2, 1)] : List (ℝ × ℝ)).map Prod.fst).Nodup := by norm_num
  have hn' : (([(0, 0), (2, 1), (1 / 2, 0)] : List (ℝ × ℝ)).map Prod.fst).Nodup := by norm_num
  have hset := Curve_setitem_eq (some (.base .nearest)) hn (by simp [FuncSpec.isLog, Kind.isLog])
    (by simp [FuncSpec.needsNonzero]) (1 / 2) 0 (by simp [FuncSpec.isLog, Kind.isLog])
  have hput : putPt [((0 : ℝ), (0 : ℝ)), (2, 1)] (1 / 2) 0 = [(0, 0), (2, 1), (1 / 2, 0)] := by norm_num [putPt]
  rw [hput] at hset
  have key : ∀ (P : List (ℝ × ℝ)), (P.map Prod.fst).Nodup → P ≠ [] → ∀ x y, IsNearestValue P x y →
      (curveOf (some (.base .nearest)) P).call x = .ok (some y) := by
    intro P hP hne x y hy
    obtain ⟨f, y', h1, h2, h3⟩ := C12_nearest P hP hne x
    rw [Interp_new_eq _ P (by simp [Kind.isLog])] at h1
    obtain rfl := Except.ok.inj h1
    rw [(C12_unique P hP x y y').2.2 hy h3]
    exact h2
  refine ⟨_, _, Curve_new_eq (some (.base .nearest)) hn (by simp [FuncSpec.isLog, Kind.isLog]), key _ hn (by simp) _ _ ?_, hset,
    key _ hn (by simp) _ _ ?_, key _ hn' (by simp) _ _ ?_⟩
  · exact ⟨(0, 0), by simp, rfl, by simp; norm_num [abs_of_nonneg, abs_of_nonpos]⟩
  · exact ⟨(2, 1), by simp, rfl, by simp; norm_num [abs_of_nonneg, abs_of_nonpos]⟩
  · exact ⟨(1 / 2, 0), by simp, rfl, by simp; norm_num [abs_of_nonneg, abs_of_nonpos]⟩

/-- Zero rates meet the hypotheses: the rate half way is assigned to a curve of two points. -/
example : ∃ (c : IRCurve ℤ ℤ) (c' : RateCurve ℤ ℤ), IRCurve.new dayCal .zero [0, 730] [1 / 100, 3 / 100] none none .default none = .ok c ∧
    c.call dayCal 365 = .ok (2 / 100) ∧ [365].foldlM (fun c x => do RateCurve.setitem dayCal c x (← c.call dayCal x)) c.toRateCurve = .ok c' ∧
    365 ∈ c'.base.domain ∧ ∀ z, c'.call dayCal z = c.call dayCal z := by
  have hn : (([(0, 1 / 100), (730, 3 / 100)] : List (ℤ × ℝ)).map Prod.fst).Nodup := by norm_num
  have hl : ((none : Option FuncSpec).getD IRClass.zero.dflt).isLog = false := rfl
  have hnew := IRCurve_new_eq dayCal (pts := [(0, 1 / 100), (730, 3 / 100)]) (i := none) (o? := none) (dc := .default) (o := 0)
    (cls := .zero) (tenor := none) hn (by rw [hl]; simp) rfl trivial goodDayCount_int
  have hc : ∀ x, (irOf dayCal 0 none .default none .zero none [(0, 1 / 100), (730, 3 / 100)]).call dayCal x =
      .ok (linVal dayCal.dayCount 0 [(0, 1 / 100), (730, 3 / 100)] x) := fun x =>
    irOf_linear dayCal (dc := .default) rfl rfl trivial goodDayCount_int hn (by simp) x
  obtain ⟨c', h1, h2, h3⟩ := C154_rate_curve (cal := dayCal) (by simp [Refinable, IRClass.dflt, linearScheme]) (dc := .default) trivial
    goodDayCount_int hn rfl (by rw [hl]; simp) hnew (xs := [365]) fun x _ => ⟨_, hc x⟩
  refine ⟨_, c', hnew, ?_, h1, (h3 365).2 (.inr (by simp)), h2⟩
  rw [hc]
  have hst : sortPairs (timePts dayCal.dayCount 0 [((0 : ℤ), (1 / 100 : ℝ)), (730, 3 / 100)]) = [(0, 1 / 100), (2920 / 1461, 3 / 100)] := by
    have : timePts dayCal.dayCount 0 [((0 : ℤ), (1 / 100 : ℝ)), (730, 3 / 100)] = [(0, 1 / 100), (2920 / 1461, 3 / 100)] := by
      norm_num [timePts, dayCal]
    rw [this]
    exact sortPairs_eq_self (by simp [StrictX])
  simp only [linVal]
  rw [hst]
  norm_num [dayCal, flin, chord]

end Dcf
