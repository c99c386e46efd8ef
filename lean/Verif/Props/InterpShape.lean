import Verif.Lemmas.CreditCurve
import Verif.Lemmas.RateCurve
import Verif.Props.Interpolation

/-! # Shape of interpolated functions: C117 -/

set_option linter.unusedSectionVars false
set_option linter.unusedSimpArgs false
set_option linter.unusedVariables false

namespace Dcf

open Spec

/-- The interpolations whose values are means of neighbouring values: steps, linear and log-linear with flat ends. -/
def meanSpecs : List FuncSpec :=
  [.base .left, .base .constant, .base .right, .base .nearest, linearScheme, logLinearScheme]

/-- The three step interpolations by their node. -/
def LeftNode (xs : List ℝ) (x a : ℝ) : Prop :=
  a ∈ xs ∧ ((a ≤ x ∧ ∀ q ∈ xs, q ≤ x → q ≤ a) ∨ ((∀ q ∈ xs, x < q) ∧ ∀ q ∈ xs, a ≤ q))

def RightNode (xs : List ℝ) (x a : ℝ) : Prop :=
  a ∈ xs ∧ ((x ≤ a ∧ ∀ q ∈ xs, x ≤ q → a ≤ q) ∨ ((∀ q ∈ xs, q < x) ∧ ∀ q ∈ xs, q ≤ a))

def NearestNode (xs : List ℝ) (x a : ℝ) : Prop :=
  a ∈ xs ∧ ∀ q ∈ xs, |a - x| ≤ |q - x| ∧ (|a - x| = |q - x| → a ≤ q)

theorem LeftNode.mono {xs : List ℝ} {x y a b : ℝ} (h : LeftNode xs x a) (h' : LeftNode xs y b) (hxy : x ≤ y) : a ≤ b := by
  obtain ⟨ha, ⟨h1, h2⟩ | ⟨h1, h2⟩⟩ := h <;> obtain ⟨hb, ⟨h3, h4⟩ | ⟨h3, h4⟩⟩ := h'
  · exact h4 a ha (h1.trans hxy)
  · exact absurd (h3 a ha) (by linarith)
  · exact h2 b hb
  · exact h2 b hb

theorem RightNode.mono {xs : List ℝ} {x y a b : ℝ} (h : RightNode xs x a) (h' : RightNode xs y b) (hxy : x ≤ y) : a ≤ b := by
  obtain ⟨ha, ⟨h1, h2⟩ | ⟨h1, h2⟩⟩ := h <;> obtain ⟨hb, ⟨h3, h4⟩ | ⟨h3, h4⟩⟩ := h'
  · exact h2 b hb (hxy.trans h3)
  · exact h4 a ha
  · exact absurd (h1 b hb) (by linarith)
  · exact h4 a ha

theorem NearestNode.mono {xs : List ℝ} {x y a b : ℝ} (h : NearestNode xs x a) (h' : NearestNode xs y b) (hxy : x ≤ y) : a ≤ b := by
  by_contra hab
  rw [not_le] at hab
  obtain ⟨h1, h2⟩ := h.2 b h'.1
  obtain ⟨h3, h4⟩ := h'.2 a h.1
  have sq : ∀ u v : ℝ, |u| ≤ |v| → u ^ 2 ≤ v ^ 2 := fun u v h => sq_le_sq.2 h
  have e1 : a + b ≤ 2 * x := by nlinarith [sq _ _ h1]
  have e2 : 2 * y ≤ a + b := by nlinarith [sq _ _ h3]
  have ex : 2 * x = a + b := by linarith
  have : |a - x| = |b - x| := by
    rw [show a - x = -(b - x) by linarith, abs_neg]
  exact absurd (h2 this) (by linarith)

/-- A node predicate picks one node for each `x`, moving up with `x`. -/
structure StepRule (xs : List ℝ) (R : ℝ → ℝ → Prop) : Prop where
  mem : ∀ x a, R x a → a ∈ xs
  mono : ∀ x y a b, R x a → R y b → x ≤ y → a ≤ b

/-- What is needed of an interpolation rule `V`, which takes data `u` on the nodes to a function. -/
structure MeanRule (xs : List ℝ) (pos : Prop) (V : (ℝ → ℝ) → ℝ → ℝ) : Prop where
  range : ∀ u a b, (pos → ∀ x ∈ xs, 0 < u x) → (∀ x ∈ xs, a ≤ u x ∧ u x ≤ b) → ∀ x, a ≤ V u x ∧ V u x ≤ b
  order : ∀ u v, (pos → ∀ x ∈ xs, 0 < u x) → (∀ x ∈ xs, u x ≤ v x) → ∀ x, V u x ≤ V v x
  mono : ∀ u, (pos → ∀ x ∈ xs, 0 < u x) → (∀ x ∈ xs, ∀ y ∈ xs, x ≤ y → u x ≤ u y) → Monotone (V u)
  anti : ∀ u, (pos → ∀ x ∈ xs, 0 < u x) → (∀ x ∈ xs, ∀ y ∈ xs, x ≤ y → u y ≤ u x) → Antitone (V u)
  stable : ¬ pos → ∀ u v (e : ℝ), (∀ x ∈ xs, |u x - v x| ≤ e) → ∀ x, |V u x - V v x| ≤ e

theorem StepRule.meanRule {xs : List ℝ} {R : ℝ → ℝ → Prop} (h : StepRule xs R) {n : ℝ → ℝ} (hn : ∀ x, R x (n x)) (pos : Prop) :
    MeanRule xs pos fun u x => u (n x) where
  range u a b _ hu x := hu _ (h.mem _ _ (hn x))
  order u v _ hu x := hu _ (h.mem _ _ (hn x))
  mono u _ hu x y hxy := hu _ (h.mem _ _ (hn x)) _ (h.mem _ _ (hn y)) (h.mono _ _ _ _ (hn x) (hn y) hxy)
  anti u _ hu x y hxy := hu _ (h.mem _ _ (hn x)) _ (h.mem _ _ (hn y)) (h.mono _ _ _ _ (hn x) (hn y) hxy)
  stable _ u v e hu x := hu _ (h.mem _ _ (hn x))

theorem flin_mono {l : List (ℝ × ℝ)} (hl : StrictX l) (hm : ∀ p ∈ l, ∀ q ∈ l, p.1 ≤ q.1 → p.2 ≤ q.2) : Monotone (flin l) := by
  induction l with
  | nil => exact monotone_const
  | cons p t ih =>
    match t, hl, ih, hm with
    | [], _, _, _ => exact monotone_const
    | q :: t, hl, ih, hm =>
      have hpq : p.1 < q.1 := (List.pairwise_cons.1 hl).1 q (by simp)
      have hl' : StrictX (q :: t) := (List.pairwise_cons.1 hl).2
      have hpq2 : p.2 ≤ q.2 := hm p (by simp) q (by simp) hpq.le
      have lower : ∀ {r : ℝ × ℝ} {t : List (ℝ × ℝ)}, StrictX (r :: t) → (∀ s ∈ r :: t, r.2 ≤ s.2) → ∀ x, r.2 ≤ flin (r :: t) x := by
        intro r t h h' x
        obtain ⟨b, hb⟩ : ∃ b, ∀ s ∈ r :: t, s.2 ≤ b := by
          obtain ⟨b, hb⟩ := ((r :: t).map Prod.snd).toFinset.bddAbove
          exact ⟨b, fun s hs => hb (by rw [Finset.mem_coe, List.mem_toFinset]; exact List.mem_map.2 ⟨s, hs, rfl⟩)⟩
        exact (flin_bounds h (by simp) (fun s hs => ⟨h' s hs, hb s hs⟩) x).1
      have hp : ∀ x, p.2 ≤ flin (p :: q :: t) x := lower hl fun s hs => by
        rcases List.mem_cons.1 hs with rfl | hs'
        · exact le_rfl
        · exact hm p (by simp) s hs ((List.pairwise_cons.1 hl).1 s hs').le
      have hq : ∀ x, q.2 ≤ flin (q :: t) x := lower hl' fun s hs => by
        rcases List.mem_cons.1 hs with rfl | hs'
        · exact le_rfl
        · exact hm q (by simp) s (List.mem_cons_of_mem _ hs) ((List.pairwise_cons.1 hl').1 s hs').le
      intro x y hxy
      by_cases h1 : x ≤ p.1
      · rw [flin_le_first h1]; exact hp y
      · have h1y : ¬ y ≤ p.1 := fun h => h1 (hxy.trans h)
        rw [flin, flin, if_neg h1, if_neg h1y]
        by_cases h2 : x ≤ q.1
        · rw [if_pos h2]
          by_cases h3 : y ≤ q.1
          · rw [if_pos h3]
            unfold chord
            have : 0 ≤ (q.2 - p.2) / (q.1 - p.1) := div_nonneg (by linarith) (by linarith)
            have := mul_le_mul_of_nonneg_left (by linarith : x - p.1 ≤ y - p.1) this
            linarith
          · rw [if_neg h3]
            exact (chord_mem (a := p.2) (b := q.2) hpq (not_le.1 h1).le h2 le_rfl hpq2 hpq2 le_rfl).2.trans (hq y)
        · rw [if_neg h2, if_neg fun h => h2 (hxy.trans h)]
          exact ih hl' (fun a ha b hb => hm a (List.mem_cons_of_mem _ ha) b (List.mem_cons_of_mem _ hb)) hxy

/-- Linear interpolation of `u` on the nodes, flat outside. -/
noncomputable def linRule (xs : List ℝ) (u : ℝ → ℝ) : ℝ → ℝ := flin (sortPairs (xs.map fun x => (x, u x)))

theorem exists_sorted {xs : List ℝ} (hn : xs.Nodup) : ∃ zs : List ℝ, zs.Pairwise (· < ·) ∧ (∀ x, x ∈ zs ↔ x ∈ xs) ∧
    ∀ u : ℝ → ℝ, sortPairs (xs.map fun x => (x, u x)) = zs.map fun x => (x, u x) := by
  have h1 : (xs.insertionSort (· ≤ ·)).Pairwise (· ≤ ·) := List.pairwise_insertionSort _ _
  have h2 : (xs.insertionSort (· ≤ ·)).Pairwise (· ≠ ·) :=
    List.nodup_iff_pairwise_ne.1 ((List.perm_insertionSort _ _).nodup_iff.2 hn)
  have h3 : (xs.insertionSort (· ≤ ·)).Pairwise (· < ·) := (h1.and h2).imp fun h => lt_of_le_of_ne h.1 h.2
  refine ⟨xs.insertionSort (· ≤ ·), h3, fun x => (List.perm_insertionSort _ _).mem_iff, fun u => ?_⟩
  have hs : StrictX ((xs.insertionSort (· ≤ ·)).map fun x => (x, u x)) := by
    unfold StrictX
    rw [List.pairwise_map]
    exact h3
  rw [← sortPairs_eq_self hs]
  exact sortPairs_congr ((List.perm_insertionSort _ xs).symm.map _)

theorem linRule_comb {xs : List ℝ} (hn : xs.Nodup) (hne : xs ≠ []) (u v : ℝ → ℝ) (c d x : ℝ) :
    linRule xs (fun x => c * u x + d * v x) x = c * linRule xs u x + d * linRule xs v x := by
  obtain ⟨zs, hz, hm, hs⟩ := exists_sorted hn
  have hz0 : zs ≠ [] := by
    obtain ⟨a, ha⟩ := List.exists_mem_of_ne_nil _ hne
    exact List.ne_nil_of_mem ((hm a).2 ha)
  have hst : ∀ w : ℝ → ℝ, StrictX (zs.map fun x => (x, w x)) := fun w => by
    unfold StrictX; rw [List.pairwise_map]; exact hz
  have hnode : ∀ (w : ℝ → ℝ), ∀ z ∈ zs, flin (zs.map fun x => (x, w x)) z = w z := fun w z hz' =>
    flin_node (hst w) (List.mem_map.2 ⟨z, hz', rfl⟩)
  unfold linRule
  rw [hs, hs, hs, ← flin_comb (hst u) (hst v) (by simpa using hz0) (by simpa using hz0) hz
    (fun p hp => by obtain ⟨z, h, rfl⟩ := List.mem_map.1 hp; exact h) (fun p hp => by obtain ⟨z, h, rfl⟩ := List.mem_map.1 hp; exact h)]
  congr 1
  exact List.map_congr_left fun z hz' => by rw [hnode u z hz', hnode v z hz']

theorem linRule_range {xs : List ℝ} (hn : xs.Nodup) (hne : xs ≠ []) {u : ℝ → ℝ} {a b : ℝ} (h : ∀ x ∈ xs, a ≤ u x ∧ u x ≤ b) (x : ℝ) :
    a ≤ linRule xs u x ∧ linRule xs u x ≤ b := by
  refine flin_bounds (sortPairs_strict (by simpa [Function.comp_def] using hn)) (sortPairs_ne_nil (by simpa using hne)) (fun p hp => ?_) x
  obtain ⟨z, hz, rfl⟩ := List.mem_map.1 ((sortPairs_perm _).subset hp)
  exact h z hz

theorem linRule_meanRule {xs : List ℝ} (hn : xs.Nodup) (hne : xs ≠ []) (pos : Prop) : MeanRule xs pos (linRule xs) := by
  have hsub : ∀ u v : ℝ → ℝ, ∀ x, linRule xs (fun x => u x - v x) x = linRule xs u x - linRule xs v x := fun u v x => by
    have := linRule_comb hn hne u v 1 (-1) x
    simp only [one_mul, neg_mul, ← sub_eq_add_neg] at this
    exact this
  have hmono : ∀ u : ℝ → ℝ, (∀ x ∈ xs, ∀ y ∈ xs, x ≤ y → u x ≤ u y) → Monotone (linRule xs u) := fun u h => by
    refine flin_mono (sortPairs_strict (by simpa [Function.comp_def] using hn)) fun p hp q hq hpq => ?_
    obtain ⟨z, hz, rfl⟩ := List.mem_map.1 ((sortPairs_perm _).subset hp)
    obtain ⟨w, hw, rfl⟩ := List.mem_map.1 ((sortPairs_perm _).subset hq)
    exact h z hz w hw hpq
  have habs : ∀ (u v : ℝ → ℝ) (e : ℝ), (∀ x ∈ xs, |u x - v x| ≤ e) → ∀ x, |linRule xs u x - linRule xs v x| ≤ e := fun u v e h x => by
    rw [← hsub, abs_le]
    exact linRule_range hn hne (fun y hy => abs_le.1 (h y hy)) x
  refine ⟨fun u a b _ h x => linRule_range hn hne h x, fun u v _ h x => ?_, fun u _ h => hmono u h, fun u _ h => ?_, fun _ u v e h x => habs u v e h x⟩
  · obtain ⟨b, hb⟩ : ∃ b, ∀ y ∈ xs, v y - u y ≤ b := by
      obtain ⟨b, hb⟩ := (xs.map fun y => v y - u y).toFinset.bddAbove
      exact ⟨b, fun y hy => hb (by rw [Finset.mem_coe, List.mem_toFinset]; exact List.mem_map.2 ⟨y, hy, rfl⟩)⟩
    have := (linRule_range hn hne (u := fun x => v x - u x) (a := 0) (fun y hy => ⟨sub_nonneg.2 (h y hy), hb y hy⟩) x).1
    rw [hsub] at this
    linarith
  · have := hmono (fun x => 0 * u x + (-1) * u x) fun x hx y hy hxy => by have := h x hx y hy hxy; linarith
    intro x y hxy
    have := this hxy
    rw [linRule_comb hn hne, linRule_comb hn hne] at this
    linarith

theorem logRule_meanRule {xs : List ℝ} (hn : xs.Nodup) (hne : xs ≠ []) :
    MeanRule xs True fun u x => Real.exp (linRule xs (fun x => Real.log (u x)) x) := by
  have hl := linRule_meanRule hn hne False
  refine ⟨fun u a b hp h x => ?_, fun u v hp h x => ?_, fun u hp h x y hxy => ?_, fun u hp h x y hxy => ?_, fun h => absurd trivial h⟩
  · have hp := hp trivial
    obtain ⟨z, hz⟩ := List.exists_mem_of_ne_nil _ hne
    have hb : 0 < b := (hp z hz).trans_le (h z hz).2
    refine ⟨?_, ?_⟩
    · rcases le_or_gt a 0 with ha | ha
      · exact ha.trans (Real.exp_pos _).le
      · rw [← Real.log_le_iff_le_exp ha]
        exact (linRule_range hn hne (fun y hy => ⟨Real.log_le_log ha (h y hy).1, Real.log_le_log (hp y hy) (h y hy).2⟩) x).1
    · rw [← Real.le_log_iff_exp_le hb]
      obtain ⟨c, hc⟩ : ∃ c, ∀ y ∈ xs, c ≤ Real.log (u y) := by
        obtain ⟨c, hc⟩ := (xs.map fun y => Real.log (u y)).toFinset.bddBelow
        exact ⟨c, fun y hy => hc (by rw [Finset.mem_coe, List.mem_toFinset]; exact List.mem_map.2 ⟨y, hy, rfl⟩)⟩
      exact (linRule_range hn hne (fun y hy => ⟨hc y hy, Real.log_le_log (hp y hy) (h y hy).2⟩) x).2
  · exact Real.exp_le_exp.2 (hl.order (fun x => Real.log (u x)) (fun x => Real.log (v x)) False.elim (fun y hy => Real.log_le_log (hp trivial y hy) (h y hy)) x)
  · exact Real.exp_le_exp.2 (hl.mono (fun x => Real.log (u x)) False.elim (fun x hx y hy hxy => Real.log_le_log (hp trivial x hx) (h x hx y hy hxy)) hxy)
  · exact Real.exp_le_exp.2 (hl.anti (fun x => Real.log (u x)) False.elim (fun x hx y hy hxy => Real.log_le_log (hp trivial y hy) (h x hx y hy hxy)) hxy)

theorem graph_lists (xs : List ℝ) (u : ℝ → ℝ) : (xs.map fun x => (x, u x)).map Prod.fst = xs ∧
    (xs.map fun x => (x, u x)).map Prod.snd = xs.map u := by
  simp [Function.comp_def]

/-- Every one of these interpolations is such a rule. -/
theorem mean_rule {s : FuncSpec} (hs : s ∈ meanSpecs) {xs : List ℝ} (hn : xs.Nodup) (hne : xs ≠ []) :
    ∃ V, MeanRule xs (s = logLinearScheme) V ∧ ∀ u : ℝ → ℝ, (s = logLinearScheme → ∀ x ∈ xs, 0 < u x) →
      ∃ f, Func.new s xs (xs.map u) = .ok f ∧ ∀ x, f.call x = .ok (some (V u x)) := by
  have hn' : ∀ u : ℝ → ℝ, ((xs.map fun x => (x, u x)).map Prod.fst).Nodup := fun u => by rw [(graph_lists xs u).1]; exact hn
  have hne' : ∀ u : ℝ → ℝ, (xs.map fun x => (x, u x)) ≠ [] := fun u => by simpa using hne
  have step : ∀ (k : Kind) (R : ℝ → ℝ → Prop), k.isLog = false → StepRule xs R →
      (∀ u : ℝ → ℝ, ∀ x, ∃ y, (interpOf k (xs.map fun x => (x, u x))).call x = .ok (some y) ∧ ∃ a, R x a ∧ y = u a) →
      ∃ V, MeanRule xs (FuncSpec.base k = logLinearScheme) V ∧ ∀ u : ℝ → ℝ, (FuncSpec.base k = logLinearScheme → ∀ x ∈ xs, 0 < u x) →
      ∃ f, Func.new (.base k) xs (xs.map u) = .ok f ∧ ∀ x, f.call x = .ok (some (V u x)) := by
    intro k R hk hR h
    choose n hn1 using fun x => (by obtain ⟨y, -, a, ha, -⟩ := h id x; exact ⟨a, ha⟩ : ∃ a, R x a)
    refine ⟨_, hR.meanRule hn1 _, fun u _ => ?_⟩
    have e := Func_new_eq (.base k) (hn' u) (by simp [FuncSpec.isLog, hk])
    rw [(graph_lists xs u).1, (graph_lists xs u).2] at e
    refine ⟨_, e, fun x => ?_⟩
    obtain ⟨y, h1, a, ha, rfl⟩ := h u x
    rw [le_antisymm (hR.mono _ _ _ _ ha (hn1 x) le_rfl) (hR.mono _ _ _ _ (hn1 x) ha le_rfl)] at h1
    exact h1
  have left : ∀ (u : ℝ → ℝ) x y, IsLeftValue (xs.map fun x => (x, u x)) x y → ∃ a, LeftNode xs x a ∧ y = u a := by
    rintro u x y ⟨p, hp, rfl, h⟩
    obtain ⟨a, ha, rfl⟩ := List.mem_map.1 hp
    refine ⟨a, ⟨ha, ?_⟩, rfl⟩
    simpa using h
  have right : ∀ (u : ℝ → ℝ) x y, IsRightValue (xs.map fun x => (x, u x)) x y → ∃ a, RightNode xs x a ∧ y = u a := by
    rintro u x y ⟨p, hp, rfl, h⟩
    obtain ⟨a, ha, rfl⟩ := List.mem_map.1 hp
    refine ⟨a, ⟨ha, ?_⟩, rfl⟩
    simpa using h
  have nearest : ∀ (u : ℝ → ℝ) x y, IsNearestValue (xs.map fun x => (x, u x)) x y → ∃ a, NearestNode xs x a ∧ y = u a := by
    rintro u x y ⟨p, hp, rfl, h⟩
    obtain ⟨a, ha, rfl⟩ := List.mem_map.1 hp
    refine ⟨a, ⟨ha, ?_⟩, rfl⟩
    simpa using h
  have hcall : ∀ (k : Kind) (u : ℝ → ℝ) (f : Interp), k.isLog = false →
      Interp.new k ((xs.map fun x => (x, u x)).map Prod.fst) ((xs.map fun x => (x, u x)).map Prod.snd) = .ok f →
      f = interpOf k (xs.map fun x => (x, u x)) := by
    intro k u f hk h
    rw [Interp_new_eq k _ (by simp [hk])] at h
    exact (Except.ok.inj h).symm
  simp only [meanSpecs, List.mem_cons, List.not_mem_nil, or_false] at hs
  rcases hs with rfl | rfl | rfl | rfl | rfl | rfl
  · refine step .left (LeftNode xs) rfl ⟨fun _ _ h => h.1, fun _ _ _ _ h h' hxy => h.mono h' hxy⟩ fun u x => ?_
    obtain ⟨f, y, h1, h2, h3⟩ := C12_left .left (Or.inl rfl) _ (hn' u) (hne' u) x
    rw [hcall _ u f rfl h1] at h2
    exact ⟨y, h2, left u x y h3⟩
  · refine step .constant (LeftNode xs) rfl ⟨fun _ _ h => h.1, fun _ _ _ _ h h' hxy => h.mono h' hxy⟩ fun u x => ?_
    obtain ⟨f, y, h1, h2, h3⟩ := C12_left .constant (Or.inr rfl) _ (hn' u) (hne' u) x
    rw [hcall _ u f rfl h1] at h2
    exact ⟨y, h2, left u x y h3⟩
  · refine step .right (RightNode xs) rfl ⟨fun _ _ h => h.1, fun _ _ _ _ h h' hxy => h.mono h' hxy⟩ fun u x => ?_
    obtain ⟨f, y, h1, h2, h3⟩ := C12_right _ (hn' u) (hne' u) x
    rw [hcall _ u f rfl h1] at h2
    exact ⟨y, h2, right u x y h3⟩
  · refine step .nearest (NearestNode xs) rfl ⟨fun _ _ h => h.1, fun _ _ _ _ h h' hxy => h.mono h' hxy⟩ fun u x => ?_
    obtain ⟨f, y, h1, h2, h3⟩ := C12_nearest _ (hn' u) (hne' u) x
    rw [hcall _ u f rfl h1] at h2
    exact ⟨y, h2, nearest u x y h3⟩
  · refine ⟨_, linRule_meanRule hn hne _, fun u _ => ?_⟩
    have e := Func_new_eq linearScheme (hn' u) (by simp [FuncSpec.isLog, linearScheme, Kind.isLog])
    rw [(graph_lists xs u).1, (graph_lists xs u).2] at e
    exact ⟨_, e, fun x => funcOf_linear_call (hn' u) (hne' u) x⟩
  · refine ⟨_, (eq_self logLinearScheme).symm ▸ logRule_meanRule hn hne, fun u hu => ?_⟩
    have hp : ∀ p ∈ xs.map fun x => (x, u x), 0 < p.2 := fun p hp => by
      obtain ⟨z, hz, rfl⟩ := List.mem_map.1 hp; exact hu rfl z hz
    have e := Func_new_eq logLinearScheme (hn' u) fun _ => hp
    rw [(graph_lists xs u).1, (graph_lists xs u).2] at e
    refine ⟨_, e, fun x => ?_⟩
    rw [funcOf_loglinear_call (hn' u) (hne' u) hp x, ← sort_logPts (hn' u)]
    simp [linRule, logPts, Function.comp_def]

/-- C117: interpolated values stay within the range of the data, and increasing (decreasing) data give increasing (decreasing)
functions, everywhere including the outside of the nodes. -/
theorem C117_shape {s : FuncSpec} (hs : s ∈ meanSpecs) {xs : List ℝ} (hn : xs.Nodup) (hne : xs ≠ []) {u : ℝ → ℝ}
    (hpos : s = logLinearScheme → ∀ x ∈ xs, 0 < u x) :
    ∃ f g, Func.new s xs (xs.map u) = .ok f ∧ (∀ x, f.call x = .ok (some (g x))) ∧
      (∀ a b, (∀ x ∈ xs, a ≤ u x ∧ u x ≤ b) → ∀ x, a ≤ g x ∧ g x ≤ b) ∧
      ((∀ x ∈ xs, ∀ y ∈ xs, x ≤ y → u x ≤ u y) → Monotone g) ∧ ((∀ x ∈ xs, ∀ y ∈ xs, x ≤ y → u y ≤ u x) → Antitone g) := by
  obtain ⟨V, hV, h⟩ := mean_rule hs hn hne
  obtain ⟨f, hf, hc⟩ := h u hpos
  exact ⟨f, V u, hf, hc, fun a b => hV.range u a b hpos, hV.mono u hpos, hV.anti u hpos⟩

/-- C117: higher data on the same nodes give higher values everywhere; data that differ by at most `e` give values that differ by at
most `e` (not for logarithms). -/
theorem C117_order {s : FuncSpec} (hs : s ∈ meanSpecs) {xs : List ℝ} (hn : xs.Nodup) (hne : xs ≠ []) {u v : ℝ → ℝ}
    (hu : s = logLinearScheme → ∀ x ∈ xs, 0 < u x) (hv : s = logLinearScheme → ∀ x ∈ xs, 0 < v x) :
    ∃ (f f' : Func) (g g' : ℝ → ℝ), Func.new s xs (xs.map u) = .ok f ∧ Func.new s xs (xs.map v) = .ok f' ∧ (∀ x, f.call x = .ok (some (g x))) ∧
      (∀ x, f'.call x = .ok (some (g' x))) ∧ ((∀ x ∈ xs, u x ≤ v x) → ∀ x, g x ≤ g' x) ∧
      (s ≠ logLinearScheme → ∀ e, (∀ x ∈ xs, |u x - v x| ≤ e) → ∀ x, |g x - g' x| ≤ e) := by
  obtain ⟨V, hV, h⟩ := mean_rule hs hn hne
  obtain ⟨f, hf, hc⟩ := h u hu
  obtain ⟨f', hf', hc'⟩ := h v hv
  exact ⟨f, f', V u, V v, hf, hf', hc, hc', hV.order u v hu, fun hl => hV.stable hl u v⟩

/-! ## The scheme of discount factors and survival probabilities -/

theorem rate_rule {xs : List ℝ} (hn : xs.Nodup) (hnz : ∃ x ∈ xs, x ≠ 0) {u : ℝ → ℝ} (hu : ∀ x ∈ xs, 0 < u x) :
    ∃ f, Func.new logLinearRateScheme xs (xs.map u) = .ok f ∧ ∀ x, x ≠ 0 →
      f.call x = .ok (some (Real.exp (-(linRule (xs.filter (· ≠ 0)) (fun x => -Real.log (u x) / x) x * x)))) := by
  have hn' : ((xs.map fun x => (x, u x)).map Prod.fst).Nodup := by rw [(graph_lists xs u).1]; exact hn
  have hp : ∀ p ∈ xs.map fun x => (x, u x), 0 < p.2 := fun p hp => by
    obtain ⟨z, hz, rfl⟩ := List.mem_map.1 hp; exact hu z hz
  have e := Func_new_eq logLinearRateScheme hn' fun _ => hp
  rw [(graph_lists xs u).1, (graph_lists xs u).2] at e
  refine ⟨_, e, fun x hx => ?_⟩
  rw [funcOf_rate_call hn' (by obtain ⟨z, hz, h⟩ := hnz; exact ⟨_, List.mem_map.2 ⟨z, hz, rfl⟩, h⟩) hx]
  simp only [linRule, ratePts]
  rw [List.filter_map, List.map_map]
  rfl

/-- C117 (log-linear rates): after time zero, discount factors whose zero rates lie in a range have zero rates in that range at every
time; higher discount factors on the same nodes give higher ones everywhere. -/
theorem C117_rate {xs : List ℝ} (hn : xs.Nodup) (hx0 : ∀ x ∈ xs, 0 ≤ x) (hnz : ∃ x ∈ xs, x ≠ 0) {u v : ℝ → ℝ}
    (hu : ∀ x ∈ xs, 0 < u x) (hv : ∀ x ∈ xs, 0 < v x) :
    ∃ (f f' : Func) (g g' : ℝ → ℝ), Func.new logLinearRateScheme xs (xs.map u) = .ok f ∧
      Func.new logLinearRateScheme xs (xs.map v) = .ok f' ∧
      (∀ x, 0 < x → f.call x = .ok (some (g x))) ∧ (∀ x, 0 < x → f'.call x = .ok (some (g' x))) ∧
      (∀ a b, (∀ x ∈ xs, Real.exp (-(b * x)) ≤ u x ∧ u x ≤ Real.exp (-(a * x))) →
        ∀ x, 0 < x → Real.exp (-(b * x)) ≤ g x ∧ g x ≤ Real.exp (-(a * x))) ∧
      ((∀ x ∈ xs, u x ≤ v x) → ∀ x, 0 < x → g x ≤ g' x) := by
  obtain ⟨f, hf, hc⟩ := rate_rule hn hnz hu
  obtain ⟨f', hf', hc'⟩ := rate_rule hn hnz hv
  have hn2 : (xs.filter (· ≠ 0)).Nodup := hn.filter _
  have hne2 : xs.filter (· ≠ 0) ≠ [] := by
    obtain ⟨z, hz, h⟩ := hnz
    exact List.ne_nil_of_mem (List.mem_filter.2 ⟨hz, by simpa using h⟩)
  have hmem : ∀ x ∈ xs.filter (· ≠ 0), x ∈ xs ∧ 0 < x := fun x hx => by
    obtain ⟨h1, h2⟩ := List.mem_filter.1 hx
    exact ⟨h1, lt_of_le_of_ne (hx0 x h1) (Ne.symm (by simpa using h2))⟩
  refine ⟨f, f', _, _, hf, hf', fun x hx => hc x hx.ne', fun x hx => hc' x hx.ne', fun a b h x hx => ?_, fun h x hx => ?_⟩
  · have := linRule_range hn2 hne2 (u := fun x => -Real.log (u x) / x) (a := a) (b := b) (fun z hz => ?_) x
    · rw [Real.exp_le_exp, Real.exp_le_exp]
      constructor
      · have := mul_le_mul_of_nonneg_right this.2 hx.le; linarith
      · have := mul_le_mul_of_nonneg_right this.1 hx.le; linarith
    · obtain ⟨hz1, hz2⟩ := hmem z hz
      obtain ⟨h1, h2⟩ := h z hz1
      rw [← Real.le_log_iff_exp_le (hu z hz1)] at h1
      rw [← Real.log_le_iff_le_exp (hu z hz1)] at h2
      rw [le_div_iff₀ hz2, div_le_iff₀ hz2]
      constructor <;> linarith
  · have := (linRule_meanRule hn2 hne2 False).order (fun x => -Real.log (v x) / x) (fun x => -Real.log (u x) / x) False.elim
      (fun z hz => ?_) x
    · rw [Real.exp_le_exp]
      have := mul_le_mul_of_nonneg_right this hx.le; linarith
    · obtain ⟨hz1, hz2⟩ := hmem z hz
      have := Real.log_le_log (hu z hz1) (h z hz1)
      exact div_le_div_of_nonneg_right (by linarith) hz2.le

/-- C117 (what goes wrong): the default scheme of discount factors and survival probabilities leaves the range of its data and does
not keep their order: equal values at two times give less in between, so that they fall and rise again. -/
theorem C117_rate_violated : ∃ f, Func.new logLinearRateScheme [1, 2] [Real.exp (-1), Real.exp (-1)] = .ok f ∧
    f.call 1 = .ok (some (Real.exp (-1))) ∧ f.call (3 / 2) = .ok (some (Real.exp (-(9 / 8)))) ∧ f.call 2 = .ok (some (Real.exp (-1))) := by
  obtain ⟨f, hf, hc⟩ := rate_rule (xs := [1, 2]) (u := fun _ => Real.exp (-1)) (by norm_num) ⟨1, by simp, by norm_num⟩
    (fun _ _ => Real.exp_pos _)
  have hfil : ([1, 2] : List ℝ).filter (· ≠ 0) = [1, 2] := by norm_num [List.filter]
  have hst : sortPairs [((1 : ℝ), (1 : ℝ)), (2, 1 / 2)] = [(1, 1), (2, 1 / 2)] :=
    sortPairs_eq_self (by simp [StrictX])
  have hl : ∀ x, linRule (([1, 2] : List ℝ).filter (· ≠ 0)) (fun x => -Real.log (Real.exp (-1)) / x) x = flin [(1, 1), (2, 1 / 2)] x := by
    intro x
    rw [hfil, ← hst]
    simp [linRule, Real.log_exp]
  refine ⟨f, by simpa using hf, ?_, ?_, ?_⟩
  · rw [hc 1 (by norm_num), hl]; norm_num [flin]
  · rw [hc (3 / 2) (by norm_num), hl]; norm_num [flin, chord]
  · rw [hc 2 (by norm_num), hl]; norm_num [flin, chord]

/-- Hypotheses of C117 are met. -/
example : ([0, 1, 3] : List ℝ).Nodup ∧ ([0, 1, 3] : List ℝ) ≠ [] ∧ (∀ x ∈ ([0, 1, 3] : List ℝ), 0 ≤ x) ∧ (∃ x ∈ ([0, 1, 3] : List ℝ), x ≠ 0) ∧
    (∀ x ∈ ([0, 1, 3] : List ℝ), 0 < Real.exp x) ∧ (∀ x ∈ ([0, 1, 3] : List ℝ), ∀ y ∈ ([0, 1, 3] : List ℝ), x ≤ y → Real.exp x ≤ Real.exp y) ∧
    linearScheme ∈ meanSpecs ∧ logLinearScheme ∈ meanSpecs := by
  refine ⟨by norm_num, by simp, by simp, ⟨1, by simp, by norm_num⟩, fun x _ => Real.exp_pos x, fun x _ y _ h => Real.exp_le_exp.2 h, ?_, ?_⟩ <;>
  simp [meanSpecs]

/-- C15: `zero_linear_scheme` is zero before the first node and the default scheme from there on. -/
theorem C15_zero_linear (pts : List (ℝ × ℝ)) (hn : (pts.map Prod.fst).Nodup) (hne : pts ≠ []) :
    ∃ f g, Func.new zeroLinearScheme (pts.map Prod.fst) (pts.map Prod.snd) = .ok f ∧
      Func.new linearScheme (pts.map Prod.fst) (pts.map Prod.snd) = .ok g ∧
      ∀ x, ((∀ p ∈ pts, x < p.1) → f.call x = .ok (some 0)) ∧ ((∃ p ∈ pts, p.1 ≤ x) → f.call x = g.call x) := by
  have hnz : ∀ k, k = Kind.zero ∨ k = Kind.constant → nodesOf k pts = pts := by
    rintro k (rfl | rfl) <;> simp [nodesOf]
  obtain ⟨f, fl, fm, fr, hf, hl, hm, hr, h⟩ := C15_dispatch .zero .linear .constant false pts hn (by simpa [hnz] using hne)
    (by simpa [hnz] using hne) (by simp [Kind.isLog])
  obtain ⟨g, gl, gm, gr, hg, hl', hm', hr', h'⟩ := C15_dispatch .constant .linear .constant false pts hn (by simpa [hnz] using hne)
    (by simpa [hnz] using hne) (by simp [Kind.isLog])
  obtain rfl := Except.ok.inj (hm.symm.trans hm')
  obtain rfl := Except.ok.inj (hr.symm.trans hr')
  refine ⟨f, g, hf, hg, fun x => ⟨fun hx => ?_, fun hx => ?_⟩⟩
  · rw [(h x).1 (by simpa [hnz] using hx)]
    rw [Interp_new_eq _ pts (by simp [Kind.isLog])] at hl
    obtain rfl := Except.ok.inj hl
    have hxn : x ∉ (sortPairs pts).map Prod.fst := fun hm => by
      obtain ⟨p, hp, rfl⟩ := List.mem_map.1 hm
      exact lt_irrefl _ (hx p ((sortPairs_perm _).mem_iff.1 hp))
    exact if_neg hxn
  · obtain ⟨-, h2, h3⟩ := h x
    obtain ⟨-, h2', h3'⟩ := h' x
    simp only [hnz _ (.inl rfl), hnz _ (.inr rfl)] at h2 h3 h2' h3'
    by_cases hr : ∃ p ∈ pts, x ≤ p.1
    · rw [h3 hx hr, h3' hx hr]
    · push Not at hr
      rw [h2 hx hr, h2' hx hr]

/-- Hypotheses of C15 are met: 0 before, a third on the way, flat after the data. -/
example : ∃ f, Func.new zeroLinearScheme [1, 4] [1, 2] = .ok f ∧ f.call 0 = .ok (some 0) ∧ f.call 2 = .ok (some (4 / 3)) ∧
    f.call 5 = .ok (some 2) := by
  have hn : (([(1, 1), (4, 2)] : List (ℝ × ℝ)).map Prod.fst).Nodup := by norm_num
  obtain ⟨f, g, hf, hg, h⟩ := C15_zero_linear [(1, 1), (4, 2)] hn (by simp)
  have hst : sortPairs [((1 : ℝ), (1 : ℝ)), (4, 2)] = [(1, 1), (4, 2)] := sortPairs_eq_self (by simp [StrictX])
  have hc : ∀ x, g.call x = .ok (some (flin [(1, 1), (4, 2)] x)) := by
    intro x
    rw [linearScheme_new hn] at hg
    obtain rfl := Except.ok.inj hg
    have := linFunc_call (sortPairs_strict hn) (sortPairs_ne_nil (by simp)) x
    rw [hst] at this ⊢
    exact this
  refine ⟨f, by simpa using hf, (h 0).1 (by norm_num), ?_, ?_⟩
  · rw [(h 2).2 ⟨(1, 1), by simp, by norm_num⟩, hc]; norm_num [flin, chord]
  · rw [(h 5).2 ⟨(1, 1), by simp, by norm_num⟩, hc]; norm_num [flin, chord]

/-! ### The hypotheses can be met: each theorem applied -/

example := C117_shape (s := linearScheme) (by simp [meanSpecs]) (xs := [0, 1, 3]) (by norm_num) (by simp) (u := fun x => x ^ 2)
  (fun h => absurd h (by simp [linearScheme, logLinearScheme]))
example := C117_shape (s := logLinearScheme) (by simp [meanSpecs]) (xs := [0, 1, 3]) (by norm_num) (by simp) (u := Real.exp)
  (fun _ x _ => Real.exp_pos x)
example := C117_order (s := linearScheme) (by simp [meanSpecs]) (xs := [0, 1, 3]) (by norm_num) (by simp) (u := fun x => x ^ 2) (v := fun x => x ^ 2 + x)
  (fun h => absurd h (by simp [linearScheme, logLinearScheme])) (fun h => absurd h (by simp [linearScheme, logLinearScheme]))
example := C117_rate (xs := [0, 1, 3]) (by norm_num) (by norm_num) ⟨1, by norm_num⟩ (u := fun x => Real.exp (-x)) (v := fun x => Real.exp (-x / 2))
  (fun x _ => Real.exp_pos _) (fun x _ => Real.exp_pos _)

end Dcf
