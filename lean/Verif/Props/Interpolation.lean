import Verif.Lemmas.Interp
import Mathlib.Tactic.LinearCombination

/-! # Interpolation: properties C11-C17, C73 -/

set_option linter.unusedSectionVars false
set_option linter.unusedSimpArgs false
set_option linter.unusedVariables false

namespace Dcf

open Spec

/-! ## C11: nodes are reproduced -/

/-- C11 (classes): every interpolation class, given points with different abscissae in any order
(positive values for the log classes), can be built and returns `y` at `x` for each point. -/
theorem C11_classes (k : Kind) (pts : List (ℝ × ℝ)) (hn : (pts.map Prod.fst).Nodup)
    (hpos : k.isLog → ∀ p ∈ pts, 0 < p.2) :
    ∃ f, Interp.new k (pts.map Prod.fst) (pts.map Prod.snd) = .ok f ∧
      ∀ x y, (x, y) ∈ pts → f.call x = .ok (some y) :=
  ⟨_, Interp_new_eq k pts hpos, fun _ _ hm => Interp_node k hn hpos hm⟩

/-- C11 (schemes): every scheme, i.e. every triple of classes, reproduces the points, provided some
abscissa is not zero. -/
theorem C11_schemes (l m r : Kind) (str : Bool) (pts : List (ℝ × ℝ)) (hn : (pts.map Prod.fst).Nodup)
    (hpos : l.isLog ∨ m.isLog ∨ r.isLog → ∀ p ∈ pts, 0 < p.2) (h0 : ∃ p ∈ pts, p.1 ≠ 0) :
    ∃ f, Func.new (.scheme l m r str) (pts.map Prod.fst) (pts.map Prod.snd) = .ok f ∧
      ∀ x y, (x, y) ∈ pts → f.call x = .ok (some y) := by
  refine ⟨_, Func_new_scheme l m r str hn hpos, fun x y hm => ?_⟩
  simp only [Func.call, first_xs (sortPairs_ne_nil (storedPts_ne_nil l h0)),
    last_xs (sortPairs_ne_nil (storedPts_ne_nil r h0)), Py.ok_bind]
  split_ifs
  · exact Interp_node l hn (fun h => hpos (.inl h)) hm
  · exact Interp_node r hn (fun h => hpos (.inr (.inr h))) hm
  · exact Interp_node m hn (fun h => hpos (.inr (.inl h))) hm

/-- C11 (exception): the log-rate scheme built on the single abscissa zero can be built but raises
`IndexError` on every call, even at the given point. -/
theorem C11_rate_scheme_only_zero (y x : ℝ) (hy : 0 < y) :
    ∃ f, Func.new logLinearRateScheme [0] [y] = .ok f ∧ f.call x = .error .index := by
  have h := Func_new_scheme .logconstantrate .loglinearrate .logconstantrate false (pts := [(0, y)])
    (by simp) (fun _ => by simpa using hy)
  refine ⟨_, h, ?_⟩
  simp [Func.call, storedPts, sortPairs, ptsOf, pyIndex]

example : (([(1, 2), (0, 3), (-1, 5)] : List (ℝ × ℝ)).map Prod.fst).Nodup ∧
    (∀ p ∈ ([(1, 2), (0, 3), (-1, 5)] : List (ℝ × ℝ)), 0 < p.2) ∧
    ∃ p ∈ ([(1, 2), (0, 3), (-1, 5)] : List (ℝ × ℝ)), p.1 ≠ 0 := by
  norm_num

/-! ## C12: piecewise constant interpolations -/

/-- C12 (left, constant): the value of the last node not after `x`. -/
theorem C12_left (k : Kind) (hk : k = .left ∨ k = .constant) (pts : List (ℝ × ℝ))
    (hn : (pts.map Prod.fst).Nodup) (hne : pts ≠ []) (x : ℝ) :
    ∃ f y, Interp.new k (pts.map Prod.fst) (pts.map Prod.snd) = .ok f ∧
      f.call x = .ok (some y) ∧ IsLeftValue pts x y := by
  obtain ⟨y, h1, h2⟩ := leftCall_sorted hn hne x
  rcases hk with rfl | rfl <;>
    exact ⟨_, y, Interp_new_eq _ pts (by simp [Kind.isLog]), by simp [Interp.call, storedPts, h1], h2⟩

/-- C12 (right): the value of the first node not before `x`. -/
theorem C12_right (pts : List (ℝ × ℝ)) (hn : (pts.map Prod.fst).Nodup) (hne : pts ≠ []) (x : ℝ) :
    ∃ f y, Interp.new .right (pts.map Prod.fst) (pts.map Prod.snd) = .ok f ∧
      f.call x = .ok (some y) ∧ IsRightValue pts x y := by
  obtain ⟨y, h1, h2⟩ := rightCall_spec (sortPairs_strict hn) (sortPairs_ne_nil hne) x
  exact ⟨_, y, Interp_new_eq _ pts (by simp [Kind.isLog]), by simp [Interp.call, storedPts, h1],
    h2.perm (sortPairs_perm pts)⟩

/-- C12 (nearest): the value of a node of minimal distance, the left one on ties. -/
theorem C12_nearest (pts : List (ℝ × ℝ)) (hn : (pts.map Prod.fst).Nodup) (hne : pts ≠ []) (x : ℝ) :
    ∃ f y, Interp.new .nearest (pts.map Prod.fst) (pts.map Prod.snd) = .ok f ∧
      f.call x = .ok (some y) ∧ IsNearestValue pts x y := by
  obtain ⟨y, h1, h2⟩ := nearestCall_spec (sortPairs_strict hn) (sortPairs_ne_nil hne) x
  exact ⟨_, y, Interp_new_eq _ pts (by simp [Kind.isLog]), by simp [Interp.call, storedPts, h1],
    h2.perm (sortPairs_perm pts)⟩

/-- C12: the specified values are unique, so the three theorems determine the functions. -/
theorem C12_unique (pts : List (ℝ × ℝ)) (hn : (pts.map Prod.fst).Nodup) (x y y' : ℝ) :
    (IsLeftValue pts x y → IsLeftValue pts x y' → y = y') ∧
    (IsRightValue pts x y → IsRightValue pts x y' → y = y') ∧
    (IsNearestValue pts x y → IsNearestValue pts x y' → y = y') := by
  refine ⟨?_, ?_, ?_⟩
  · rintro ⟨p, hp, rfl, ⟨a, b⟩ | ⟨a, b⟩⟩ ⟨q, hq, rfl, ⟨c, d⟩ | ⟨c, d⟩⟩
    · rw [nodup_fst_eq hn hp hq (le_antisymm (d p hp a) (b q hq c))]
    · exact absurd (c p hp) (by linarith)
    · exact absurd (a q hq) (by linarith)
    · rw [nodup_fst_eq hn hp hq (le_antisymm (b q hq) (d p hp))]
  · rintro ⟨p, hp, rfl, ⟨a, b⟩ | ⟨a, b⟩⟩ ⟨q, hq, rfl, ⟨c, d⟩ | ⟨c, d⟩⟩
    · rw [nodup_fst_eq hn hp hq (le_antisymm (b q hq c) (d p hp a))]
    · exact absurd (c p hp) (by linarith)
    · exact absurd (a q hq) (by linarith)
    · rw [nodup_fst_eq hn hp hq (le_antisymm (d p hp) (b q hq))]
  · rintro ⟨p, hp, rfl, a⟩ ⟨q, hq, rfl, c⟩
    have e := le_antisymm (a q hq).1 (c p hp).1
    rw [nodup_fst_eq hn hp hq (le_antisymm ((a q hq).2 e) ((c p hp).2 e.symm))]

/-- C12, C13 (no data): every class that has to pick a neighbour raises `OverflowError` without
points. -/
theorem C12_C13_empty (k : Kind) (hk : k ∈ [Kind.left, .constant, .right, .nearest, .linear, .loglinear])
    (x : ℝ) : ∃ f, Interp.new k [] [] = .ok f ∧ f.call x = .error .overflow := by
  simp only [List.mem_cons, List.not_mem_nil, or_false] at hk
  rcases hk with rfl | rfl | rfl | rfl | rfl | rfl <;>
    exact ⟨_, Interp_new_eq _ [] (by simp), by
      simp [Interp.call, storedPts, sortPairs, ptsOf, leftCall, rightCall, nearestCall, linearCall]⟩

/-! ## C13, C14: linear interpolation -/

private theorem linear_call {pts : List (ℝ × ℝ)} (hn : (pts.map Prod.fst).Nodup) (hne : pts ≠ []) (x : ℝ) :
    (⟨.linear, ptsOf (sortPairs (storedPts .linear pts)), storedZero .linear pts⟩ : Interp).call x =
      .ok (some (plin (sortPairs pts) x)) := by
  simp only [Interp.call, storedPts, linearCall_eq (sortPairs_strict hn) (sortPairs_ne_nil hne), Py.map_ok]

/-- C13: for two or more points the linear interpolation is one continuous function of `x`; its
value lies on the chord of the neighbours enclosing `x` (outer chords continued outside). -/
theorem C13_linear (pts : List (ℝ × ℝ)) (hn : (pts.map Prod.fst).Nodup) (h2 : 2 ≤ pts.length) :
    ∃ f g, Interp.new .linear (pts.map Prod.fst) (pts.map Prod.snd) = .ok f ∧ Continuous g ∧
      ∀ x, f.call x = .ok (some (g x)) ∧ IsLinearValue pts x (g x) := by
  have hne : pts ≠ [] := by rintro rfl; simp at h2
  refine ⟨_, plin (sortPairs pts), Interp_new_eq _ pts (by simp [Kind.isLog]),
    plin_continuous (sortPairs_strict hn), fun x => ⟨linear_call hn hne x, ?_⟩⟩
  exact (plin_linear_value (sortPairs_strict hn) (by rw [(sortPairs_perm pts).length_eq]; exact h2) x).perm
    (sortPairs_perm pts)

/-- C13: between two neighbours the specified value lies between their values. -/
theorem C13_between (pts : List (ℝ × ℝ)) (hn : (pts.map Prod.fst).Nodup) (x y : ℝ)
    (h : IsLinearValue pts x y) (p q : ℝ × ℝ) (hpq : Neighbours pts p q) (h1 : p.1 ≤ x) (h2 : x ≤ q.1) :
    y = chord p q x ∧ min p.2 q.2 ≤ y ∧ y ≤ max p.2 q.2 := by
  have key : y = chord p q x := by
    obtain ⟨a, b, hab, e, ha, hb⟩ := h
    obtain ⟨hp, hq, hlt, hno⟩ := hpq
    obtain ⟨ha', hb', hlt', hno'⟩ := hab
    have hax : a.1 ≤ x := by
      rcases ha with h | h
      · exact h
      · exact (h p hp).trans h1
    have hxb : x ≤ b.1 := by
      rcases hb with h | h
      · exact h
      · exact h2.trans (h q hq)
    -- compare the two enclosing pairs
    rcases hno a ha' with h3 | h3
    · rcases hno' p hp with h4 | h4
      · have : a = p := nodup_fst_eq hn ha' hp (le_antisymm h3 h4)
        subst this
        rcases hno b hb' with h5 | h5
        · exact absurd (hlt'.trans_le h5) (lt_irrefl _)
        · rcases hno' q hq with h6 | h6
          · exact absurd (hlt.trans_le h6) (lt_irrefl _)
          · have : b = q := nodup_fst_eq hn hb' hq (le_antisymm h6 h5)
            subst this; exact e
      · -- b ≤ p ≤ x ≤ b
        have e1 : b.1 = x := le_antisymm (h4.trans h1) hxb
        have e2 : p.1 = x := le_antisymm h1 (hxb.trans h4)
        have : b = p := nodup_fst_eq hn hb' hp (e1.trans e2.symm)
        rw [e, ← e1, chord_right hlt', this, chord_left]
    · -- q ≤ a ≤ x ≤ q
      have e1 : a.1 = x := le_antisymm hax (h2.trans h3)
      have e2 : q.1 = x := le_antisymm (h3.trans hax) h2
      have : a = q := nodup_fst_eq hn ha' hq (e1.trans e2.symm)
      rw [e, ← e1, chord_left, this, chord_right hlt]
  refine ⟨key, ?_⟩
  rw [key]
  exact chord_mem hpq.2.2.1 h1 h2 (min_le_left _ _) (min_le_right _ _) (le_max_left _ _) (le_max_right _ _)

/-- C13 (single point): the linear interpolation of one point is constant. -/
theorem C13_single (a b x : ℝ) :
    ∃ f, Interp.new .linear [a] [b] = .ok f ∧ f.call x = .ok (some b) :=
  ⟨_, Interp_new_eq .linear [(a, b)] (by simp [Kind.isLog]), by
    rw [linear_call (by simp) (by simp)]; simp [sortPairs, plin]⟩

/-- C14 (straight lines): points on one line are interpolated and extrapolated by that line. -/
theorem C14_exact (pts : List (ℝ × ℝ)) (hn : (pts.map Prod.fst).Nodup) (h2 : 2 ≤ pts.length)
    (a b : ℝ) (hline : ∀ p ∈ pts, p.2 = a + b * p.1) (x : ℝ) :
    ∃ f, Interp.new .linear (pts.map Prod.fst) (pts.map Prod.snd) = .ok f ∧
      f.call x = .ok (some (a + b * x)) := by
  have hne : pts ≠ [] := by rintro rfl; simp at h2
  refine ⟨_, Interp_new_eq _ pts (by simp [Kind.isLog]), ?_⟩
  rw [linear_call hn hne]
  obtain ⟨p, q, ⟨hp, hq, hlt, -⟩, e, -⟩ := plin_linear_value (sortPairs_strict hn)
    (by rw [(sortPairs_perm pts).length_eq]; exact h2) x
  rw [e]
  have h3 := hline p ((sortPairs_perm pts).mem_iff.1 hp)
  have h4 := hline q ((sortPairs_perm pts).mem_iff.1 hq)
  have : q.1 - p.1 ≠ 0 := (sub_pos.2 hlt).ne'
  congr 2
  unfold chord; rw [h3, h4]; field_simp; ring

private theorem plin_map_add (l : List ℝ) (u v : ℝ → ℝ) (c x : ℝ) :
    plin (l.map fun x => (x, u x + c * v x)) x =
      plin (l.map fun x => (x, u x)) x + c * plin (l.map fun x => (x, v x)) x := by
  induction l with
  | nil => simp [plin]
  | cons a l ih =>
    match l, ih with
    | [], _ => simp [plin]
    | [b], _ => simp only [List.map_cons, List.map_nil, plin, chord]; ring
    | b :: d :: l, ih =>
      simp only [List.map_cons, plin]
      split_ifs
      · simp only [chord]; ring
      · exact ih

private theorem sortPairs_graph (xs : List ℝ) (hn : xs.Nodup) (u : ℝ → ℝ) :
    sortPairs (xs.map fun x => (x, u x)) = (xs.insertionSort (· ≤ ·)).map fun x => (x, u x) := by
  have hs : StrictX ((xs.insertionSort (· ≤ ·)).map fun x => (x, u x)) := by
    unfold StrictX
    rw [List.pairwise_map]
    have h1 : (xs.insertionSort (· ≤ ·)).Pairwise (· ≤ ·) := List.pairwise_insertionSort _ _
    have h2 : (xs.insertionSort (· ≤ ·)).Pairwise (· ≠ ·) :=
      List.nodup_iff_pairwise_ne.1 ((List.perm_insertionSort _ _).nodup_iff.2 hn)
    exact (h1.and h2).imp fun h => lt_of_le_of_ne h.1 h.2
  rw [← sortPairs_eq_self hs]
  exact sortPairs_congr ((List.perm_insertionSort _ xs).symm.map _)

/-- C14 (linearity): interpolating `u + c * v` on common nodes gives the same combination of the
interpolations of `u` and `v`, at every `x`. -/
theorem C14_linear (xs : List ℝ) (hn : xs.Nodup) (hne : xs ≠ []) (u v : ℝ → ℝ) (c : ℝ) :
    ∃ (f g h : Interp) (F G : ℝ → ℝ), Interp.new .linear xs (xs.map u) = .ok f ∧ Interp.new .linear xs (xs.map v) = .ok g ∧
      Interp.new .linear xs (xs.map fun x => u x + c * v x) = .ok h ∧
      ∀ x, f.call x = .ok (some (F x)) ∧ g.call x = .ok (some (G x)) ∧
        h.call x = .ok (some (F x + c * G x)) := by
  have e : ∀ w : ℝ → ℝ, Interp.new .linear xs (xs.map w) =
      .ok ⟨.linear, ptsOf (sortPairs (xs.map fun x => (x, w x))), none⟩ := by
    intro w
    have := Interp_new_eq .linear (xs.map fun x => (x, w x)) (by simp [Kind.isLog])
    simpa [List.map_map, Function.comp_def, storedPts, storedZero, Kind.isRate] using this
  have hc : ∀ (w : ℝ → ℝ) x, (⟨.linear, ptsOf (sortPairs (xs.map fun x => (x, w x))), none⟩ : Interp).call x =
      .ok (some (plin ((xs.insertionSort (· ≤ ·)).map fun x => (x, w x)) x)) := by
    intro w x
    have hn' : ((xs.map fun x => (x, w x)).map Prod.fst).Nodup := by
      simpa [List.map_map, Function.comp_def] using hn
    have := linear_call hn' (by simpa using hne) x
    rw [sortPairs_graph xs hn] at this
    simpa [storedPts, storedZero, Kind.isRate, sortPairs_graph xs hn] using this
  refine ⟨_, _, _, _, _, e u, e v, e _, fun x => ⟨hc u x, hc v x, ?_⟩⟩
  rw [hc, plin_map_add]

example : ∀ p ∈ ([(3, 7), (1, 3), (0, 1)] : List (ℝ × ℝ)), p.2 = 1 + 2 * p.1 := by norm_num

/-- C14 is not vacuous: the value of the model between, before and after the nodes. -/
example : linearCall (Pts.new [3, 0, 1] [1, 2, 5] : Pts ℚ) 2 = .ok 3 ∧
    linearCall (Pts.new [3, 0, 1] [1, 2, 5] : Pts ℚ) (-1) = .ok (-1) ∧
    linearCall (Pts.new [3, 0, 1] [1, 2, 5] : Pts ℚ) 4 = .ok (-1) := by decide +kernel

/-! ## C15: schemes -/

/-- C15 (default scheme): for one or more points the default scheme is one continuous function, flat
outside the nodes, on the enclosing chord inside, and bounded by any bounds of the given values. -/
theorem C15_linear_scheme (pts : List (ℝ × ℝ)) (hn : (pts.map Prod.fst).Nodup) (hne : pts ≠ []) :
    ∃ f g, Func.new linearScheme (pts.map Prod.fst) (pts.map Prod.snd) = .ok f ∧ Continuous g ∧
      (∀ x, f.call x = .ok (some (g x)) ∧ IsFlatLinearValue pts x (g x)) ∧
      ∀ a b, (∀ p ∈ pts, a ≤ p.2 ∧ p.2 ≤ b) → ∀ x, a ≤ g x ∧ g x ≤ b := by
  have hs := sortPairs_strict hn
  have hsne := sortPairs_ne_nil hne
  have hp := sortPairs_perm pts
  refine ⟨_, flin (sortPairs pts), linearScheme_new hn, flin_continuous hs, fun x =>
    ⟨linFunc_call hs hsne x, ?_⟩, fun a b h x => flin_bounds hs hsne (fun p hq => h p (hp.mem_iff.1 hq)) x⟩
  rcases le_or_gt x ((sortPairs pts).head hsne).1 with h1 | h1
  · left
    refine ⟨_, hp.mem_iff.1 (List.head_mem hsne), ?_, .inl ⟨h1, fun r hr =>
      head_le_of_strict hs hsne (hp.mem_iff.2 hr)⟩⟩
    conv_lhs => rw [← List.cons_head_tail hsne]
    rw [flin_le_first h1]
  · rcases le_or_gt ((sortPairs pts).getLast hsne).1 x with h2 | h2
    · left
      exact ⟨_, hp.mem_iff.1 (List.getLast_mem hsne), flin_ge_last hs hsne h2, .inr ⟨h2, fun r hr =>
        le_last_of_strict hs hsne (hp.mem_iff.2 hr)⟩⟩
    · right
      rw [flin_eq_plin hs hsne h1.le h2.le]
      have hlen : 2 ≤ (sortPairs pts).length := by
        by_contra hcon
        have : (sortPairs pts).length = 1 := by have := List.length_pos_iff.2 hsne; omega
        obtain ⟨a, ha⟩ := List.length_eq_one_iff.1 this
        simp only [ha, List.head_cons, List.getLast_singleton] at h1 h2
        linarith
      obtain ⟨p, q, hN, e, h3, h4⟩ := (plin_linear_value hs hlen x).perm hp
      refine ⟨p, q, hN, ?_, ?_, e⟩
      · rcases h3 with h3 | h3
        · exact h3
        · exact (h3 _ (hp.mem_iff.1 (List.head_mem hsne))).trans h1.le
      · rcases h4 with h4 | h4
        · exact h4
        · exact h2.le.trans (h4 _ (hp.mem_iff.1 (List.getLast_mem hsne)))

/-- Nodes a class refers to: the rate classes keep the abscissa zero apart. -/
noncomputable def nodesOf (k : Kind) (pts : List (ℝ × ℝ)) : List (ℝ × ℝ) :=
  if k = .loglinearrate ∨ k = .logconstantrate then pts.filter fun p => p.1 ≠ 0 else pts

/-- C15 (any scheme): the left class is used strictly before its first node, otherwise the right
class strictly after its last node and else the middle class. -/
theorem C15_dispatch (l m r : Kind) (str : Bool) (pts : List (ℝ × ℝ))
    (hn : (pts.map Prod.fst).Nodup) (hnl : nodesOf l pts ≠ []) (hnr : nodesOf r pts ≠ [])
    (hpos : l.isLog ∨ m.isLog ∨ r.isLog → ∀ p ∈ pts, 0 < p.2) :
    ∃ f fl fm fr, Func.new (.scheme l m r str) (pts.map Prod.fst) (pts.map Prod.snd) = .ok f ∧
      Interp.new l (pts.map Prod.fst) (pts.map Prod.snd) = .ok fl ∧
      Interp.new m (pts.map Prod.fst) (pts.map Prod.snd) = .ok fm ∧
      Interp.new r (pts.map Prod.fst) (pts.map Prod.snd) = .ok fr ∧
      ∀ x, ((∀ p ∈ nodesOf l pts, x < p.1) → f.call x = fl.call x) ∧
        ((∃ p ∈ nodesOf l pts, p.1 ≤ x) → (∀ p ∈ nodesOf r pts, p.1 < x) → f.call x = fr.call x) ∧
        ((∃ p ∈ nodesOf l pts, p.1 ≤ x) → (∃ p ∈ nodesOf r pts, x ≤ p.1) → f.call x = fm.call x) := by
  refine ⟨_, _, _, _, Func_new_scheme l m r str hn hpos, Interp_new_eq l pts (fun h => hpos (.inl h)),
    Interp_new_eq m pts (fun h => hpos (.inr (.inl h))), Interp_new_eq r pts (fun h => hpos (.inr (.inr h))),
    fun x => ?_⟩
  have hx : ∀ k : Kind, ∀ a, (∃ p ∈ storedPts k pts, p.1 = a) ↔ ∃ p ∈ nodesOf k pts, p.1 = a := by
    intro k a
    cases k <;> simp [storedPts, nodesOf]
  have hstr : ∀ k : Kind, StrictX (sortPairs (storedPts k pts)) := fun k =>
    sortPairs_strict (storedPts_nodup k hn)
  have hnil : ∀ k : Kind, nodesOf k pts ≠ [] → storedPts k pts ≠ [] := by
    intro k hk h
    obtain ⟨p, hp⟩ := List.exists_mem_of_ne_nil _ hk
    obtain ⟨q, hq, -⟩ := (hx k p.1).2 ⟨p, hp, rfl⟩
    rw [h] at hq; simp at hq
  have hfirst := fun p => @head_le_of_strict _ (hstr l) (sortPairs_ne_nil (hnil l hnl)) p
  have hlast := fun p => @le_last_of_strict _ (hstr r) (sortPairs_ne_nil (hnil r hnr)) p
  simp only [Func.call, first_xs (sortPairs_ne_nil (hnil l hnl)), last_xs (sortPairs_ne_nil (hnil r hnr)),
    Py.ok_bind]
  obtain ⟨p0, hp0, e0⟩ := (hx l _).1 ⟨_, (sortPairs_perm _).mem_iff.1
    (List.head_mem (sortPairs_ne_nil (hnil l hnl))), rfl⟩
  obtain ⟨p1, hp1, e1⟩ := (hx r _).1 ⟨_, (sortPairs_perm _).mem_iff.1
    (List.getLast_mem (sortPairs_ne_nil (hnil r hnr))), rfl⟩
  have hfirst' : ∀ p ∈ nodesOf l pts, p0.1 ≤ p.1 := by
    intro p hp
    obtain ⟨q, hq, e⟩ := (hx l p.1).2 ⟨p, hp, rfl⟩
    rw [e0, ← e]; exact hfirst _ ((sortPairs_perm _).mem_iff.2 hq)
  have hlast' : ∀ p ∈ nodesOf r pts, p.1 ≤ p1.1 := by
    intro p hp
    obtain ⟨q, hq, e⟩ := (hx r p.1).2 ⟨p, hp, rfl⟩
    rw [e1, ← e]; exact hlast _ ((sortPairs_perm _).mem_iff.2 hq)
  rw [← e0, ← e1]
  refine ⟨fun h => ?_, fun ⟨p, hp, h'⟩ h => ?_, fun ⟨p, hp, h⟩ ⟨q, hq, h'⟩ => ?_⟩
  · rw [if_pos (h _ hp0)]
  · rw [if_neg (by have := hfirst' p hp; linarith), if_pos (h _ hp1)]
  · rw [if_neg (by have := hfirst' p hp; linarith), if_neg (by have := hlast' q hq; linarith)]

/-- C15 (bad input): unequal lengths or duplicate abscissae raise `AssertionError`. -/
theorem C15_assertion (l m r : Kind) (str : Bool) (xs ys : List ℝ) (h : xs.length ≠ ys.length ∨ ¬ xs.Nodup) :
    Func.new (.scheme l m r str) xs ys = .error .assertion := by
  simp only [Func.new]
  by_cases h1 : xs.length = ys.length
  · have : ¬ xs.Nodup := by tauto
    rw [if_neg (by simpa using h1), if_pos this]; rfl
  · rw [if_pos h1]; rfl

/-- C15 (choice of classes): the optional argument replaces all three, the last two (left like
right) or only the middle class; any other length raises `ValueError`. -/
theorem C15_select (d : Kind × Kind × Kind) (l m r : Kind) (more : List Kind) :
    schemeSelect d none = .ok d ∧ schemeSelect d (some []) = .ok d ∧
    schemeSelect d (some [m]) = .ok (d.1, m, d.2.2) ∧ schemeSelect d (some [m, r]) = .ok (r, m, r) ∧
    schemeSelect d (some [l, m, r]) = .ok (l, m, r) ∧
    ∀ k, schemeSelect d (some (l :: m :: r :: k :: more)) = .error .value :=
  ⟨rfl, rfl, rfl, rfl, rfl, fun _ => rfl⟩

example : ([1, 2] : List ℝ).length ≠ ([1] : List ℝ).length ∨ ¬ ([1, 2] : List ℝ).Nodup := by simp

/-! ## C16: log interpolations -/

/-- C16 (loglinear): the exponential of the linear interpolation of the logarithms: positive,
continuous and between neighbours the weighted geometric mean. -/
theorem C16_loglinear (pts : List (ℝ × ℝ)) (hn : (pts.map Prod.fst).Nodup) (h2 : 2 ≤ pts.length)
    (hpos : ∀ p ∈ pts, 0 < p.2) :
    ∃ f g, Interp.new .loglinear (pts.map Prod.fst) (pts.map Prod.snd) = .ok f ∧ Continuous g ∧
      (∀ x, f.call x = .ok (some (g x)) ∧ 0 < g x ∧
        IsLinearValue (pts.map fun p => (p.1, Real.log p.2)) x (Real.log (g x))) ∧
      ∀ x, ∃ p q, Neighbours pts p q ∧ (p.1 ≤ x ∨ ∀ r ∈ pts, p.1 ≤ r.1) ∧
        (x ≤ q.1 ∨ ∀ r ∈ pts, r.1 ≤ q.1) ∧
        g x = p.2 ^ ((q.1 - x) / (q.1 - p.1)) * q.2 ^ ((x - p.1) / (q.1 - p.1)) := by
  have hn' := storedPts_nodup .loglinear hn
  have hs := sortPairs_strict hn'
  have hlen : (sortPairs (storedPts .loglinear pts)).length = pts.length := by
    rw [(sortPairs_perm _).length_eq]; simp [storedPts]
  have hne : sortPairs (storedPts .loglinear pts) ≠ [] := by
    intro h; rw [h] at hlen; simp at hlen; omega
  have hlin : ∀ x, IsLinearValue (pts.map fun p => (p.1, Real.log p.2)) x
      (plin (sortPairs (storedPts .loglinear pts)) x) := fun x =>
    (plin_linear_value hs (by omega) x).perm (sortPairs_perm _)
  refine ⟨_, fun x => Real.exp (plin (sortPairs (storedPts .loglinear pts)) x),
    Interp_new_eq _ pts (fun _ => hpos), (plin_continuous hs).rexp, fun x => ⟨?_, Real.exp_pos _, ?_⟩,
    fun x => ?_⟩
  · simp only [Interp.call, linearCall_eq hs hne, Py.map_ok]
  · rw [Real.log_exp]; exact hlin x
  · obtain ⟨p', q', ⟨hp, hq, hlt, hno⟩, e, h3, h4⟩ := hlin x
    obtain ⟨p, hpm, rfl⟩ := List.mem_map.1 hp
    obtain ⟨q, hqm, rfl⟩ := List.mem_map.1 hq
    simp only [List.mem_map, forall_exists_index, and_imp, forall_apply_eq_imp_iff₂] at hno h3 h4 hlt
    refine ⟨p, q, ⟨hpm, hqm, hlt, hno⟩, h3, h4, ?_⟩
    simp only []
    rw [e, Real.rpow_def_of_pos (hpos p hpm), Real.rpow_def_of_pos (hpos q hqm), ← Real.exp_add]
    have : q.1 - p.1 ≠ 0 := (sub_pos.2 hlt).ne'
    congr 1; unfold chord; simp only; field_simp; ring

/-- C16 (loglinearrate): away from zero the rate `-log(y)/x` is interpolated linearly (over the
points with non-zero abscissa, of which there are at least two). -/
theorem C16_loglinearrate (pts : List (ℝ × ℝ)) (hn : (pts.map Prod.fst).Nodup)
    (hpos : ∀ p ∈ pts, 0 < p.2) (h2 : 2 ≤ (pts.filter fun p => p.1 ≠ 0).length) :
    ∃ (f : Interp) (g : ℝ → ℝ), Interp.new .loglinearrate (pts.map Prod.fst) (pts.map Prod.snd) = .ok f ∧
      ∀ x, x ≠ 0 → f.call x = .ok (some (g x)) ∧ 0 < g x ∧
        IsLinearValue ((pts.filter fun p => p.1 ≠ 0).map fun p => (p.1, -Real.log p.2 / p.1)) x
          (-Real.log (g x) / x) := by
  have hs := sortPairs_strict (storedPts_nodup .loglinearrate hn)
  have hlen : (sortPairs (storedPts .loglinearrate pts)).length = (pts.filter fun p => p.1 ≠ 0).length := by
    rw [(sortPairs_perm _).length_eq]; simp [storedPts]
  have hne : sortPairs (storedPts .loglinearrate pts) ≠ [] := by
    intro h; rw [h] at hlen; simp only [List.length_nil] at hlen; omega
  refine ⟨_, fun x => Real.exp (plin (sortPairs (storedPts .loglinearrate pts)) x * x),
    Interp_new_eq _ pts (fun _ => hpos), fun x hx => ⟨?_, Real.exp_pos _, ?_⟩⟩
  · simp only [Interp.call, hx, if_false, linearCall_eq hs hne, Py.map_ok]
  · rw [Real.log_exp, neg_div, mul_div_assoc, div_self hx, mul_one]
    obtain ⟨p', q', ⟨hp, hq, hlt, hno⟩, e, h3, h4⟩ :=
      (plin_linear_value hs (by omega) x).perm (sortPairs_perm _)
    simp only [storedPts] at hp hq hno h3 h4
    obtain ⟨p, hpm, rfl⟩ := List.mem_map.1 hp
    obtain ⟨q, hqm, rfl⟩ := List.mem_map.1 hq
    refine ⟨(p.1, -Real.log p.2 / p.1), (q.1, -Real.log q.2 / q.1),
      ⟨List.mem_map.2 ⟨p, hpm, rfl⟩, List.mem_map.2 ⟨q, hqm, rfl⟩, hlt, ?_⟩, ?_, ?_, ?_⟩
    · intro r hr
      obtain ⟨r', hr', rfl⟩ := List.mem_map.1 hr
      exact hno (r'.1, Real.log r'.2 / r'.1) (List.mem_map.2 ⟨r', hr', rfl⟩)
    · rw [e]; simp only [chord, neg_div]; ring
    · rcases h3 with h3 | h3
      · exact .inl h3
      · right; intro r hr
        obtain ⟨r', hr', rfl⟩ := List.mem_map.1 hr
        exact h3 (r'.1, Real.log r'.2 / r'.1) (List.mem_map.2 ⟨r', hr', rfl⟩)
    · rcases h4 with h4 | h4
      · exact .inl h4
      · right; intro r hr
        obtain ⟨r', hr', rfl⟩ := List.mem_map.1 hr
        exact h4 (r'.1, Real.log r'.2 / r'.1) (List.mem_map.2 ⟨r', hr', rfl⟩)

/-- C16 (logconstantrate): away from zero the rate `-log(y)/x` is the one of the left node. -/
theorem C16_logconstantrate (pts : List (ℝ × ℝ)) (hn : (pts.map Prod.fst).Nodup)
    (hpos : ∀ p ∈ pts, 0 < p.2) (h0 : ∃ p ∈ pts, p.1 ≠ 0) :
    ∃ f, Interp.new .logconstantrate (pts.map Prod.fst) (pts.map Prod.snd) = .ok f ∧
      ∀ x, x ≠ 0 → ∃ y, f.call x = .ok (some y) ∧ 0 < y ∧
        IsLeftValue ((pts.filter fun p => p.1 ≠ 0).map fun p => (p.1, -Real.log p.2 / p.1)) x
          (-Real.log y / x) := by
  refine ⟨_, Interp_new_eq _ pts (fun _ => hpos), fun x hx => ?_⟩
  obtain ⟨y, h1, h2⟩ := leftCall_sorted (storedPts_nodup .logconstantrate hn)
    (storedPts_ne_nil .logconstantrate h0) x
  refine ⟨Real.exp (-y * x), ?_, Real.exp_pos _, ?_⟩
  · simp only [Interp.call, hx, if_false, h1, Py.map_ok]
  · rw [Real.log_exp, neg_mul, neg_neg, mul_div_assoc, div_self hx, mul_one]; exact h2

/-- C16 (at zero): the rate classes return the value given for zero and `None` without one. -/
theorem C16_at_zero (k : Kind) (hk : k.isRate) (pts : List (ℝ × ℝ)) (hn : (pts.map Prod.fst).Nodup)
    (hpos : ∀ p ∈ pts, 0 < p.2) :
    ∃ f, Interp.new k (pts.map Prod.fst) (pts.map Prod.snd) = .ok f ∧
      (∀ y, ((0 : ℝ), y) ∈ pts → f.call 0 = .ok (some y)) ∧
      ((∀ p ∈ pts, p.1 ≠ 0) → f.call 0 = .ok none) := by
  refine ⟨_, Interp_new_eq k pts (fun _ => hpos), fun y hy => Interp_node k hn (fun _ => hpos) hy,
    fun h => ?_⟩
  have h' : ∀ a b, (a, b) ∈ pts → ¬ a = 0 := fun a b hm => h _ hm
  cases k <;> simp_all [Kind.isRate, Interp.call, storedZero]
  all_goals exact h'

/-- C16 (bad values): a non-positive value raises `ValueError` at construction. -/
theorem C16_nonpositive (k : Kind) (hk : k.isLog) (xs ys : List ℝ) (h : ∃ y ∈ ys, y ≤ 0) :
    Interp.new k xs ys = .error .value := by
  have h' : ¬ ∀ y ∈ ys, 0 < y := by
    obtain ⟨y, hy, h0⟩ := h
    intro h; exact absurd (h y hy) (not_lt.2 h0)
  cases k <;> simp [Kind.isLog] at hk <;> simp [Interp.new, h']

example : ∃ p ∈ ([(0, 1), (1, 1 / 2), (2, 1 / 3)] : List (ℝ × ℝ)), p.1 ≠ 0 := ⟨(1, 1 / 2), by simp, by simp⟩

example : 2 ≤ (([(0, 1), (1, 1 / 2), (2, 1 / 3)] : List (ℝ × ℝ)).filter fun p => p.1 ≠ 0).length := by
  simp [List.filter]

/-! ## C17: updates refine a finite map -/

section C17
variable {K : Type} [Field K] [LinearOrder K] [IsStrictOrderedRing K]

/-- Operations offered by `_update`: add or override points, remove abscissae. -/
inductive UpdateOp (K : Type)
  | put (pts : List (K × K))
  | remove (xs : List K)

/-- Effect on the model. -/
def UpdateOp.run (p : Pts K) : UpdateOp K → Pts K
  | .put pts => p.update (pts.map Prod.fst) (pts.map Prod.snd)
  | .remove xs => p.update xs []

/-- Effect on an abstract finite map. -/
def UpdateOp.spec (m : K → Option K) : UpdateOp K → K → Option K
  | .put pts, x => (pts.lookup x).or (m x)
  | .remove xs, x => if x ∈ xs then none else m x

/-- Each `put` has pairwise different abscissae. -/
def UpdateOp.Valid : UpdateOp K → Prop
  | .put pts => (pts.map Prod.fst).Nodup
  | .remove _ => True

theorem lookup_eq_some_iff {l : List (K × K)} (h : (l.map Prod.fst).Nodup) {x y : K} :
    l.lookup x = some y ↔ (x, y) ∈ l := by
  induction l with
  | nil => simp
  | cons p l ih =>
    obtain ⟨a, b⟩ := p
    simp only [List.map_cons, List.nodup_cons] at h
    rw [List.lookup_cons]
    by_cases hx : x = a
    · subst hx
      have : (x, y) ∉ l := fun hm => h.1 (List.mem_map.2 ⟨_, hm, rfl⟩)
      simp [this, eq_comm]
    · have : (x == a) = false := by simpa using hx
      simp [this, ih h.2, hx]

theorem lookup_eq_none_iff' {l : List (K × K)} {x : K} : l.lookup x = none ↔ x ∉ l.map Prod.fst := by
  induction l with
  | nil => simp
  | cons p l ih =>
    obtain ⟨a, b⟩ := p
    rw [List.lookup_cons]
    by_cases hx : x = a
    · subst hx; simp
    · have : (x == a) = false := by simpa using hx
      simp [this, ih, hx]

/-- The stored points represent the finite map `m`. -/
def Represents (p : Pts K) (m : K → Option K) : Prop :=
  p.xs.length = p.ys.length ∧ p.xs.Pairwise (· < ·) ∧
    ∀ x y, (x, y) ∈ p.xs.zip p.ys ↔ m x = some y

theorem represents_iff {p : Pts K} {m : K → Option K} : Represents p m ↔
    ∃ l : List (K × K), p = ptsOf l ∧ StrictX l ∧ ∀ x y, (x, y) ∈ l ↔ m x = some y := by
  constructor
  · rintro ⟨h1, h2, h3⟩
    have e1 : (p.xs.zip p.ys).map Prod.fst = p.xs := List.map_fst_zip (by omega)
    have e2 : (p.xs.zip p.ys).map Prod.snd = p.ys := List.map_snd_zip (by omega)
    refine ⟨p.xs.zip p.ys, ?_, ?_, h3⟩
    · cases p; simp_all [ptsOf]
    · unfold StrictX
      rw [← e1, List.pairwise_map] at h2
      exact h2
  · rintro ⟨l, rfl, hl, h⟩
    refine ⟨by simp [ptsOf], ?_, ?_⟩
    · simp only [ptsOf]; rw [List.pairwise_map]; exact hl
    · simpa [ptsOf, zip_unzip'] using h

theorem removeOne_ptsOf {l : List (K × K)} (hl : StrictX l) (x : K) :
    (ptsOf l).removeOne x = ptsOf (l.filter fun p => p.1 ≠ x) := by
  unfold Pts.removeOne
  split_ifs with h
  · induction l with
    | nil => simp [ptsOf] at h
    | cons p l ih =>
      by_cases hp : p.1 = x
      · have hnone : l.filter (fun p => decide (p.1 ≠ x)) = l := by
          rw [List.filter_eq_self]
          intro q hq
          have := (List.pairwise_cons.1 hl).1 q hq
          simpa using (by rw [← hp]; exact this.ne' : q.1 ≠ x)
        rw [List.filter_cons_of_neg (by simpa using hp), hnone]
        simp [ptsOf, hp]
      · have hmem : x ∈ (ptsOf l).xs := by
          simp only [ptsOf, List.map_cons, List.mem_cons] at h ⊢
          rcases h with h | h
          · exact absurd h.symm hp
          · exact h
        have := ih (List.pairwise_cons.1 hl).2 hmem
        rw [List.filter_cons_of_pos (by simpa using hp)]
        simp only [ptsOf, List.map_cons, Pts.mk.injEq, List.idxOf_cons_ne _ hp, List.eraseIdx_cons_succ,
          List.cons.injEq, true_and] at this ⊢
        exact this
  · have : l.filter (fun p => decide (p.1 ≠ x)) = l := by
      rw [List.filter_eq_self]
      intro q hq
      simp only [decide_eq_true_eq]
      intro e; exact h (List.mem_map.2 ⟨q, hq, e⟩)
    rw [this]

theorem foldl_removeOne (xs : List K) : ∀ {l : List (K × K)}, StrictX l →
    xs.foldl Pts.removeOne (ptsOf l) = ptsOf (l.filter fun p => p.1 ∉ xs) := by
  induction xs with
  | nil => intro l _; simp
  | cons a xs ih =>
    intro l hl
    rw [List.foldl_cons, removeOne_ptsOf hl, ih (List.Pairwise.filter _ hl), List.filter_filter]
    congr 1
    apply List.filter_congr
    intro p _
    simp [and_comm, Bool.and_comm]

theorem update_represents (p : Pts K) (m : K → Option K) (op : UpdateOp K) (hop : op.Valid)
    (h : Represents p m) : Represents (op.run p) (op.spec m) := by
  rw [represents_iff] at h ⊢
  obtain ⟨l, rfl, hl, hm⟩ := h
  have hremove : ∀ xs : List K, Pts.update (ptsOf l) xs [] = ptsOf (l.filter fun p => p.1 ∉ xs) := by
    intro xs
    unfold Pts.update
    rw [if_pos rfl, foldl_removeOne xs hl]
  cases op with
  | remove xs =>
    refine ⟨_, hremove xs, List.Pairwise.filter _ hl, fun x y => ?_⟩
    simp only [List.mem_filter, hm, UpdateOp.spec, decide_eq_true_eq]
    split_ifs with hx <;> simp [hx]
  | put pts =>
    simp only [UpdateOp.Valid] at hop
    by_cases hnil : pts = []
    · subst hnil
      refine ⟨_, hremove [], List.Pairwise.filter _ hl, fun x y => ?_⟩
      simp [UpdateOp.spec, hm]
    · set data := l.filter (fun p => decide (p.1 ∉ pts.map Prod.fst)) ++ pts with hdata
      have hnd : (data.map Prod.fst).Nodup := by
        rw [hdata, List.map_append, List.nodup_append]
        refine ⟨hl.nodup.sublist ((List.filter_sublist).map _), hop, ?_⟩
        intro a ha b hb hab
        obtain ⟨p, hp, rfl⟩ := List.mem_map.1 ha
        have := (List.mem_filter.1 hp).2
        simp only [decide_eq_true_eq] at this
        exact this (hab ▸ hb)
      refine ⟨sortPairs data, ?_, sortPairs_strict hnd, fun x y => ?_⟩
      · simp only [UpdateOp.run, Pts.update]
        rw [if_neg (by simpa using hnil)]
        simp only [zip_unzip', ptsOf]
        rfl
      · rw [(sortPairs_perm data).mem_iff, hdata, List.mem_append, List.mem_filter]
        simp only [decide_eq_true_eq, UpdateOp.spec, hm]
        by_cases hx : x ∈ pts.map Prod.fst
        · cases hlk : pts.lookup x with
          | none => exact absurd hx (lookup_eq_none_iff'.1 hlk)
          | some z =>
            rw [← lookup_eq_some_iff hop, hlk]
            simp [hx]
        · rw [lookup_eq_none_iff'.2 hx, Option.none_or]
          have : (x, y) ∉ pts := fun h => hx (List.mem_map.2 ⟨_, h, rfl⟩)
          simp only [hx, not_false_eq_true, and_true, this, or_false]

/-- C17: along every sequence of valid updates the stored points are those of the abstract finite
map receiving the same operations, in strictly increasing order. -/
theorem C17_refines_map (start : List (K × K)) (hs : (start.map Prod.fst).Nodup) (ops : List (UpdateOp K))
    (hops : ∀ op ∈ ops, op.Valid) :
    Represents (ops.foldl UpdateOp.run (Pts.new (start.map Prod.fst) (start.map Prod.snd)))
      (ops.foldl UpdateOp.spec fun x => start.lookup x) := by
  have h0 : Represents (Pts.new (start.map Prod.fst) (start.map Prod.snd)) fun x => start.lookup x := by
    rw [Pts_new_eq, represents_iff]
    exact ⟨_, rfl, sortPairs_strict hs, fun x y => by
      rw [(sortPairs_perm _).mem_iff, lookup_eq_some_iff hs]⟩
  generalize Pts.new (start.map Prod.fst) (start.map Prod.snd) = p at h0
  generalize (fun x => start.lookup x) = m at h0
  induction ops generalizing p m with
  | nil => exact h0
  | cons op ops ih =>
    exact ih (fun o ho => hops o (List.mem_cons_of_mem _ ho)) _ _
      (update_represents p m op (hops op (by simp)) h0)

/-- An update sequence with override, addition and removal. -/
example : [UpdateOp.put [(2, 5), (0, 1)], .remove [1, 7]].foldl UpdateOp.run (Pts.new [1, 2] [3, 4] : Pts ℚ)
    = ⟨[0, 2], [1, 5]⟩ := by decide +kernel

/-- C17 (surplus abscissae): if fewer values than abscissae are given, the surplus abscissae are
removed from the stored points. -/
theorem C17_surplus (l : List (K × K)) (x y z : K) (hx : x ≠ z) (hz : ∃ w, (z, w) ∈ l) :
    z ∉ (Pts.update (ptsOf l) [x, z] [y]).xs := by
  simp only [Pts.update]
  rw [if_neg (by simp)]
  simp only [List.mem_map, not_exists, not_and]
  rintro ⟨a, b⟩ hm rfl
  rw [(sortPairs_perm _).mem_iff] at hm
  simp [ptsOf, zip_unzip'] at hm
  exact hx hm.1.symm

end C17

/-! ## C73: building from a dictionary -/

/-- C73 (plain classes): `from_dict` equals the ordinary constructor. -/
theorem C73_plain_partial (k : Kind) (hk : k.isLog = false) (pts : List (ℝ × ℝ)) :
    Interp.fromDict k pts = Interp.new k (pts.map Prod.fst) (pts.map Prod.snd) := by
  rw [Interp_new_eq k pts (by simp [hk])]
  cases k <;> simp_all [Kind.isLog, Interp.fromDict, storedPts, storedZero, Kind.isRate, ptsOf]

/-- C73 (log classes): `from_dict` never yields a usable object: positive data without abscissa
zero gives an object without points, every call away from zero raises `OverflowError`. -/
theorem C73_log_violated (k : Kind) (hk : k.isLog) (pts : List (ℝ × ℝ)) (hpos : ∀ p ∈ pts, 0 < p.2)
    (h0 : ∀ p ∈ pts, p.1 ≠ 0) (x : ℝ) (hx : x ≠ 0) :
    ∃ f, Interp.fromDict k pts = .ok f ∧ f.call x = .error .overflow := by
  have hpos' : ∀ y ∈ (sortPairs pts).map Prod.snd, 0 < y := by
    intro y hy
    obtain ⟨p, hp, rfl⟩ := List.mem_map.1 hy
    exact hpos p ((sortPairs_perm _).mem_iff.1 hp)
  have h0' : (0 : ℝ) ∉ (sortPairs pts).map Prod.fst := by
    intro hy
    obtain ⟨p, hp, e⟩ := List.mem_map.1 hy
    exact h0 p ((sortPairs_perm _).mem_iff.1 hp) e
  have hnil : ∀ xs : List ℝ, Pts.new xs [] = ⟨[], []⟩ := by
    intro xs
    unfold Pts.new Pts.update
    rw [if_pos rfl]
    induction xs with
    | nil => rfl
    | cons a xs ih => rw [List.foldl_cons]; simpa [Pts.removeOne] using ih
  cases k <;> simp [Kind.isLog] at hk <;> simp only [Interp.fromDict]
  · rw [if_neg (by simpa using hpos')]
    exact ⟨_, rfl, by simp [Interp.call, hnil, linearCall]⟩
  · rw [if_neg (by simpa using hpos'), if_neg h0']
    exact ⟨_, rfl, by simp [Interp.call, hnil, linearCall, hx]⟩
  · rw [if_neg (by simpa using hpos'), if_neg h0']
    exact ⟨_, rfl, by simp [Interp.call, hnil, leftCall, hx]⟩

/-! ### The hypotheses can be met: each theorem applied -/

example := C11_classes .loglinear [(1, 2), (0, 3), (-1, 5)] (by norm_num) (by norm_num)
example := C11_schemes .constant .loglinearrate .logconstantrate true [(1, 2), (0, 3), (-1, 5)] (by norm_num) (by norm_num) ⟨(1, 2), by norm_num⟩
example := C11_rate_scheme_only_zero (1 / 2) 3 (by norm_num)
example := C12_left .constant (.inr rfl) [(1, 2), (0, 3), (-1, 5)] (by norm_num) (by simp) (1 / 2)
example := C12_right [(1, 2), (0, 3), (-1, 5)] (by norm_num) (by simp) (1 / 2)
example := C12_nearest [(1, 2), (0, 3), (-1, 5)] (by norm_num) (by simp) (1 / 2)
example := C12_unique [(1, 2), (0, 3), (-1, 5)] (by norm_num) (1 / 2)
example := C12_C13_empty .linear (by simp)
example := C13_linear [(3, 1), (0, 2), (1, 5)] (by norm_num) (by simp)
/-- The value of the linear interpolation at 2 is between 5 and 1. -/
example : ∃ f g, Interp.new .linear [3, 0, 1] [1, 2, 5] = .ok f ∧ f.call 2 = .ok (some (g : ℝ)) ∧ 1 ≤ g ∧ g ≤ 5 := by
  obtain ⟨f, g, hf, -, h⟩ := C13_linear [(3, 1), (0, 2), (1, 5)] (by norm_num) (by simp)
  obtain ⟨-, h1, h2⟩ := C13_between _ (by norm_num) 2 (g 2) (h 2).2 (1, 5) (3, 1) ⟨by simp, by simp, by norm_num, by norm_num⟩ (by norm_num) (by norm_num)
  norm_num at h1 h2
  exact ⟨f, g 2, hf, (h 2).1, h1, h2⟩
example := C14_exact [(3, 7), (1, 3), (0, 1)] (by norm_num) (by simp) 1 2 (by norm_num) 5
example := C14_linear [3, 1, 0] (by norm_num) (by simp) (fun x => x ^ 2) (fun x => Real.exp x) 7
example := C15_linear_scheme [(3, 1), (0, 2), (1, 5)] (by norm_num) (by simp)
example := C15_dispatch .left .linear .right false [(3, 1), (0, 2), (1, 5)] (by norm_num) (by simp [nodesOf]) (by simp [nodesOf]) (by norm_num)
example := C15_assertion .left .linear .right false [1, 1] [2, 3] (.inr (by simp))
example := C16_loglinear [(0, 1), (1, 1 / 2), (2, 1 / 3)] (by norm_num) (by simp) (by norm_num)
example := C16_loglinearrate [(0, 1), (1, 1 / 2), (2, 1 / 3)] (by norm_num) (by norm_num) (by simp [List.filter])
example := C16_logconstantrate [(0, 1), (1, 1 / 2), (2, 1 / 3)] (by norm_num) (by norm_num) ⟨(1, 1 / 2), by simp, by simp⟩
example := C16_at_zero .loglinearrate rfl [(0, 1), (1, 1 / 2), (2, 1 / 3)] (by norm_num) (by norm_num)
example := C16_nonpositive .loglinear rfl [0, 1] [1, 0] ⟨0, by simp, le_rfl⟩
example := C17_refines_map (K := ℚ) [(1, 3), (2, 4)] (by decide) [.put [(2, 5), (0, 1)], .remove [1, 7]] (by simp [UpdateOp.Valid])
example := C17_surplus (K := ℚ) [(1, 3), (2, 4)] 0 5 2 (by decide) ⟨4, by simp⟩
example := C73_plain_partial .linear rfl [(1, 2), (3, 5)]
example := C73_log_violated .loglinear rfl [(1, 2), (3, 5)] (by norm_num) (by norm_num) 2 (by norm_num)

end Dcf
