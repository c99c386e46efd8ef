import Verif.Lemmas.Py
import Verif.Model.Plot
import Mathlib.Algebra.Order.Archimedean.Basic
import Verif.Props.Table

/-! # The grid of a plot: C122 -/

set_option linter.unusedSectionVars false
set_option linter.unusedSimpArgs false
set_option linter.unusedVariables false

namespace Dcf

section
variable {G : Type} [AddCommGroup G] [LinearOrder G] [IsOrderedAddMonoid G]

/-- The points `a, a + s, ..., a + m s`. -/
def ticks (a s : G) (m : ℕ) : List G := (List.range (m + 1)).map fun i => a + i • s

/-- Neighbouring elements. -/
def neighbours (l : List G) : List (G × G) := l.zip l.tail

theorem gridLine_eq [Archimedean G] {s : G} (hs : 0 < s) (a stop : G) : ∃ m : ℕ,
    (∀ grid, gridLine stop s (grid ++ [a]) = .ok (grid ++ ticks a s m)) ∧ (∀ i < m, a + i • s < stop) ∧ stop ≤ a + m • s := by
  obtain ⟨N, hN⟩ := Archimedean.arch (stop - a) hs
  have hN' : stop ≤ a + N • s := by rw [add_comm]; exact sub_le_iff_le_add.1 hN
  have hex : ∃ m : ℕ, stop ≤ a + m • s := ⟨N, hN'⟩
  classical
  refine ⟨Nat.find hex, fun grid => ?_, fun i hi => not_le.1 (Nat.find_min hex hi), Nat.find_spec hex⟩
  have key : ∀ k j, j + k = Nat.find hex → ∀ g : List G, gridLine stop s (g ++ [a + j • s]) =
      .ok (g ++ ((List.range (k + 1)).map fun i => a + (j + i) • s)) := by
    intro k
    induction k with
    | zero =>
      intro j hj g
      rw [gridLine, pyWhile_step]
      rw [pyLast_getLast (by simp)]
      simp only [Py.ok_bind, List.getLast_append_singleton]
      rw [if_neg]
      · simp
      · have := Nat.find_spec hex
        rw [← hj] at this
        simpa using this
    | succ k ih =>
      intro j hj g
      rw [gridLine, pyWhile_step]
      rw [pyLast_getLast (by simp)]
      simp only [Py.ok_bind, List.getLast_append_singleton]
      rw [if_pos (by simpa using not_le.1 (Nat.find_min hex (m := j) (by omega)))]
      have := ih (j + 1) (by omega) (g ++ [a + j • s])
      rw [gridLine] at this
      rw [add_assoc, ← succ_nsmul, this, List.range_succ_eq_map (n := k + 1)]
      simp only [List.map_cons, List.map_map, Function.comp_def, List.append_assoc, List.singleton_append, add_zero]
      congr 5
      funext i
      congr 2
      omega
  have := key (Nat.find hex) 0 (by omega) grid
  simpa [ticks] using this

theorem gridLoop_eq [Archimedean G] {stepFor : G → G → Py G} {s : G → G → G} (hs : ∀ a b, a < b → stepFor a b = .ok (s a b) ∧ 0 < s a b) :
    ∃ m : G → G → ℕ, (∀ a b, a < b → (∀ i < m a b, a + i • s a b < b) ∧ b ≤ a + m a b • s a b) ∧
      ∀ l : List G, l.Pairwise (· < ·) → ∀ grid, gridLoop stepFor grid l =
        .ok (grid ++ ((neighbours l).map fun p => ticks p.1 (s p.1 p.2) (m p.1 p.2)).flatten) := by
  have hex : ∀ a b, ∃ m : ℕ, a < b → (∀ grid, gridLine b (s a b) (grid ++ [a]) = .ok (grid ++ ticks a (s a b) m)) ∧
      (∀ i < m, a + i • s a b < b) ∧ b ≤ a + m • s a b := by
    intro a b
    by_cases h : a < b
    · obtain ⟨m, hm⟩ := gridLine_eq (hs a b h).2 a b
      exact ⟨m, fun _ => hm⟩
    · exact ⟨0, fun h' => absurd h' h⟩
  choose m hm using hex
  refine ⟨m, fun a b h => (hm a b h).2, ?_⟩
  intro l
  induction l with
  | nil => intro _ grid; simp [gridLoop, neighbours]
  | cons a l ih =>
    cases l with
    | nil => intro _ grid; simp [gridLoop, neighbours]
    | cons b l =>
      intro hl grid
      have hab : a < b := (List.pairwise_cons.1 hl).1 b (by simp)
      rw [gridLoop, (hs a b hab).1]
      simp only [Py.ok_bind]
      rw [if_neg (hs a b hab).2.ne', (hm a b hab).1, Py.ok_bind, ih (List.pairwise_cons.1 hl).2]
      simp [neighbours]

/-- C122 (the grid): with positive steps the grid lists for each pair of neighbouring dates the multiples of the step from the
first date until the second is reached or passed, at last the last date. -/
theorem C122_grid [Archimedean G] {stepFor : G → G → Py G} {s : G → G → G}
    (hs : ∀ a b, a < b → stepFor a b = .ok (s a b) ∧ 0 < s a b) {l : List G} (hl : l.Pairwise (· < ·)) (hne : l ≠ []) :
    ∃ m : G → G → ℕ, (∀ a b, a < b → (∀ i < m a b, a + i • s a b < b) ∧ b ≤ a + m a b • s a b) ∧
      makeGrid stepFor l = .ok (((neighbours l).map fun p => ticks p.1 (s p.1 p.2) (m p.1 p.2)).flatten ++ [l.getLast hne]) := by
  obtain ⟨m, hm, h⟩ := gridLoop_eq hs
  refine ⟨m, hm, ?_⟩
  rw [makeGrid, h l hl, Py.ok_bind, pyLast_getLast hne, Py.ok_bind]
  simp

theorem neighbours_cons (a b : G) (l : List G) : neighbours (a :: b :: l) = (a, b) :: neighbours (b :: l) := rfl

theorem mem_neighbours {l : List G} (hl : l.Pairwise (· < ·)) {p : G × G} (hp : p ∈ neighbours l) : p.1 < p.2 := by
  induction l with
  | nil => simp [neighbours] at hp
  | cons a l ih =>
    cases l with
    | nil => simp [neighbours] at hp
    | cons b l =>
      rw [neighbours_cons, List.mem_cons] at hp
      rcases hp with rfl | hp
      · exact (List.pairwise_cons.1 hl).1 b (by simp)
      · exact ih (List.pairwise_cons.1 hl).2 hp

/-- C122 (coverage): the grid starts with the first date, ends with the last one, contains all dates, and no point of it is
before the first date. -/
theorem C122_dates [Archimedean G] {stepFor : G → G → Py G} {s : G → G → G}
    (hs : ∀ a b, a < b → stepFor a b = .ok (s a b) ∧ 0 < s a b) {l : List G} (hl : l.Pairwise (· < ·)) (hne : l ≠ []) :
    ∃ grid, makeGrid stepFor l = .ok grid ∧ grid.head? = some (l.head hne) ∧ grid.getLast? = some (l.getLast hne) ∧
      (∀ d ∈ l, d ∈ grid) ∧ ∀ x ∈ grid, l.head hne ≤ x := by
  obtain ⟨m, hm, h⟩ := C122_grid hs hl hne
  have hmem : ∀ (l : List G) (hne : l ≠ []) d, d ∈ l → d ∈ ((neighbours l).map fun p => ticks p.1 (s p.1 p.2) (m p.1 p.2)).flatten ++ [l.getLast hne] := by
    intro l
    induction l with
    | nil => simp
    | cons a l ih =>
      cases l with
      | nil => simp [neighbours]
      | cons b l =>
        intro hne d hd
        rw [neighbours_cons, List.map_cons, List.flatten_cons, List.append_assoc, List.mem_append]
        rcases List.mem_cons.1 hd with rfl | hd
        · left
          simp only [ticks, List.mem_map, List.mem_range]
          exact ⟨0, by omega, by simp⟩
        · right
          exact ih (by simp) d hd
  refine ⟨_, h, ?_, by simp, hmem l hne, ?_⟩
  · cases l with
    | nil => simp at hne
    | cons a l =>
      cases l with
      | nil => simp [neighbours]
      | cons b l => simp [neighbours_cons, ticks, List.range_succ_eq_map]
  · intro x hx
    have hle : ∀ d ∈ l, l.head hne ≤ d := by
      cases l with
      | nil => simp at hne
      | cons a l =>
        intro d hd
        rcases List.mem_cons.1 hd with rfl | hd
        · simp
        · exact ((List.pairwise_cons.1 hl).1 d hd).le
    rcases List.mem_append.1 hx with hx | hx
    · obtain ⟨t, ht, hx⟩ := List.mem_flatten.1 hx
      obtain ⟨p, hp, rfl⟩ := List.mem_map.1 ht
      obtain ⟨i, -, rfl⟩ := List.mem_map.1 hx
      have h1 := hle p.1 (List.of_mem_zip hp).1
      have h2 := (hs _ _ (mem_neighbours hl hp)).2
      exact h1.trans (le_add_of_nonneg_right (nsmul_nonneg h2.le i))
    · rw [List.mem_singleton.1 hx]
      exact hle _ (List.getLast_mem hne)

theorem ticks_sorted {a s : G} (hs : 0 ≤ s) (m : ℕ) : (ticks a s m).Pairwise (· ≤ ·) := by
  rw [ticks, List.pairwise_map]
  refine List.pairwise_lt_range.imp fun h => ?_
  exact add_le_add_right (nsmul_le_nsmul_left hs h.le) a

/-- C122 (order): the grid is in order exactly if every step hits the next date. -/
theorem C122_sorted [Archimedean G] {stepFor : G → G → Py G} {s : G → G → G}
    (hs : ∀ a b, a < b → stepFor a b = .ok (s a b) ∧ 0 < s a b) {l : List G} (hl : l.Pairwise (· < ·)) (hne : l ≠ []) {grid : List G}
    (hg : makeGrid stepFor l = .ok grid) :
    grid.Pairwise (· ≤ ·) ↔ ∀ p ∈ neighbours l, ∃ k : ℕ, p.2 = p.1 + k • s p.1 p.2 := by
  obtain ⟨m, hm, h⟩ := C122_grid hs hl hne
  obtain rfl := Except.ok.inj (h.symm.trans hg)
  clear hg h
  have hlast : ∀ p ∈ neighbours l, (∃ k : ℕ, p.2 = p.1 + k • s p.1 p.2) ↔ p.1 + m p.1 p.2 • s p.1 p.2 ≤ p.2 := by
    intro p hp
    have hp' := mem_neighbours hl hp
    obtain ⟨h1, h2⟩ := hm _ _ hp'
    refine ⟨fun ⟨k, hk⟩ => ?_, fun h => ⟨_, le_antisymm h2 h⟩⟩
    rcases lt_or_ge k (m p.1 p.2) with hlt | hge
    · exact absurd hk.symm (h1 k hlt).ne
    · rw [hk]
      conv_rhs => rw [← hk]
      conv_lhs => rw [← hk]
      conv_rhs => rw [hk]
      exact add_le_add_right (nsmul_le_nsmul_left (hs _ _ hp').2.le hge) _
  rw [show (∀ p ∈ neighbours l, ∃ k : ℕ, p.2 = p.1 + k • s p.1 p.2) ↔ ∀ p ∈ neighbours l, p.1 + m p.1 p.2 • s p.1 p.2 ≤ p.2 from
    forall₂_congr hlast]
  clear hlast
  induction l with
  | nil => simp at hne
  | cons a l ih =>
    cases l with
    | nil => simp [neighbours]
    | cons b l =>
      have hl' := (List.pairwise_cons.1 hl).2
      have hab : a < b := (List.pairwise_cons.1 hl).1 b (by simp)
      have ih' := ih hl' (by simp)
      have hge : ∀ x ∈ ((neighbours (b :: l)).map fun p => ticks p.1 (s p.1 p.2) (m p.1 p.2)).flatten ++ [(b :: l).getLast (by simp)], b ≤ x := by
        intro x hx
        have hle : ∀ d ∈ b :: l, b ≤ d := by
          intro d hd
          rcases List.mem_cons.1 hd with rfl | hd
          · exact le_rfl
          · exact ((List.pairwise_cons.1 hl').1 d hd).le
        rcases List.mem_append.1 hx with hx | hx
        · obtain ⟨t, ht, hx⟩ := List.mem_flatten.1 hx
          obtain ⟨p, hp, rfl⟩ := List.mem_map.1 ht
          obtain ⟨i, -, rfl⟩ := List.mem_map.1 hx
          exact (hle p.1 (List.of_mem_zip hp).1).trans (le_add_of_nonneg_right (nsmul_nonneg (hs _ _ (mem_neighbours hl' hp)).2.le i))
        · rw [List.mem_singleton.1 hx]
          exact hle _ (List.getLast_mem _)
      have hb : b ∈ ((neighbours (b :: l)).map fun p => ticks p.1 (s p.1 p.2) (m p.1 p.2)).flatten ++ [(b :: l).getLast (by simp)] := by
        cases l with
        | nil => simp [neighbours]
        | cons c l =>
          rw [neighbours_cons, List.map_cons, List.flatten_cons]
          simp only [List.mem_append]
          left; left
          exact List.mem_map.2 ⟨0, by simp, by simp⟩
      rw [neighbours_cons, List.map_cons, List.flatten_cons, List.append_assoc, List.pairwise_append, List.forall_mem_cons,
        List.getLast_cons (by simp)]
      constructor
      · rintro ⟨-, h1, h2⟩
        exact ⟨h2 _ (List.mem_map.2 ⟨m a b, by simp, rfl⟩) b hb, ih'.1 h1⟩
      · rintro ⟨h1, h2⟩
        refine ⟨ticks_sorted (hs a b hab).2.le _, ih'.2 h2, fun x hx y hy => ?_⟩
        obtain ⟨i, hi, rfl⟩ := List.mem_map.1 hx
        refine le_trans ?_ (h1.trans (hge y hy))
        exact add_le_add_right (nsmul_le_nsmul_left (hs a b hab).2.le (by simp at hi; omega)) _

/-- C122 is violated by negative steps: the call does not end. -/
theorem C122_negative_violated {s : G} (hs : s < 0) {a b : G} (hab : a < b) (l : List G) :
    makeGrid (givenStep s) (a :: b :: l) = .error .diverges := by
  rw [makeGrid, gridLoop]
  simp only [givenStep, Py.ok_bind]
  rw [if_neg hs.ne, gridLine, pyWhile_diverges (I := fun g => ∃ hne : g ≠ [], g.getLast hne < b) ⟨by simp, by simpa using hab⟩]
  · rfl
  · rintro g ⟨hne, hg⟩
    rw [pyLast_getLast hne]
    simp [hg]
  · rintro g ⟨hne, hg⟩
    rw [pyLast_getLast hne]
    refine ⟨_, rfl, by simp, ?_⟩
    simpa using (add_lt_add hg hs).trans_eq (add_zero b)

end

/-- C122 (number of steps): for numbers as dates and `nums` steps the grid has exactly `nums + 1` points in each interval,
both ends included, and is in order. -/
theorem C122_nums {n : ℕ} (hn : 0 < n) {l : List ℝ} (hl : l.Pairwise (· < ·)) (hne : l ≠ []) :
    makeGrid (numberStep none n) l =
      .ok (((neighbours l).map fun p => ticks p.1 ((p.2 - p.1) / (n : ℝ)) n).flatten ++ [l.getLast hne]) ∧
    (((neighbours l).map fun p => ticks p.1 ((p.2 - p.1) / (n : ℝ)) n).flatten ++ [l.getLast hne]).Pairwise (· ≤ ·) := by
  have hn' : (0 : ℝ) < n := by exact_mod_cast hn
  have hs : ∀ a b : ℝ, a < b → numberStep none n a b = .ok ((b - a) / n) ∧ 0 < (b - a) / n := fun a b h =>
    ⟨by simp [numberStep, pyDiv, hn.ne'], div_pos (sub_pos.2 h) hn'⟩
  obtain ⟨m, hm, h⟩ := C122_grid hs hl hne
  have hmn : ∀ a b, a < b → m a b = n := by
    intro a b hab
    obtain ⟨h1, h2⟩ := hm a b hab
    have hd := (hs a b hab).2
    have e : a + n • ((b - a) / n) = b := by rw [nsmul_eq_mul]; field_simp; ring
    refine le_antisymm (not_lt.1 fun hlt => (h1 n hlt).ne e) (not_lt.1 fun hlt => ?_)
    have : a + m a b • ((b - a) / n) < a + n • ((b - a) / n) := by
      simp only [nsmul_eq_mul]
      have : (m a b : ℝ) < n := by exact_mod_cast hlt
      nlinarith
    linarith
  have e : makeGrid (numberStep none n) l =
      .ok (((neighbours l).map fun p => ticks p.1 ((p.2 - p.1) / (n : ℝ)) n).flatten ++ [l.getLast hne]) := by
    rw [h]
    congr 3
    refine List.map_congr_left fun p hp => ?_
    rw [hmn _ _ (mem_neighbours hl hp)]
  refine ⟨e, (C122_sorted hs hl hne e).2 fun p hp => ⟨n, ?_⟩⟩
  rw [nsmul_eq_mul]; field_simp; ring

/-- C122 is violated by steps that do not divide an interval: the grid passes the end of the curve and goes back. -/
theorem C122_step_violated {s a b : ℝ} (hs : 0 < s) (hab : a < b) (h : ∀ k : ℕ, b ≠ a + k * s) :
    ∃ grid, makeGrid (numberStep (some s) 10) [a, b] = .ok grid ∧ (∃ x ∈ grid, b < x) ∧ ¬ grid.Pairwise (· ≤ ·) := by
  have hs' : ∀ a b : ℝ, a < b → numberStep (some s) 10 a b = .ok s ∧ 0 < s := fun a b _ => ⟨by simp [numberStep, hs.ne'], hs⟩
  obtain ⟨m, hm, hg⟩ := C122_grid (s := fun _ _ => s) hs' (l := [a, b]) (by simpa using hab) (by simp)
  refine ⟨_, hg, ⟨a + m a b • s, ?_, lt_of_le_of_ne (hm a b hab).2 (by simpa using h (m a b))⟩, ?_⟩
  · simp only [neighbours, List.tail_cons, List.zip_cons_cons, List.zip_nil_right, List.map_cons, List.map_nil, List.flatten_cons, List.flatten_nil,
      List.append_nil, List.mem_append]
    left
    exact List.mem_map.2 ⟨m a b, by simp, rfl⟩
  · rw [C122_sorted (s := fun _ _ => s) hs' (l := [a, b]) (by simpa using hab) (by simp) hg]
    intro hall
    obtain ⟨k, hk⟩ := hall (a, b) (by simp [neighbours])
    exact h k (by simpa using hk)

/-- C122: zero steps raise `ZeroDivisionError`, an empty curve `IndexError`; a single date is the grid. -/
theorem C122_special : (∀ a b l, makeGrid (numberStep none 0) (a :: b :: l) = .error .zeroDivision) ∧
    (∀ step nums, makeGrid (numberStep step nums) [] = .error .index) ∧ ∀ step nums a, makeGrid (numberStep step nums) [a] = .ok [a] := by
  refine ⟨fun a b l => ?_, fun step nums => ?_, fun step nums a => ?_⟩
  · simp [makeGrid, gridLoop, numberStep, pyDiv]
  · simp [makeGrid, gridLoop, pyLast]
  · simp [makeGrid, gridLoop, pyLast]

/-- C122: where the step comes out as zero, as it does for dates that are closer than the number of steps between them, the
grid is the domain itself. -/
theorem C122_zero {G : Type} [AddCommGroup G] [LinearOrder G] {stepFor : G → G → Py G} {l : List G} (hne : l ≠ [])
    (h : ∀ p ∈ neighbours l, stepFor p.1 p.2 = .ok 0) : makeGrid stepFor l = .ok l := by
  have key : ∀ (l grid : List G) (hne : l ≠ []), (∀ p ∈ neighbours l, stepFor p.1 p.2 = .ok 0) →
      gridLoop stepFor grid l = .ok (grid ++ l.dropLast) := by
    intro l
    induction l with
    | nil => simp
    | cons a l ih =>
      intro grid _ h
      cases l with
      | nil => simp [gridLoop]
      | cons b l =>
        rw [gridLoop, h (a, b) (by simp [neighbours]), Py.ok_bind, if_pos rfl, Py.ok_bind]
        show gridLoop stepFor (grid ++ [a]) (b :: l) = _
        rw [ih _ (by simp) fun p hp => h p (by simp only [neighbours, List.tail_cons, List.zip_cons_cons] at hp ⊢; exact List.mem_cons_of_mem _ hp)]
        simp
  rw [makeGrid, key l [] hne h, Py.ok_bind, pyLast_getLast hne, Py.ok_bind]
  simp [List.dropLast_append_getLast]

/-- C122: a step of zero counts as no step. -/
theorem C122_no_step (nums : ℝ) (l : List ℝ) : makeGrid (numberStep (some 0) nums) l = makeGrid (numberStep none nums) l := by
  have : numberStep (some 0) nums = numberStep none nums := by funext a b; simp [numberStep]
  rw [this]

example : makeGrid (givenStep (0 : ℤ)) [1, 2, 5] = .ok [1, 2, 5] := C122_zero (by simp) fun _ _ => rfl

/-- C122: what is drawn for a function of the curve are its values at the dates of the grid, in the order of the grid; a
function the curve does not have is left out, and an error of the function is the error of the plot. -/
theorem C122_values {G V : Type} [AddCommGroup G] [LinearOrder G] (f : G → Py V) (grid : List G) :
    (∀ g : G → V, (∀ t ∈ grid, f t = .ok (g t)) → drawn (some f) grid = .ok (some (grid.map fun t => (t, g t)))) ∧
    (∀ ps, drawn (some f) grid = .ok (some ps) → ps.map Prod.fst = grid ∧ ∀ p ∈ ps, f p.1 = .ok p.2) ∧
    drawn (none : Option (G → Py V)) grid = .ok none ∧
    ((∃ t ∈ grid, ∃ e, f t = .error e) → ∃ e, drawn (some f) grid = .error e) := by
  refine ⟨fun g h => ?_, fun ps h => ?_, rfl, ?_⟩
  · simp only [drawn, pyMap_ok h, Py.ok_bind]
    congr 2
    clear h
    induction grid with
    | nil => rfl
    | cons t l ih => simp [ih]
  · simp only [drawn, Py.bind_eq_ok] at h
    obtain ⟨vs, hv, h⟩ := h
    have h1 : grid.zip vs = ps := by simpa using h
    subst h1
    clear h
    induction grid generalizing vs with
    | nil => simp
    | cons t l ih =>
      simp only [pyMap, Py.bind_eq_ok] at hv
      obtain ⟨y, hy, ys, hys, h⟩ := hv
      obtain rfl := (Except.ok.inj h).symm
      obtain ⟨h1, h2⟩ := ih ys hys
      refine ⟨by simp [h1], ?_⟩
      simp only [List.zip_cons_cons, List.mem_cons, forall_eq_or_imp]
      exact ⟨hy, h2⟩
  · rintro ⟨t, ht, e, he⟩
    cases hd : drawn (some f) grid with
    | error e => exact ⟨e, rfl⟩
    | ok r =>
      exfalso
      simp only [drawn, Py.bind_eq_ok] at hd
      obtain ⟨vs, hv, -⟩ := hd
      obtain ⟨y, hy⟩ : ∃ y, f t = .ok y := by
        clear he
        induction grid generalizing vs with
        | nil => simp at ht
        | cons a l ih =>
          simp only [pyMap, Py.bind_eq_ok] at hv
          obtain ⟨y, hy, ys, hys, h⟩ := hv
          rcases List.mem_cons.1 ht with rfl | ht
          · exact ⟨y, hy⟩
          · exact ih ht ys hys
      rw [he] at hy
      simp at hy

example : drawn (some fun t : ℝ => pyDiv 1 t) [1, 2] = .ok (some [(1, 1), (2, 1 / 2)]) := by
  rw [(C122_values (fun t : ℝ => pyDiv 1 t) [1, 2]).1 (fun t => 1 / t) (by simp [pyDiv])]
  norm_num

/-- Hypotheses of C122 are met, e.g. two intervals with two steps each. -/
example : makeGrid (numberStep none 2) [0, 1, 3] = .ok [0, 1 / 2, 1, 1, 2, 3, 3] := by
  have := (C122_nums (n := 2) (by norm_num) (l := [0, 1, 3]) (by norm_num) (by simp)).1
  norm_num [neighbours, ticks, List.range_succ] at this ⊢
  exact this

/-! ### The hypotheses can be met: each theorem applied -/

example := C122_grid (G := ℝ) (stepFor := numberStep (some 2) 10) (s := fun _ _ => 2) (l := [0, 1, 5]) (fun a b h => ⟨by simp [numberStep], by norm_num⟩) (by norm_num) (by simp)
example := C122_dates (G := ℝ) (stepFor := numberStep (some 2) 10) (s := fun _ _ => 2) (l := [0, 1, 5]) (fun a b h => ⟨by simp [numberStep], by norm_num⟩) (by norm_num) (by simp)
example := fun grid => C122_sorted (G := ℝ) (stepFor := numberStep (some 2) 10) (s := fun _ _ => 2) (l := [0, 1, 5]) (fun a b h => ⟨by simp [numberStep], by norm_num⟩) (by norm_num) (by simp) (grid := grid)
example := C122_negative_violated (show (-1 : ℝ) < 0 by norm_num) (a := 0) (b := 5) (by norm_num) [7]
example := C122_step_violated (s := 2) (a := 0) (b := 5) (by norm_num) (by norm_num) (fun k h => by
  have : (5 : ℝ) = ((2 * k : ℕ) : ℝ) := by push_cast; linarith
  have : 5 = 2 * k := by exact_mod_cast this
  omega)

end Dcf
