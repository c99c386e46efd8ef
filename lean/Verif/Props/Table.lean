import Verif.Model.Table
import Verif.Lemmas.Curve
import Mathlib.Algebra.Order.Archimedean.Basic
import Mathlib.Algebra.Order.Group.Defs

/-! # Rate tables, iteration and derivatives of curves: C110, C111, C112 -/

set_option linter.unusedSectionVars false
set_option linter.unusedSimpArgs false
set_option linter.unusedVariables false

namespace Dcf

section
variable {G V : Type} [AddCommGroup G] [LinearOrder G] [IsOrderedAddMonoid G]

/-- The documented table: the entry in row `x_i` and column `y_j` is `f(x_i + y_j)` if that is before the next row (always
in the last row); there is no other entry. -/
structure TableSpec (v : G → V) (xs ys : List G) (rows : List (G × List V)) : Prop where
  labels : rows.map Prod.fst = xs
  entries : ∀ (i : ℕ) x row, rows[i]? = some (x, row) → ∀ j : ℕ, row[j]? = ys[j]?.bind fun y =>
    if xs[i + 1]?.all fun x' => decide (x + y < x') then some (v (x + y)) else none

theorem prefix_filter {ys : List G} (hs : ys.Pairwise (· < ·)) (p : G → Prop) [DecidablePred p]
    (hp : ∀ a b, a < b → p b → p a) (g : G → V) (j : ℕ) :
    ((ys.filter fun y => decide (p y)).map g)[j]? = ys[j]?.bind fun y => if p y then some (g y) else none := by
  induction ys generalizing j with
  | nil => simp
  | cons y l ih =>
    rw [List.pairwise_cons] at hs
    by_cases h : p y
    · cases j with
      | zero => simp [h]
      | succ j => simpa [h] using ih hs.2 j
    · have hl : ∀ z ∈ l, ¬ p z := fun z hz hpz => h (hp y z (hs.1 z hz) hpz)
      have : (l.filter fun y => decide (p y)) = [] := by simpa using hl
      cases j with
      | zero => simp [h, this]
      | succ j =>
        simp only [List.filter_cons, h, decide_false, this, List.map_nil, List.getElem?_nil, List.getElem?_cons_succ]
        cases hj : l[j]? with
        | none => simp
        | some z => simp [hl z (List.mem_of_getElem? hj)]

theorem rows_of {f : G → Py V} {v : G → V} (hf : ∀ x, f x = .ok (v x)) {ys : List G} (hs : ys.Pairwise (· < ·)) (hne : ys ≠ [])
    (hpos : 0 < ys.getLast hne) (xs : List G) :
    ∃ rows, tableRows f ys xs = .ok rows ∧ TableSpec v xs ys rows := by
  have hmap : ∀ x (l : List G), pyMap (fun y => f (x + y)) l = .ok (l.map fun y => v (x + y)) := fun x l =>
    pyMap_ok fun y _ => hf (x + y)
  induction xs with
  | nil => exact ⟨[], rfl, rfl, by simp⟩
  | cons x l ih =>
    cases l with
    | nil =>
      simp only [tableRows, pyLast_getLast hne, Py.ok_bind, hmap]
      refine ⟨_, rfl, rfl, fun i x1 row h j => ?_⟩
      obtain ⟨rfl, rfl, rfl⟩ : i = 0 ∧ x = x1 ∧ _ = row := by
        cases i with
        | zero => simpa using h
        | succ i => simp at h
      have hall : (ys.filter fun z => decide (x + z < x + ys.getLast hne + ys.getLast hne)) = ys := by
        rw [List.filter_eq_self]
        intro z hz
        have hle : z ≤ ys.getLast hne := by
          rw [List.getLast_eq_getElem]
          obtain ⟨k, hk, rfl⟩ := List.getElem_of_mem hz
          rcases (show k ≤ ys.length - 1 by omega).lt_or_eq with h | h
          · exact (List.pairwise_iff_getElem.1 hs _ _ _ _ h).le
          · simp [h]
        have : z < ys.getLast hne + ys.getLast hne := lt_of_le_of_lt hle (by simpa using hpos)
        rw [add_assoc]
        simpa using this
      rw [hall]
      simp [List.getElem?_map, Option.map_eq_bind, Function.comp_def]
    | cons x' l =>
      obtain ⟨rows, hr, hsp⟩ := ih
      simp only [tableRows, hmap, Py.ok_bind, hr]
      refine ⟨_, rfl, by simp [hsp.labels], fun i x1 row h j => ?_⟩
      cases i with
      | zero =>
        obtain ⟨rfl, rfl⟩ : x = x1 ∧ _ = row := by simpa using h
        rw [prefix_filter hs (fun y => x + y < x') (fun a b hab h => lt_trans (by simpa using hab) h)]
        simp
      | succ i =>
        have := hsp.entries i x1 row (by simpa using h) j
        simpa using this

/-- C110: for increasing columns, the last one positive, the table is as documented. -/
theorem C110_partial {f : G → Py V} {v : G → V} (hf : ∀ x, f x = .ok (v x)) (xs : List G) {ys : List G}
    (hs : ys.Pairwise (· < ·)) (hne : ys ≠ []) (hpos : 0 < ys.getLast hne) :
    ∃ rows, rateTable f xs (some ys) = .ok (ys, rows) ∧ TableSpec v xs ys rows := by
  obtain ⟨rows, hr, hsp⟩ := rows_of hf hs hne hpos xs
  exact ⟨rows, by simp [rateTable, hr], hsp⟩

variable [Archimedean G]

theorem tableLine_ok {step : G} (h : 0 < step) (span : G) :
    ∃ line, tableLine step span = .ok line ∧ (∀ y ∈ line, 0 < y) ∧ step ∈ line := by
  obtain ⟨N, hN⟩ := Archimedean.arch span h
  have key : ∀ (k : ℕ) (line : List G) (hne : line ≠ []), (∀ y ∈ line, 0 < y) → step ∈ line → span ≤ line.getLast hne + k • step →
      ∃ line', pyWhile (fun line => do
          let l ← pyLast line
          .ok (decide (l + step < span)))
        (fun line => do
          let l ← pyLast line
          .ok (line ++ [l + step])) line = .ok line' ∧ (∀ y ∈ line', 0 < y) ∧ step ∈ line' := by
    intro k
    induction k with
    | zero =>
      intro line hne hp hm hle
      refine ⟨line, ?_, hp, hm⟩
      rw [pyWhile_step]
      simp only [pyLast_getLast hne, Py.ok_bind]
      rw [if_neg]
      simp only [decide_eq_true_eq, not_lt]
      simp only [zero_smul, add_zero] at hle
      exact hle.trans (le_add_of_nonneg_right h.le)
    | succ k ih =>
      intro line hne hp hm hle
      rw [pyWhile_step]
      simp only [pyLast_getLast hne, Py.ok_bind]
      by_cases hc : line.getLast hne + step < span
      · rw [if_pos (by simpa using hc)]
        refine ih _ (by simp) ?_ (by simp [hm]) ?_
        · intro y hy
          rcases List.mem_append.1 hy with hy | hy
          · exact hp y hy
          · simp only [List.mem_singleton] at hy
            subst hy
            exact add_pos (hp _ (List.getLast_mem hne)) h
        · simp only [List.getLast_append_singleton]
          rw [succ_nsmul'] at hle
          rwa [add_assoc]
      · rw [if_neg (by simpa using hc)]
        exact ⟨line, rfl, hp, hm⟩
  exact key N [step] (by simp) (by simpa using h) (by simp) (hN.trans (by simpa using h.le))

theorem tableTicks_ok {step : G} (h : 0 < step) (ys : List G) (hys : ∀ y ∈ ys, 0 ≤ y) {diff : List G} (hd : ∀ d ∈ diff, 0 < d) :
    ∃ r, tableTicks step ys diff = .ok r ∧ (∀ y ∈ r, 0 ≤ y) ∧ (∀ y ∈ ys, y ∈ r) ∧ (diff ≠ [] → step ∈ r) := by
  induction diff generalizing step ys with
  | nil => exact ⟨ys, rfl, hys, fun y h => h, fun h => absurd rfl h⟩
  | cons d diff ih =>
    obtain ⟨line, hl, hp, hm⟩ := tableLine_ok h d
    obtain ⟨r, hr, h1, h2, -⟩ := ih (hd d (by simp)) (ys ++ line) (by
      intro y hy
      rcases List.mem_append.1 hy with hy | hy
      · exact hys y hy
      · exact (hp y hy).le) (fun z hz => hd z (by simp [hz]))
    exact ⟨r, by simp [tableTicks, hl, hr], h1, fun y hy => h2 y (by simp [hy]), fun _ => h2 _ (by simp [hm])⟩

theorem diffs_pos {xs : List G} (hs : xs.Pairwise (· < ·)) :
    ∀ d ∈ List.zipWith (fun s e => e - s) xs.dropLast xs.tail, 0 < d := by
  intro d hd
  obtain ⟨i, hi, rfl⟩ := List.getElem_of_mem hd
  simp only [List.length_zipWith, List.length_dropLast, List.length_tail] at hi
  simp only [List.getElem_zipWith, List.getElem_dropLast, List.getElem_tail, sub_pos]
  exact List.pairwise_iff_getElem.1 hs _ _ _ _ (by omega)

/-- C110: without columns given, rows in increasing order have a table; its columns start with zero and increase. -/
theorem C110_default_partial {f : G → Py V} {v : G → V} (hf : ∀ x, f x = .ok (v x)) {xs : List G} (hs : xs.Pairwise (· < ·))
    (h2 : 2 ≤ xs.length) :
    ∃ ys rows, rateTable f xs none = .ok (ys, rows) ∧ ys.head? = some 0 ∧ ys.Pairwise (· < ·) ∧ TableSpec v xs ys rows := by
  have hd := diffs_pos hs
  have hlen : 0 < (List.zipWith (fun s e => e - s) xs.dropLast xs.tail).length := by
    simp only [List.length_zipWith, List.length_dropLast, List.length_tail]; omega
  have hstep := hd _ (List.getElem_mem hlen)
  obtain ⟨r, hr, hnn, h0, hm⟩ := tableTicks_ok hstep [0] (by simp) hd
  have hcols : tableColumns xs = .ok (sortedSet r) := by
    simp only [tableColumns, pyIndex_ok hlen, Py.ok_bind, hr]
  have hss : (sortedSet r).Pairwise (· < ·) := sortedSet_strict r
  have h0m : (0 : G) ∈ sortedSet r := sortedSet_mem.2 (h0 0 (by simp))
  have hne : sortedSet r ≠ [] := List.ne_nil_of_mem h0m
  have hsm := sortedSet_mem.2 (hm (List.length_pos_iff.1 hlen))
  have hlast : 0 < (sortedSet r).getLast hne := by
    refine lt_of_lt_of_le hstep ?_
    rw [List.getLast_eq_getElem]
    obtain ⟨k, hk, e⟩ := List.getElem_of_mem hsm
    rw [← e]
    rcases (show k ≤ (sortedSet r).length - 1 by omega).lt_or_eq with h | h
    · exact (List.pairwise_iff_getElem.1 hss _ _ _ _ h).le
    · simp [h]
  obtain ⟨rows, hrows, hsp⟩ := rows_of hf hss hne hlast xs
  refine ⟨sortedSet r, rows, by simp [rateTable, hcols, hrows], ?_, hss, hsp⟩
  obtain ⟨a, l, e⟩ := List.exists_cons_of_ne_nil hne
  rw [e] at h0m hss
  have ha : 0 ≤ a := hnn a (sortedSet_mem.1 (by rw [e]; simp))
  rw [e]
  rcases List.mem_cons.1 h0m with h | h
  · simp [← h]
  · exact absurd ((List.pairwise_cons.1 hss).1 0 h) ha.not_gt

end

/-- C110: the table of a date curve whose dates increase: it starts at the origin. -/
theorem C110_curve_partial {G P : Type} [AddCommGroup G] [LinearOrder G] [IsOrderedAddMonoid G] [Archimedean G] {cal : Cal G P}
    {c : DateCurve G} {v : G → Option ℝ} (hv : ∀ x, c.call cal x = .ok (v x)) (hs : c.domain.Pairwise (· < ·)) {o : G}
    (ho : c.origin = some o) (hfirst : ∀ d ∈ c.domain, o ≤ d) (h2 : ∃ d ∈ c.domain, d ≠ o) :
    ∃ xs ys rows, c.table cal = .ok (ys, rows) ∧ xs.head? = some o ∧ (∀ x, x ∈ xs ↔ x = o ∨ x ∈ c.domain) ∧
      xs.Pairwise (· < ·) ∧ ys.Pairwise (· < ·) ∧ TableSpec v xs ys rows := by
  obtain ⟨d, hd, hdo⟩ := h2
  have hgrid : (if o ∈ c.domain then c.domain else o :: c.domain).Pairwise (· < ·) := by
    split_ifs with h
    · exact hs
    · exact List.pairwise_cons.2 ⟨fun x hx => lt_of_le_of_ne (hfirst x hx) (fun e => h (e ▸ hx)), hs⟩
  have hhead : (if o ∈ c.domain then c.domain else o :: c.domain).head? = some o := by
    split_ifs with h
    · obtain ⟨a, l, e⟩ := List.exists_cons_of_ne_nil (List.ne_nil_of_mem h)
      rw [e] at h hs hfirst ⊢
      rcases List.mem_cons.1 h with h | h
      · simp [h]
      · exact absurd ((List.pairwise_cons.1 hs).1 o h) (hfirst a (by simp)).not_gt
    · rfl
  have hlen : 2 ≤ (if o ∈ c.domain then c.domain else o :: c.domain).length := by
    split_ifs with h
    · by_contra hc
      obtain ⟨a, e⟩ : ∃ a, c.domain = [a] := by
        match hl : c.domain, hc with
        | [], _ => rw [hl] at h; simp at h
        | [a], _ => exact ⟨a, rfl⟩
        | a :: b :: l, hc => simp at hc
      rw [e] at h hd
      simp at h hd
      exact hdo (hd.trans h.symm)
    · have := List.length_pos_of_mem hd
      simp only [List.length_cons]
      omega
  obtain ⟨ys, rows, h, -, hys, hsp⟩ := C110_default_partial (f := c.call cal) hv hgrid hlen
  refine ⟨_, ys, rows, by simp only [DateCurve.table, ho]; exact h, hhead, fun x => ?_, hgrid, hys, hsp⟩
  split_ifs with h'
  · constructor
    · exact fun h => .inr h
    · rintro (rfl | h)
      · exact h'
      · exact h
  · simp

section
variable {G V : Type} [AddCommGroup G] [LinearOrder G] [IsOrderedAddMonoid G]

/-- C110 (what goes wrong): dates in decreasing order (the order in which a date curve keeps them) never finish. -/
theorem C110_decreasing_violated (f : G → Py V) (x x' : G) (l : List G) (h : x' < x) :
    rateTable f (x :: x' :: l) none = .error .diverges := by
  have hstep : x' - x < 0 := sub_neg.2 h
  have hline : tableLine (x' - x) (x' - x) = .error .diverges := by
    refine pyWhile_diverges (I := fun line => ∃ hne : line ≠ [], line.getLast hne ≤ x' - x) ⟨by simp, by simp⟩ ?_ ?_
    · rintro line ⟨hne, hle⟩
      simp only [pyLast_getLast hne, Py.ok_bind, Except.ok.injEq, decide_eq_true_eq]
      exact lt_of_lt_of_le (add_lt_of_neg_right _ hstep) hle
    · rintro line ⟨hne, hle⟩
      refine ⟨line ++ [line.getLast hne + (x' - x)], by simp [pyLast_getLast hne], by simp, ?_⟩
      simp only [List.getLast_append_singleton]
      exact (add_lt_of_neg_right _ hstep).le.trans hle
  simp [rateTable, tableColumns, pyIndex, tableTicks, hline]

/-- C110 (what goes wrong): a single row has no default columns. -/
theorem C110_single_violated (f : G → Py V) (x : G) : rateTable f [x] none = .error .index := by
  simp [rateTable, tableColumns, pyIndex]

end

/-- C110 (what goes wrong): the table of a plain curve. -/
theorem C110_plain_violated (c : Curve) : c.table = .error .attribute := rfl

/-- C110 (what goes wrong): columns not in increasing order are filled with values of other columns; here the value at
1/2 is in the column of 2. -/
theorem C110_columns_violated : ∃ rows, rateTable (fun x : ℝ => .ok x) [0, 1] (some [2, 1 / 2]) = .ok ([2, 1 / 2], rows) ∧
    ¬ TableSpec (fun x => x) [0, 1] [2, 1 / 2] rows := by
  refine ⟨[(0, [1 / 2]), (1, [3 / 2])], ?_, fun h => ?_⟩
  · norm_num [rateTable, tableRows, pyMap, pyLast, List.filter_cons]
  · have := h.entries 0 0 [1 / 2] rfl 0
    norm_num at this
    exact absurd this (by simp)

/-- C110 (what goes wrong): the column 0 alone leaves the last row empty. -/
theorem C110_zero_violated (f : ℝ → Py ℝ) (x : ℝ) : rateTable f [x] (some [0]) = .ok ([0], [(x, [])]) := by
  simp [rateTable, tableRows, pyLast]

/-- C110 (refuted): a curve with points in decreasing order has no table. -/
theorem C110_violated : ∃ c : DateCurve ℝ, DateCurve.new floatCal [2, 1] [3, 4] none none .default linearScheme = .ok c ∧
    c.table floatCal = .error .diverges := by
  have hn : ((timePts (DayCountArg.fn floatCal .default) 2 [((2 : ℝ), (3 : ℝ)), (1, 4)]).map Prod.fst).Nodup := by
    simp [timePts, DayCountArg.fn, floatCal]; norm_num
  refine ⟨_, DateCurve_new_eq floatCal none none .default linearScheme (pts := [((2 : ℝ), (3 : ℝ)), (1, 4)]) rfl trivial hn
    (by intro h; exact absurd h (by decide)), ?_⟩
  simp only [DateCurve.table, DateCurve.origin, dateCurveOf]
  simpa using C110_decreasing_violated _ (2 : ℝ) 1 [] (by norm_num)

example : ([0, 1, 4] : List ℝ).Pairwise (· < ·) ∧ 2 ≤ ([0, 1, 4] : List ℝ).length := by norm_num

/-! ## C111: curves as containers -/

/-- C111: `x in curve` says whether `x` is a given point; `curve[x]` is the value there and `KeyError` elsewhere. -/
theorem C111_partial (c : Curve) (x : ℝ) :
    (c.contains x = true ↔ x ∈ c.domain) ∧ (c.contains x = true → c.getitem x = c.call x) ∧
      (c.contains x = false → c.getitem x = .error .key) := by
  refine ⟨by simp [Curve.contains], fun h => ?_, fun h => ?_⟩
  · exact if_pos (by simpa [Curve.contains] using h)
  · exact if_neg (by simpa [Curve.contains] using h)

/-- C111: the same for date curves. -/
theorem C111_dates_partial {D P : Type} [DecidableEq D] (cal : Cal D P) (c : DateCurve D) (x : D) :
    (c.contains x = true ↔ x ∈ c.domain) ∧ (c.contains x = true → c.getitem cal x = c.call cal x) ∧
      (c.contains x = false → c.getitem cal x = .error .key) := by
  refine ⟨by simp [DateCurve.contains], fun h => ?_, fun h => ?_⟩
  · exact if_pos (by simpa [DateCurve.contains] using h)
  · exact if_neg (by simpa [DateCurve.contains] using h)

/-- C111 (what goes wrong): no curve can be iterated. -/
theorem C111_violated (c : Curve) : c.list = .error .type := rfl

/-- C111 (what goes wrong): nor can date curves. -/
theorem C111_dates_violated {D : Type} (c : DateCurve D) : c.list = .error .type := rfl

/-! ## C112: derivatives -/

section
variable {D P : Type} [DecidableEq D] {cal : Cal D P}

/-- The setting: the curve at `start`, time `t`, without fixings, the next day `dx` later. -/
structure DayStep (cal : Cal D P) (c : DateCurve D) (start next : D) (t dx : ℝ) : Prop where
  add : cal.add start cal.oneDay = .ok next
  time : c.time cal start = .ok t
  timeNext : c.time cal next = .ok (t + dx)
  dayCount : c.dayCount cal start next = .ok dx
  pos : 0 < dx

theorem num_at {c : DateCurve D} (hf : c.fixings = []) {x : D} {t y : ℝ} (ht : c.time cal x = .ok t)
    (hy : c.func.call t = .ok (some y)) : c.num cal x = .ok y := by
  simp [DateCurve.num, DateCurve.call, hf, Dict.get, ht, hy, pyNum]

/-- C112: where the curve has slope `l` before and `r` after the date (within one day), the derivative is the mean of both
with scipy and the slope after the date without. -/
theorem C112_slopes {c : DateCurve D} (hf : c.fixings = []) {start next : D} {t dx : ℝ} (h : DayStep cal c start next t dx)
    {y l r : ℝ} (h0 : c.func.call t = .ok (some y)) (hl : c.func.call (t - dx) = .ok (some (y - l * dx)))
    (hr : c.func.call (t + dx) = .ok (some (y + r * dx))) :
    c.derivative cal true start = .ok ((l + r) / 2) ∧ c.derivative cal false start = .ok r := by
  have hne := h.pos.ne'
  constructor
  · simp only [DateCurve.derivative, DateCurve.derivativeWith, if_true, h.time, h.add, h.dayCount, Py.ok_bind, scipyDerivative,
      h0, hl, hr, pyNum, pyDiv_ok hne]
    congr 1
    field_simp
    ring
  · simp only [DateCurve.derivative, DateCurve.derivativeWith, Bool.false_eq_true, if_false, h.add, Py.ok_bind,
      num_at hf h.timeNext hr, num_at hf h.time h0, h.dayCount, pyDiv_ok hne]
    congr 1
    field_simp
    ring

/-- C112: on a straight piece the derivative is its slope, whether or not scipy is installed. -/
theorem C112_partial {c : DateCurve D} (hf : c.fixings = []) {start next : D} {t dx : ℝ} (h : DayStep cal c start next t dx)
    {a b : ℝ} (hF : ∀ x, t - dx ≤ x → x ≤ t + dx → c.func.call x = .ok (some (a + b * x))) (scipy : Bool) :
    c.derivative cal scipy start = .ok b := by
  have hp := h.pos
  obtain ⟨h1, h2⟩ := C112_slopes hf h (y := a + b * t) (l := b) (r := b) (hF t (by linarith) (by linarith))
    (by rw [hF _ le_rfl (by linarith)]; congr 2; ring) (by rw [hF _ (by linarith) le_rfl]; congr 2; ring)
  cases scipy with
  | true => rw [h1]; congr 1; ring
  | false => exact h2

/-- C112 (what goes wrong): with scipy fixings (and spreads) do not count, without they do. -/
theorem C112_fixing_violated {c : DateCurve D} (hf : c.fixings = []) {start next : D} {t dx : ℝ} (h : DayStep cal c start next t dx)
    (hne : next ≠ start) {a b : ℝ} (hF : ∀ x, t - dx ≤ x → x ≤ t + dx → c.func.call x = .ok (some (a + b * x))) (z : ℝ) :
    (c.fix start z).derivative cal true start = .ok b ∧
      (c.fix start z).derivative cal false start = .ok ((a + b * (t + dx) - z) / dx) := by
  have hp := h.pos
  have h1 := C112_partial hf h hF true
  refine ⟨h1, ?_⟩
  have hs : (c.fix start z).num cal start = .ok z := by
    simp [DateCurve.num, DateCurve.call, DateCurve.fix, hf, Dict.set, Dict.get, pyNum]
  have hn : (c.fix start z).num cal next = .ok (a + b * (t + dx)) := by
    have ht : (c.fix start z).time cal next = .ok (t + dx) := h.timeNext
    have hF' : (c.fix start z).func.call (t + dx) = .ok (some (a + b * (t + dx))) := hF _ (by linarith) le_rfl
    have hg : (c.fix start z).fixings.get next = none := by simp [DateCurve.fix, hf, Dict.set, Dict.get, hne.symm]
    simp only [DateCurve.num, DateCurve.call, hg, ht, Py.ok_bind, hF', pyNum]
  have hd : (c.fix start z).dayCount cal start next = .ok dx := h.dayCount
  simp only [DateCurve.derivative, DateCurve.derivativeWith, Bool.false_eq_true, if_false, h.add, Py.ok_bind, hs, hn, hd,
    pyDiv_ok hp.ne']

end

/-- C112 (what goes wrong): year fraction dates have no next day. -/
theorem C112_float_violated (scipy : Bool) (c : DateCurve ℝ) {t : ℝ} (start : ℝ) (ht : c.time floatCal start = .ok t) :
    c.derivative floatCal scipy start = .error .type := by
  have ha : floatCal.add start floatCal.oneDay = .error .type := rfl
  cases scipy <;> simp [DateCurve.derivative, DateCurve.derivativeWith, ht, ha]

/-- The curve through (0, 0), (1, 0), (2, 1) over days. -/
noncomputable def kinked : DateCurve ℤ :=
  dateCurveOf (DayCountArg.fn dayCal .default) 0 none .default none linearScheme [(0, 0), (1, 0), (2, 1)]

theorem kinked_new : DateCurve.new dayCal [0, 1, 2] [0, 0, 1] none none .default linearScheme = .ok kinked :=
  DateCurve_new_eq dayCal none none .default linearScheme (pts := [((0 : ℤ), (0 : ℝ)), (1, 0), (2, 1)]) rfl trivial
    (by simp [timePts, DayCountArg.fn, dayCal]; norm_num) (by intro h; exact absurd h (by decide))

theorem kinked_call (x : ℝ) : kinked.func.call x = .ok (some (flin [(0, 0), (100 / 36525, 0), (200 / 36525, 1)] x)) := by
  have hs : StrictX [((0 : ℝ), (0 : ℝ)), (100 / 36525, 0), (200 / 36525, 1)] := by norm_num [StrictX]
  have e : timePts (DayCountArg.fn dayCal .default) 0 [((0 : ℤ), (0 : ℝ)), (1, 0), (2, 1)] =
      [((0 : ℝ), (0 : ℝ)), (100 / 36525, 0), (200 / 36525, 1)] := by
    simp [timePts, DayCountArg.fn, dayCal]; norm_num
  show (funcOf linearScheme (timePts (DayCountArg.fn dayCal .default) 0 [((0 : ℤ), (0 : ℝ)), (1, 0), (2, 1)])).call x = _
  rw [e, funcOf_linear_call (by norm_num) (by simp), sortPairs_eq_self hs]

/-- C112 (refuted): at a grid point the result depends on whether scipy is installed. -/
theorem C112_violated : ∃ c : DateCurve ℤ, DateCurve.new dayCal [0, 1, 2] [0, 0, 1] none none .default linearScheme = .ok c ∧
    ∃ a b, c.derivative dayCal true 1 = .ok a ∧ c.derivative dayCal false 1 = .ok b ∧ a ≠ b := by
  have hst : StrictX [((0 : ℝ), (0 : ℝ)), (100 / 36525, 0), (200 / 36525, 1)] := by norm_num [StrictX]
  have hstep : DayStep dayCal kinked 1 2 (100 / 36525) (100 / 36525) := by
    have ht : ∀ x, kinked.time dayCal x = .ok (dayCal.dayCount 0 x) := fun x =>
      time_eq dayCal (c := kinked) (dateCurveOf_origin rfl) trivial x
    refine ⟨by simp [dayCal], ?_, ?_, ?_, by norm_num⟩
    · rw [ht]; simp [dayCal]; try norm_num
    · rw [ht]; simp [dayCal]; try norm_num
    · simp [DateCurve.dayCount, kinked, dateCurveOf, DayCountArg.eval, dayCal]; try norm_num
  obtain ⟨h1, h2⟩ := C112_slopes (c := kinked) rfl hstep (y := 0) (l := 0) (r := 36525 / 100)
    (by rw [kinked_call, flin_node hst (y := 0) (by simp)])
    (by rw [kinked_call]; rw [show (100 / 36525 - 100 / 36525 : ℝ) = 0 by norm_num, flin_node hst (x := 0) (y := 0) (by simp)]; norm_num)
    (by rw [kinked_call, flin_node hst (x := 100 / 36525 + 100 / 36525) (y := 1) (by norm_num)]; norm_num)
  exact ⟨kinked, kinked_new, _, _, h1, h2, by norm_num⟩

/-- Hypotheses of C112 are met: a curve of constant slope around the date. -/
example : ∃ c : DateCurve ℤ, DateCurve.new dayCal [0, 2] [0, 2] none none .default linearScheme = .ok c ∧
    ∀ scipy, c.derivative dayCal scipy 1 = .ok (36525 / 100) := by
  let c : DateCurve ℤ := dateCurveOf (DayCountArg.fn dayCal .default) 0 none .default none linearScheme [(0, 0), (2, 2)]
  have e : timePts (DayCountArg.fn dayCal .default) 0 [((0 : ℤ), (0 : ℝ)), (2, 2)] = [((0 : ℝ), (0 : ℝ)), (200 / 36525, 2)] := by
    simp [timePts, DayCountArg.fn, dayCal]; norm_num
  have ht : ∀ x, c.time dayCal x = .ok (dayCal.dayCount 0 x) := fun x => time_eq dayCal (c := c) (dateCurveOf_origin rfl) trivial x
  refine ⟨c, DateCurve_new_eq dayCal none none .default linearScheme (pts := [((0 : ℤ), (0 : ℝ)), (2, 2)]) rfl trivial
    (by rw [e]; norm_num) (by intro h; exact absurd h (by decide)), fun scipy => ?_⟩
  refine C112_partial (c := c) rfl (start := 1) (next := 2) (t := 100 / 36525) (dx := 100 / 36525) (a := 0)
    ⟨by simp [dayCal], ?_, ?_, ?_, by norm_num⟩ (fun x h1 h2 => ?_) scipy
  · rw [ht]; simp [dayCal]
  · rw [ht]; simp [dayCal]; norm_num
  · simp [DateCurve.dayCount, c, dateCurveOf, DayCountArg.eval, dayCal]; norm_num
  · show (funcOf linearScheme (timePts (DayCountArg.fn dayCal .default) 0 [((0 : ℤ), (0 : ℝ)), (2, 2)])).call x = _
    have hs : StrictX [((0 : ℝ), (0 : ℝ)), (200 / 36525, 2)] := by norm_num [StrictX]
    rw [e, funcOf_linear_call (by norm_num) (by simp), sortPairs_eq_self hs]
    norm_num at h1 h2
    congr 2
    rcases h1.eq_or_lt with h | h
    · subst h; simp [flin]
    · simp only [flin, Spec.chord, not_le.2 h, if_false]
      rw [if_pos (by linarith)]
      norm_num

end Dcf
