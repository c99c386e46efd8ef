import Verif.Props.Rating
import Verif.Lemmas.Dict

/-! # Rating classes by name: C108, C109 -/

set_option linter.unusedSectionVars false
set_option linter.unusedSimpArgs false
set_option linter.unusedVariables false

namespace Dcf.Rating

section
variable {κ : Type} [DecidableEq κ]

theorem scaleItems_values (d : Dict κ ScaleNum) : (scaleItems d).map Prod.snd = scaleValues (d.map fun q => q.2.val) := by
  rw [scaleItems, scaleValues, List.map_insertionSort (s := (· ≤ ·)) (hl := fun a _ b _ => Iff.rfl), List.map_map]
  rfl

theorem scaleItems_rounded (d : Dict κ ScaleNum) :
    ((scaleItems d).map fun p => round7 p.2) = roundedScale (d.map fun q => q.2.val) := by
  rw [← scaleValues_round, ← scaleItems_values, List.map_map]
  rfl

theorem scaleItems_perm (d : Dict κ ScaleNum) : (scaleItems d).Perm (d.map fun p => (p.1, p.2.val)) :=
  List.perm_insertionSort _ _

theorem mem_scaleItems {d : Dict κ ScaleNum} {p : κ × ℝ} : p ∈ scaleItems d ↔ ∃ x, (p.1, x) ∈ d ∧ x.val = p.2 := by
  rw [(scaleItems_perm d).mem_iff, List.mem_map]
  constructor
  · rintro ⟨q, hq, rfl⟩; exact ⟨q.2, hq, rfl⟩
  · rintro ⟨x, hx, h⟩; exact ⟨(p.1, x), hx, by simp [h]⟩

/-- Classes with different values after rounding to seven digits. -/
def DistinctClasses (d : Dict κ ScaleNum) : Prop :=
  (d.map Prod.fst).Nodup ∧ (d.map fun p => round7 p.2.val).Nodup

theorem mem_get {d : Dict κ ScaleNum} (h : (d.map Prod.fst).Nodup) {k : κ} {x : ScaleNum} (hx : (k, x) ∈ d) : d.get k = some x := by
  induction d with
  | nil => simp at hx
  | cons p d ih =>
    obtain ⟨a, b⟩ := p
    simp only [List.map_cons, List.nodup_cons] at h
    rcases List.mem_cons.1 hx with e | hx
    · cases e; simp [Dict.get]
    · have : a ≠ k := fun e => h.1 (e ▸ List.mem_map_of_mem hx)
      simp [Dict.get, this, ih h.2 hx]

/-- The weights of a value that is the rounded value of class `c`. -/
theorem vector_class {K : Type} [Field K] [LinearOrder K] [IsStrictOrderedRing K] [FloorRing K] (sloppy : Bool) (scale : List K)
    (v : K) (hs : (roundedScale scale).Pairwise (· < ·)) (h2 : 2 ≤ scale.length) (c : ℕ) (hc : c < (roundedScale scale).length)
    (hv : (roundedScale scale)[c] = round7 v) :
    vector sloppy scale v = .ok ((List.range scale.length).map fun i => if i = c then 1 else 0) := by
  have hlen : (roundedScale scale).length = scale.length := by simp [roundedScale]
  have hle : (roundedScale scale).Pairwise (· ≤ ·) := List.pairwise_insertionSort _ _
  have hnil : roundedScale scale ≠ [] := by rw [← List.length_pos_iff]; omega
  have hmono : ∀ i j (hi : i < (roundedScale scale).length) (hj : j < (roundedScale scale).length), i < j →
      (roundedScale scale)[i] < (roundedScale scale)[j] := fun i j hi hj hij => List.pairwise_iff_getElem.1 hs i j hi hj hij
  rw [vector_eq sloppy scale v _ _ (pyMin_sorted hnil hle) (pyMax_sorted hnil hle)]
  · have hf : firstNotLess (round7 v) (roundedScale scale) = .ok c := by
      obtain ⟨c', hc', hlt, hcv, hcl⟩ := firstNotLess_spec (v := round7 v) (l := roundedScale scale)
        ⟨_, List.getElem_mem hc, hv.ge⟩
      rcases lt_trichotomy c c' with h | rfl | h
      · exact absurd (hcl c h) (by rw [hv]; exact lt_irrefl _)
      · exact hc'
      · have := hmono c' c hlt hc h
        rw [hv] at this
        exact absurd hcv this.not_ge
    obtain ⟨f, hfl, hfi, hne⟩ : ∃ f, ∃ hf : f < (roundedScale scale).length,
        pyIndexInt (roundedScale scale) ((c : ℤ) - 1) = .ok (roundedScale scale)[f] ∧ f ≠ c := by
      rcases Nat.eq_zero_or_pos c with rfl | hp
      · refine ⟨(roundedScale scale).length - 1, by omega, ?_, by omega⟩
        unfold pyIndexInt
        rw [if_neg (by norm_num), if_pos (by omega)]
        have : (((roundedScale scale).length : ℤ) + (((0 : ℕ) : ℤ) - 1)).toNat = (roundedScale scale).length - 1 := by omega
        rw [this, pyIndex_ok (by omega)]
      · refine ⟨c - 1, by omega, ?_, by omega⟩
        unfold pyIndexInt
        rw [if_pos (by omega)]
        have : ((c : ℤ) - 1).toNat = c - 1 := by omega
        rw [this, pyIndex_ok (by omega)]
    have hd : (roundedScale scale)[f] - (roundedScale scale)[c] ≠ 0 := by
      rw [sub_ne_zero]
      rcases lt_or_gt_of_ne hne with h | h
      · exact (hmono f c hfl hc h).ne
      · exact (hmono c f hc hfl h).ne'
    rw [hv] at hd
    rw [hf]
    simp only [Py.ok_bind, pyIndex_ok hc, hfi, hv, sub_self, pyDiv_ok hd, zero_div, round7_zero, sub_zero, round7_one]
    congr 1
    rw [← hlen]
    apply List.ext_getElem
    · simp
    · intro i h1 h2
      simp only [List.getElem_map, List.getElem_zipIdx, List.getElem_range, zero_add]
      by_cases hi : i = c
      · subst hi
        rw [if_neg (by omega)]
        simp
      · simp [hi]
  · rw [← hv, List.head_eq_getElem]
    rcases Nat.eq_zero_or_pos c with rfl | h
    · exact le_rfl
    · exact (hmono _ _ (by omega) hc h).le
  · rw [← hv, List.getLast_eq_getElem]
    rcases (show c ≤ (roundedScale scale).length - 1 by omega).lt_or_eq with h | h
    · exact (hmono _ _ hc (by omega) h).le
    · simp [← h]

theorem new_key {d : Dict κ ScaleNum} {k : κ} {x : ScaleNum} (h : d.get k = some x) :
    RatingClass.new (.key k) (.scale d) = RatingClass.new (.num x) (.scale d) := by
  cases d with
  | nil => simp [Dict.get] at h
  | cons p d => simp only [RatingClass.new, Py.ok_bind, h]

/-- The name of a rating whose rounded value is that of a class, different from all classes before it. -/
theorem str_base (sloppy : Bool) {d : Dict κ ScaleNum} {v : ℝ} {a b : Dict κ ScaleNum} {p : κ × ScaleNum} (hd : d = a ++ p :: b)
    (hp : round7 v = round7 p.2.val) (ha : ∀ q ∈ a, round7 v ≠ round7 q.2.val) :
    RatingClass.str sloppy ⟨v, some d⟩ = .ok (.base p.1) := by
  have hf : d.find? (fun q => decide (round7 v = round7 q.2.val)) = some p := by
    rw [List.find?_eq_some_iff_append]
    exact ⟨by simpa using hp, a, b, hd, by simpa using ha⟩
  obtain ⟨q, d', rfl⟩ : ∃ q d', d = q :: d' := List.exists_cons_of_ne_nil (by rw [hd]; simp)
  simp only [RatingClass.str, hf]

/-- C108: with classes that differ after rounding, a rating given by a class name has the value of the class, shows that
name and has all weight on that class. -/
theorem C108_partial (sloppy : Bool) {d : Dict κ ScaleNum} (hd : DistinctClasses d) {k : κ} {x : ℝ} (hk : (k, .float x) ∈ d) :
    RatingClass.new (.key k) (.scale d) = .ok ⟨x, some d⟩ ∧ RatingClass.str sloppy ⟨x, some d⟩ = .ok (.base k) ∧
      scaleGet d k = .ok (some ⟨x, some d⟩) ∧
      (2 ≤ d.length → RatingClass.vector sloppy ⟨x, some d⟩ = .ok ((scaleKeys d).map fun j => if j = k then 1 else 0)) := by
  have hg := mem_get hd.1 hk
  have hnew : RatingClass.new (.num (.float x)) (.scale d) = .ok ⟨x, some d⟩ := by
    cases d <;> simp [RatingClass.new]
  refine ⟨by rw [new_key hg, hnew], ?_, by simp [scaleGet, hg, hnew], fun h2 => ?_⟩
  · obtain ⟨a, b, rfl⟩ := List.append_of_mem hk
    refine str_base sloppy rfl rfl fun q hq e => ?_
    have := hd.2
    simp only [List.map_append, List.map_cons] at this
    exact (List.nodup_append.1 this).2.2 (round7 q.2.val) (List.mem_map_of_mem hq) (round7 x) (by simp [ScaleNum.val]) e.symm
  · obtain ⟨p, d', rfl⟩ : ∃ q d', d = q :: d' := List.exists_cons_of_ne_nil (by rintro rfl; simp at h2)
    set d := p :: d'
    have hroundnd : (roundedScale (d.map fun q => q.2.val)).Nodup := by
      rw [roundedScale, (List.perm_insertionSort _ _).nodup_iff, List.map_map]
      exact hd.2
    have hstrict : (roundedScale (d.map fun q => q.2.val)).Pairwise (· < ·) := by
      have h1 : (roundedScale (d.map fun q => q.2.val)).Pairwise (· ≤ ·) := List.pairwise_insertionSort _ _
      exact (h1.and hroundnd).imp fun h => lt_of_le_of_ne h.1 h.2
    obtain ⟨c, hc, hce⟩ := List.getElem_of_mem (mem_scaleItems.2 ⟨_, hk, rfl⟩ : (k, x) ∈ scaleItems d)
    have hlen : (scaleItems d).length = d.length := by simp [scaleItems]
    have hval : (roundedScale (d.map fun q => q.2.val))[c]'(by simpa [roundedScale] using hlen ▸ hc) = round7 x := by
      have := scaleItems_rounded d
      simp only [← this, List.getElem_map, hce]
    show Rating.vector sloppy (d.map fun q => q.2.val) x = _
    rw [vector_class sloppy _ x hstrict (by simpa using h2) c (by simpa [roundedScale] using hlen ▸ hc) hval]
    congr 1
    apply List.ext_getElem
    · simp [scaleKeys, hlen]
    · intro i h1 h2'
      simp only [List.getElem_map, List.getElem_range, scaleKeys]
      have hi : i < (scaleItems d).length := by simpa [hlen] using h1
      have hknd : ((scaleItems d).map Prod.fst).Nodup := by
        rw [((scaleItems_perm d).map Prod.fst).nodup_iff, List.map_map]
        exact hd.1
      have hiff : (scaleItems d)[i].1 = k ↔ i = c := by
        constructor
        · intro e
          have : ((scaleItems d).map Prod.fst)[i]'(by simpa using hi) = ((scaleItems d).map Prod.fst)[c]'(by simpa using hc) := by
            simp [e, hce]
          exact (hknd.getElem_inj_iff).1 this
        · rintro rfl; rw [hce]
      simp [hiff]

/-- C108: `rating_classes` lists one rating per class in increasing order. -/
theorem C108_classes (d : Dict κ ScaleNum) :
    ratingClasses d = .ok ((scaleItems d).map fun p => ⟨p.2, some d⟩) ∧ ((scaleItems d).map Prod.snd).Pairwise (· ≤ ·) ∧
      (scaleItems d).Perm (d.map fun p => (p.1, p.2.val)) := by
  refine ⟨pyMap_ok fun p hp => ?_, ?_, scaleItems_perm d⟩
  · cases d <;> simp [RatingClass.new]
  · rw [scaleItems_values]
    exact List.pairwise_insertionSort _ _

/-- C108: a name that is not in the scale: `get` gives nothing, a rating cannot be given by it. -/
theorem C108_unknown {d : Dict κ ScaleNum} {k : κ} (hk : k ∉ d.map Prod.fst) :
    scaleGet d k = .ok none ∧ RatingClass.new (.key k) (.scale d) = .error .type := by
  have hg := Dict.get_none.2 hk
  refine ⟨by simp [scaleGet, hg], ?_⟩
  cases d with
  | nil => simp [RatingClass.new]
  | cons p d => simp [RatingClass.new, hg]

theorem filter_two {l : List (κ × ℝ)} {w : List ℝ} {i : ℕ} (hi : i + 1 < l.length) (hw : w.length = l.length)
    (h0 : ∀ j (hj : j < w.length), j ≠ i → j ≠ i + 1 → w[j] = 0) :
    (((l.map Prod.fst).zip w).filter fun q => decide (q.2 ≠ 0)) =
        [(l[i].1, w[i]), (l[i + 1].1, w[i + 1])].filter (fun q => decide (q.2 ≠ 0)) ∧
      w.sum = w[i] + w[i + 1] ∧
      ∀ f : ℝ → ℝ, (List.zipWith (· * ·) w (l.map fun p => f p.2)).sum = w[i] * f l[i].2 + w[i + 1] * f l[i + 1].2 := by
  have split : ∀ {α : Type} (l : List α) (hi : i + 1 < l.length), l = l.take i ++ l[i] :: l[i + 1] :: l.drop (i + 2) := by
    intro α l hi
    conv_lhs => rw [← List.take_append_drop i l, List.drop_eq_getElem_cons (by omega), List.drop_eq_getElem_cons (by omega)]
  have hA : ∀ x ∈ w.take i, x = 0 := by
    intro x hx
    obtain ⟨j, hj, rfl⟩ := List.getElem_of_mem hx
    rw [List.length_take] at hj
    rw [List.getElem_take]
    exact h0 j (by omega) (by omega) (by omega)
  have hB : ∀ x ∈ w.drop (i + 2), x = 0 := by
    intro x hx
    obtain ⟨j, hj, rfl⟩ := List.getElem_of_mem hx
    rw [List.length_drop] at hj
    rw [List.getElem_drop]
    exact h0 _ (by omega) (by omega) (by omega)
  have ew := split w (by omega)
  have el := split l hi
  have hlen : (l.take i).length = (w.take i).length := by simp; omega
  set A := w.take i
  set B := w.drop (i + 2)
  set A' := l.take i
  set B' := l.drop (i + 2)
  have hzero : ∀ (X : List (κ × ℝ)) (Y : List ℝ), (∀ x ∈ Y, x = 0) → (((X.map Prod.fst).zip Y).filter fun q => decide (q.2 ≠ 0)) = [] := by
    intro X Y hY
    rw [List.filter_eq_nil_iff]
    intro q hq
    simpa using hY q.2 (List.of_mem_zip hq).2
  have hsum : ∀ (X : List (κ × ℝ)) (Y : List ℝ) (f : ℝ → ℝ), (∀ x ∈ Y, x = 0) → (List.zipWith (· * ·) Y (X.map fun p => f p.2)).sum = 0 := by
    intro X Y f hY
    refine List.sum_eq_zero fun x hx => ?_
    rw [← List.map_uncurry_zip_eq_zipWith] at hx
    obtain ⟨q, hq, rfl⟩ := List.mem_map.1 hx
    simp [Function.uncurry, hY q.1 (List.of_mem_zip hq).1]
  generalize w[i] = a at *
  generalize w[i + 1] = b at *
  generalize l[i] = p at *
  generalize l[i + 1] = q at *
  rw [ew, el]
  refine ⟨?_, ?_, fun f => ?_⟩
  · rw [List.map_append, List.zip_append (by simpa using hlen), List.filter_append, hzero A' A hA, List.nil_append, List.map_cons, List.map_cons,
      List.zip_cons_cons, List.zip_cons_cons]
    rw [show (p.1, a) :: (q.1, b) :: (B'.map Prod.fst).zip B = [(p.1, a), (q.1, b)] ++ (B'.map Prod.fst).zip B from rfl, List.filter_append,
      hzero B' B hB, List.append_nil]
  · rw [List.sum_append, List.sum_eq_zero hA, List.sum_cons, List.sum_cons, List.sum_eq_zero hB]
    ring
  · rw [List.map_append, List.zipWith_append (by simpa using hlen.symm), List.sum_append, hsum A' A f hA, List.map_cons, List.map_cons,
      List.zipWith_cons_cons, List.zipWith_cons_cons, List.sum_cons, List.sum_cons, hsum B' B f hB]
    ring

/-- C108: the name of a rating between two neighbouring classes is a combination of their names, with weights that add up to one
and give the value back up to the rounding of the weights. -/
theorem C108_combination (sloppy : Bool) {d : Dict κ ScaleNum} {v : ℝ} (hlo : ∃ p ∈ d, round7 p.2.val < round7 v)
    (hhi : ∃ p ∈ d, round7 v < round7 p.2.val) (hne : ∀ p ∈ d, round7 v ≠ round7 p.2.val) :
    ∃ p ∈ d, ∃ q ∈ d, ∃ a b : ℝ, RatingClass.str sloppy ⟨v, some d⟩ = .ok (.combination ([(a, p.1), (b, q.1)].filter fun x => decide (x.1 ≠ 0))) ∧
      0 ≤ a ∧ 0 ≤ b ∧ a + b = 1 ∧ round7 p.2.val < round7 v ∧ round7 v < round7 q.2.val ∧
      (∀ r ∈ d, round7 r.2.val ≤ round7 p.2.val ∨ round7 q.2.val ≤ round7 r.2.val) ∧
      |a * round7 p.2.val + b * round7 q.2.val - round7 v| ≤ 1 / 20000000 * (round7 q.2.val - round7 p.2.val) := by
  obtain ⟨p₀, hp₀, hp₀v⟩ := hlo
  obtain ⟨q₀, hq₀, hq₀v⟩ := hhi
  have hmem : ∀ x, x ∈ roundedScale (d.map fun q => q.2.val) ↔ ∃ q ∈ d, round7 q.2.val = x := by
    intro x
    rw [roundedScale, (List.perm_insertionSort _ _).mem_iff, List.map_map, List.mem_map]
    rfl
  have hmin : ∃ lo, pyMin (roundedScale (d.map fun q => q.2.val)) = .ok lo ∧ ∀ x ∈ roundedScale (d.map fun q => q.2.val), lo ≤ x := by
    cases e : roundedScale (d.map fun q => q.2.val) with
    | nil => exact absurd ((hmem _).2 ⟨p₀, hp₀, rfl⟩) (by rw [e]; simp)
    | cons x l =>
      refine ⟨_, rfl, ?_⟩
      have : ∀ (l : List ℝ) (x : ℝ), l.foldl min x ≤ x ∧ ∀ y ∈ l, l.foldl min x ≤ y := by
        intro l
        induction l with
        | nil => simp
        | cons z l ih =>
          intro x
          obtain ⟨h1, h2⟩ := ih (min x z)
          refine ⟨h1.trans (min_le_left _ _), fun y hy => ?_⟩
          rcases List.mem_cons.1 hy with rfl | hy
          · exact h1.trans (min_le_right _ _)
          · exact h2 y hy
      intro y hy
      rcases List.mem_cons.1 hy with rfl | hy
      · exact (this l y).1
      · exact (this l x).2 y hy
  have hmax : ∃ hi, pyMax (roundedScale (d.map fun q => q.2.val)) = .ok hi ∧ ∀ x ∈ roundedScale (d.map fun q => q.2.val), x ≤ hi := by
    cases e : roundedScale (d.map fun q => q.2.val) with
    | nil => exact absurd ((hmem _).2 ⟨p₀, hp₀, rfl⟩) (by rw [e]; simp)
    | cons x l =>
      refine ⟨_, rfl, ?_⟩
      have : ∀ (l : List ℝ) (x : ℝ), x ≤ l.foldl max x ∧ ∀ y ∈ l, y ≤ l.foldl max x := by
        intro l
        induction l with
        | nil => simp
        | cons z l ih =>
          intro x
          obtain ⟨h1, h2⟩ := ih (max x z)
          refine ⟨(le_max_left _ _).trans h1, fun y hy => ?_⟩
          rcases List.mem_cons.1 hy with rfl | hy
          · exact (le_max_right _ _).trans h1
          · exact h2 y hy
      intro y hy
      rcases List.mem_cons.1 hy with rfl | hy
      · exact (this l y).1
      · exact (this l x).2 y hy
  obtain ⟨lo, elo, hlo⟩ := hmin
  obtain ⟨hi, ehi, hhi⟩ := hmax
  have h1 : lo < round7 v := (hlo _ ((hmem _).2 ⟨p₀, hp₀, rfl⟩)).trans_lt hp₀v
  have h2 : round7 v < hi := hq₀v.trans_le (hhi _ ((hmem _).2 ⟨q₀, hq₀, rfl⟩))
  obtain ⟨w, hw, hwl, hwp, i, hi1, hi2, hi3, hz, hb⟩ := C09_C10_weights sloppy (d.map fun q => q.2.val) v lo hi elo ehi (h1.trans h2) h1.le h2.le
  have hr := scaleItems_rounded d
  have hlen : (scaleItems d).length = d.length := by simp [scaleItems]
  have hl1 : i + 1 < (scaleItems d).length := by simpa [roundedScale, hlen] using hi1
  have hwl' : w.length = (scaleItems d).length := by rw [hwl, hlen]; simp
  obtain ⟨f1, f2, f3⟩ := filter_two hl1 hwl' hz
  have g1 : (roundedScale (d.map fun q => q.2.val))[i] = round7 (scaleItems d)[i].2 := by simp only [← hr, List.getElem_map]
  have g2 : (roundedScale (d.map fun q => q.2.val))[i + 1] = round7 (scaleItems d)[i + 1].2 := by simp only [← hr, List.getElem_map]
  obtain ⟨x, hx, ex⟩ := mem_scaleItems.1 (List.getElem_mem (l := scaleItems d) (n := i) (by omega))
  obtain ⟨y, hy, ey⟩ := mem_scaleItems.1 (List.getElem_mem (l := scaleItems d) (n := i + 1) hl1)
  rw [g1, ← ex] at hi2
  rw [g2, ← ey] at hi3
  refine ⟨_, hx, _, hy, w[i], w[i + 1], ?_, (hwp.1 _ (List.getElem_mem _)).1, (hwp.1 _ (List.getElem_mem _)).1, ?_, ?_, ?_, ?_, ?_⟩
  · obtain ⟨p', d', rfl⟩ : ∃ q d', d = q :: d' := List.exists_cons_of_ne_nil (List.ne_nil_of_mem hp₀)
    simp only [RatingClass.str]
    rw [List.find?_eq_none.2 (by simpa using hne)]
    simp only [RatingClass.vector]
    rw [hw, Py.ok_bind, scaleKeys, f1]
    congr 2
    by_cases ha : w[i] = 0 <;> by_cases hb : w[i + 1] = 0 <;> simp [ha, hb]
  · rw [← f2, hwp.2]
  · exact lt_of_le_of_ne hi2 (hne _ hx).symm
  · exact lt_of_le_of_ne hi3 (hne _ hy)
  · intro r hr'
    have hs : (roundedScale (d.map fun q => q.2.val)).Pairwise (· ≤ ·) := List.pairwise_insertionSort _ _
    obtain ⟨j, hj, ej⟩ := List.getElem_of_mem ((hmem _).2 ⟨r, hr', rfl⟩)
    rw [← ej, ex, ey, ← g1, ← g2]
    rcases Nat.lt_or_ge i j with h | h
    · right
      rcases Nat.eq_or_lt_of_le (show i + 1 ≤ j from h) with h | h
      · simp [h]
      · exact List.pairwise_iff_getElem.1 hs _ _ _ _ h
    · left
      rcases Nat.eq_or_lt_of_le h with h | h
      · simp [h]
      · exact List.pairwise_iff_getElem.1 hs _ _ _ _ h
  · rw [g1, g2] at hb
    rw [← hr, f3 round7] at hb
    simp only [ex, ey]
    exact hb

/-- C108 (what goes wrong): a class with a whole number as value, such as `{'A': 0.1, 'D': 1}`, cannot be given by name. -/
theorem C108_whole_violated {d : Dict κ ScaleNum} (hd : (d.map Prod.fst).Nodup) {k : κ} {n : ℤ} (hk : (k, .int n) ∈ d) :
    RatingClass.new (.key k) (.scale d) = .error .type ∧ scaleGet d k = .error .type := by
  have hg := mem_get hd hk
  have hnew : RatingClass.new (.num (.int n)) (.scale d) = (.error .type : Py (RatingClass κ)) := by
    cases d <;> simp [RatingClass.new]
  exact ⟨by rw [new_key hg, hnew], by simp [scaleGet, hg, hnew]⟩

end

/-- The scale built from names. -/
noncomputable def namesScale {κ : Type} (l : List κ) : Dict κ ScaleNum :=
  l.zip ((List.range l.length).map fun i : ℕ => .float ((10 : ℝ) ^ ((i : ℤ) - ((l.length : ℤ) - 1))))

section
variable {κ : Type} [DecidableEq κ]

theorem namesScale_length (l : List κ) : (namesScale l).length = l.length := by simp [namesScale]

theorem namesScale_get (l : List κ) {i : ℕ} (hi : i < (namesScale l).length) :
    (namesScale l)[i] = (l[i]'(by simpa [namesScale] using hi), .float ((10 : ℝ) ^ ((i : ℤ) - ((l.length : ℤ) - 1)))) := by
  simp [namesScale]

theorem namesScale_keys (l : List κ) : (namesScale l).map Prod.fst = l := by
  rw [namesScale, List.map_fst_zip]
  simp

theorem new_names (a : RatingArg κ) {l : List κ} (hl : l.Nodup) (h2 : 2 ≤ l.length) :
    RatingClass.new a (.names l) = RatingClass.new a (.scale (namesScale l)) := by
  obtain ⟨v, hv, hlen, hg⟩ := C08_default l.length h2
  have : Dict.ofPairs (l.zip (v.map .float)) = namesScale l := by
    rw [Dict.ofPairs_nodup (by rw [List.map_fst_zip (by simp [hlen])]; exact hl), namesScale]
    congr 1
    apply List.ext_getElem
    · simp [hlen]
    · intro i h1 h2
      simp [hg]
  simp only [RatingClass.new, hv, Py.ok_bind, this]

theorem round7_pow {j : ℕ} (hj : j ≤ 7) : round7 ((10 : ℝ) ^ (-(j : ℤ))) = (10 : ℝ) ^ (-(j : ℤ)) := by
  have : (10 : ℝ) ^ (-(j : ℤ)) * 10000000 = ((10 ^ (7 - j) : ℤ) : ℝ) := by
    rw [zpow_neg, zpow_natCast]
    have h : (10000000 : ℝ) = 10 ^ j * 10 ^ (7 - j) := by rw [← pow_add, Nat.add_sub_cancel' hj]; norm_num
    rw [h, inv_mul_cancel_left₀ (by positivity)]
    push_cast
    rfl
  rw [round7, this, roundHalfEven_intCast, ← this]
  field_simp

/-- Values up to 5e-8 round to zero. -/
theorem round7_small {x : ℝ} (h0 : 0 ≤ x) (h : x < 1 / 20000000) : round7 x = 0 := by
  have hf : ⌊x * 10000000⌋ = 0 := by rw [Int.floor_eq_iff]; constructor <;> push_cast <;> linarith
  have hr : Int.fract (x * 10000000) < 1 / 2 := by rw [Int.fract, hf]; push_cast; linarith
  rw [round7, roundHalfEven, if_pos hr, hf]
  simp

theorem namesScale_distinct {l : List κ} (hl : l.Nodup) (h9 : l.length ≤ 9) : DistinctClasses (namesScale l) := by
  refine ⟨by rw [namesScale_keys]; exact hl, ?_⟩
  rw [List.nodup_iff_pairwise_ne, List.pairwise_iff_getElem]
  intro i j hi hj hij
  simp only [List.length_map, namesScale_length] at hi hj
  simp only [List.getElem_map, namesScale_get, ScaleNum.val]
  obtain ⟨a, ha⟩ : ∃ a : ℕ, (j : ℤ) - ((l.length : ℤ) - 1) = -(a : ℤ) := ⟨l.length - 1 - j, by omega⟩
  obtain ⟨b, hb⟩ : ∃ b : ℕ, (i : ℤ) - ((l.length : ℤ) - 1) = -(a : ℤ) - 1 - (b : ℤ) := ⟨j - i - 1, by omega⟩
  have ha7 : a ≤ 7 := by omega
  rw [ha, round7_pow ha7]
  apply ne_of_lt
  set y := (10 : ℝ) ^ (-(a : ℤ)) with hy
  have hy7 : 1 / 10000000 ≤ y := by
    have : (10 : ℝ) ^ (-(7 : ℤ)) ≤ y := zpow_le_zpow_right₀ (by norm_num) (by omega)
    norm_num at this ⊢
    exact this
  have hx : (10 : ℝ) ^ ((i : ℤ) - ((l.length : ℤ) - 1)) ≤ y / 10 := by
    rw [hb]
    calc (10 : ℝ) ^ (-(a : ℤ) - 1 - (b : ℤ)) ≤ (10 : ℝ) ^ (-(a : ℤ) - 1) := zpow_le_zpow_right₀ (by norm_num) (by omega)
      _ = y / 10 := by rw [zpow_sub₀ (by norm_num), zpow_one]
  have := abs_le.1 (abs_round7_sub ((10 : ℝ) ^ ((i : ℤ) - ((l.length : ℤ) - 1))))
  linarith [this.2]

/-- C108: up to nine names make a scale whose classes are told apart. -/
theorem C108_names (sloppy : Bool) {l : List κ} (hl : l.Nodup) (h2 : 2 ≤ l.length) (h9 : l.length ≤ 9) {k : κ} (hk : k ∈ l) :
    ∃ r, RatingClass.new (.key k) (.names l) = .ok r ∧ r.str sloppy = .ok (.base k) ∧
      ∃ ks : List κ, ks.Perm l ∧ r.vector sloppy = .ok (ks.map fun j => if j = k then 1 else 0) := by
  obtain ⟨i, hi, rfl⟩ := List.getElem_of_mem hk
  have hmem : (l[i], .float ((10 : ℝ) ^ ((i : ℤ) - ((l.length : ℤ) - 1)))) ∈ namesScale l := by
    rw [← namesScale_get l (i := i) (by rw [namesScale_length]; exact hi)]
    exact List.getElem_mem _
  obtain ⟨h1, h2', h3, h4⟩ := C108_partial sloppy (namesScale_distinct hl h9) hmem
  refine ⟨_, by rw [new_names _ hl h2, h1], h2', scaleKeys (namesScale l), ?_, h4 (by rw [namesScale_length]; exact h2)⟩
  have := (scaleItems_perm (namesScale l)).map Prod.fst
  rw [List.map_map] at this
  exact this.trans (by rw [show (Prod.fst ∘ fun p : κ × ScaleNum => (p.1, p.2.val)) = Prod.fst from rfl, namesScale_keys])

/-- C108 (what goes wrong): with ten names and more the second best rating shows as the best one.  `MASTER_SCALE` has ten
names, `LONG_MASTER_SCALE` has 28. -/
theorem C108_names_violated (sloppy : Bool) {l : List κ} (hl : l.Nodup) (h10 : 10 ≤ l.length) :
    ∃ r, RatingClass.new (.key l[1]) (.names l) = .ok r ∧ r.str sloppy = .ok (.base l[0]) ∧ l[0] ≠ l[1] := by
  have hmem : (l[1], .float ((10 : ℝ) ^ (((1 : ℕ) : ℤ) - ((l.length : ℤ) - 1)))) ∈ namesScale l := by
    rw [← namesScale_get l (i := 1) (by rw [namesScale_length]; omega)]
    exact List.getElem_mem _
  have hsmall : ∀ i : ℕ, i ≤ 1 → round7 ((10 : ℝ) ^ ((i : ℤ) - ((l.length : ℤ) - 1))) = 0 := by
    intro i hi
    refine round7_small (by positivity) ?_
    calc (10 : ℝ) ^ ((i : ℤ) - ((l.length : ℤ) - 1)) ≤ (10 : ℝ) ^ (-(8 : ℤ)) := zpow_le_zpow_right₀ (by norm_num) (by omega)
      _ < 1 / 20000000 := by norm_num
  have hg := mem_get (by rw [namesScale_keys]; exact hl) hmem
  have hnew : ∀ x, RatingClass.new (.num (.float x)) (.scale (namesScale l)) = .ok ⟨x, some (namesScale l)⟩ := by
    intro x
    cases namesScale l <;> simp [RatingClass.new]
  refine ⟨_, by rw [new_names _ hl (by omega), new_key hg, hnew], ?_, fun e => ?_⟩
  · have hlen := namesScale_length l
    have h0 : 0 < (namesScale l).length := by omega
    have := str_base sloppy (d := namesScale l) (v := (10 : ℝ) ^ (((1 : ℕ) : ℤ) - ((l.length : ℤ) - 1))) (a := [])
      (p := (namesScale l)[0]) (b := (namesScale l).tail)
      (by rw [List.nil_append, ← List.head_eq_getElem (List.length_pos_iff.1 h0), List.cons_head_tail]) (by
        rw [namesScale_get, hsmall 1 le_rfl, ScaleNum.val, hsmall 0 (by omega)]) (by simp)
    rw [this, namesScale_get]
  · exact absurd ((hl.getElem_inj_iff).1 e) (by omega)

/-- C108: without a scale, or with an empty one, a rating is its number: it has no weights, shows the number, and names are refused. -/
theorem C108_plain (sloppy : Bool) {s : ScaleArg κ} (hs : s = .none ∨ s = .scale []) :
    (∀ x : ℝ, ∃ r, RatingClass.new (.num (.float x)) s = .ok r ∧ r.value = x ∧ r.vector sloppy = .ok [] ∧ r.str sloppy = .ok (.plain x)) ∧
      ∀ k, RatingClass.new (.key k) s = .error .type := by
  rcases hs with rfl | rfl <;> exact ⟨fun x => ⟨_, rfl, rfl, rfl, rfl⟩, fun k => rfl⟩

/-- C108: for every scale built from the package's names by default: the claim fails from ten names on. -/
theorem C108_violated : ∃ l : List ℕ, l.Nodup ∧ ∃ k ∈ l, ∃ r, RatingClass.new (.key k) (.names l) = .ok r ∧
    r.str false ≠ .ok (.base k) := by
  obtain ⟨r, h1, h2, h3⟩ := C108_names_violated false (l := List.range 10) List.nodup_range (by simp)
  refine ⟨List.range 10, List.nodup_range, _, List.getElem_mem _, r, h1, fun e => ?_⟩
  rw [h2] at e
  injection e with e
  injection e with e
  exact h3 e

example : DistinctClasses [("A", .float (1 / 10)), ("D", .int 1)] := by
  refine ⟨by decide, ?_⟩
  have h1 := round7_pow (j := 1) (by norm_num)
  norm_num at h1
  simp only [List.map_cons, List.map_nil, ScaleNum.val, Int.cast_one, round7_one]
  rw [show (1 / 10 : ℝ) = 10⁻¹ by norm_num]
  norm_num [h1]

example (d : Dict String ScaleNum) (hd : d = [("A", .float (10 ^ (-(2 : ℕ) : ℤ))), ("D", .int 1)]) (v : ℝ) (hv : v = 10 ^ (-(1 : ℕ) : ℤ)) :
    (∃ p ∈ d, round7 p.2.val < round7 v) ∧ (∃ p ∈ d, round7 v < round7 p.2.val) ∧ ∀ p ∈ d, round7 v ≠ round7 p.2.val := by
  subst hd hv
  have h1 := round7_pow (j := 1) (by norm_num)
  have h2 := round7_pow (j := 2) (by norm_num)
  simp only [List.mem_cons, List.not_mem_nil, or_false, exists_eq_or_imp, exists_eq_left, forall_eq_or_imp, forall_eq, ScaleNum.val,
    Int.cast_one, round7_one, h1, h2]
  norm_num

example : (["A", "B", "C", "D"] : List String).Nodup ∧ 2 ≤ (["A", "B", "C", "D"] : List String).length ∧
    (["A", "B", "C", "D"] : List String).length ≤ 9 := by decide

example : (["AAA", "AA", "A", "BBB", "BB", "B", "CCC", "CC", "C", "D"] : List String).Nodup := by decide

end

/-! ## C109: sloppy ratings -/

section
variable {K : Type} [Field K] [LinearOrder K] [IsStrictOrderedRing K] [FloorRing K]

theorem single_weight (n j : ℕ) (hj : j < n) (a : K) (vals : List K) (hv : vals.length = n) :
    (List.zipWith (· * ·) ((List.range n).map fun i => if i = j then a else 0) vals).sum = a * vals[j] := by
  have : List.zipWith (· * ·) ((List.range n).map fun i => if i = j then a else 0) vals =
      (List.range n).map fun i => if i = j then a * vals[j] else 0 := by
    apply List.ext_getElem
    · simp [hv]
    · intro i h1 h2
      simp only [List.getElem_zipWith, List.getElem_map, List.getElem_range]
      by_cases h : i = j
      · subst h; simp
      · simp [h]
  rw [this, Rating.sum_map_range]
  simp [Finset.sum_ite_eq', hj]

theorem pyMap_weights (l : List K) (j : ℕ) (x : K) (hj : j < l.length) (h0 : l[j] ≠ 0) :
    pyMap (fun p : K × ℕ => if p.2 = j then do let q ← pyDiv x p.1; .ok (round7 q) else .ok 0) l.zipIdx =
      .ok ((List.range l.length).map fun i => if i = j then round7 (x / l[j]) else 0) := by
  rw [pyMap_ok (g := fun p => if p.2 = j then round7 (x / l[j]) else 0)]
  · congr 1
    apply List.ext_getElem
    · simp
    · intro i h1 h2; simp
  · intro p hp
    obtain ⟨i, hi, rfl⟩ := List.getElem_of_mem hp
    simp only [List.getElem_zipIdx, zero_add]
    by_cases h : i = j
    · subst h; simp [pyDiv_ok h0]
    · simp [h]

theorem weight_error (x y : K) (hy : y ≠ 0) : |round7 (x / y) * y - x| ≤ 1 / 20000000 * |y| := by
  have : round7 (x / y) * y - x = (round7 (x / y) - x / y) * y := by field_simp
  rw [this, abs_mul]
  exact mul_le_mul_of_nonneg_right (abs_round7_sub _) (abs_nonneg y)

/-- C109: with `SLOPPY` a value below the scale has its ratio to the best class as only weight, which reproduces the value
up to half a unit of the seventh digit times the value of that class. -/
theorem C109_below (scale : List K) (v lo hi : K) (hlo : pyMin (roundedScale scale) = .ok lo)
    (hhi : pyMax (roundedScale scale) = .ok hi) (h : round7 v < lo) (h0 : lo ≠ 0) :
    vector true scale v = .ok ((List.range scale.length).map fun i => if i = 0 then round7 (round7 v / lo) else 0) ∧
      |(List.zipWith (· * ·) ((List.range scale.length).map fun i => if i = 0 then round7 (round7 v / lo) else 0)
        (roundedScale scale)).sum - round7 v| ≤ 1 / 20000000 * |lo| := by
  have hs : (roundedScale scale).Pairwise (· ≤ ·) := List.pairwise_insertionSort _ _
  have hlen : (roundedScale scale).length = scale.length := by simp [roundedScale]
  have hnil : roundedScale scale ≠ [] := by rintro e; rw [e] at hlo; simp [pyMin] at hlo
  have hpos := List.length_pos_iff.2 hnil
  have h0' : (roundedScale scale)[0] = lo := by
    rw [pyMin_sorted hnil hs] at hlo; injection hlo with e; rw [← e, List.head_eq_getElem]
  constructor
  · unfold vector vectorWith
    simp only [scaleValues_round, hlo, hhi, Py.ok_bind]
    rw [if_neg (by simp), if_pos h, pyMap_weights _ 0 _ hpos (by rw [h0']; exact h0), hlen, h0']
  · rw [single_weight _ 0 (by omega) _ _ hlen, h0']
    exact weight_error _ _ h0

/-- C109: a value above the scale has its ratio to the worst class as only weight. -/
theorem C109_above (scale : List K) (v lo hi : K) (hlo : pyMin (roundedScale scale) = .ok lo)
    (hhi : pyMax (roundedScale scale) = .ok hi) (h : hi < round7 v) (h0 : hi ≠ 0) :
    vector true scale v = .ok ((List.range scale.length).map fun i => if i = scale.length - 1 then round7 (round7 v / hi) else 0) ∧
      |(List.zipWith (· * ·) ((List.range scale.length).map fun i => if i = scale.length - 1 then round7 (round7 v / hi) else 0)
        (roundedScale scale)).sum - round7 v| ≤ 1 / 20000000 * |hi| := by
  have hs : (roundedScale scale).Pairwise (· ≤ ·) := List.pairwise_insertionSort _ _
  have hlen : (roundedScale scale).length = scale.length := by simp [roundedScale]
  have hnil : roundedScale scale ≠ [] := by rintro e; rw [e] at hlo; simp [pyMin] at hlo
  have hpos := List.length_pos_iff.2 hnil
  have h0' : (roundedScale scale)[scale.length - 1]'(by omega) = hi := by
    rw [pyMax_sorted hnil hs] at hhi
    injection hhi with e
    rw [← e, List.getLast_eq_getElem]
    simp [hlen]
  have h1 : lo ≤ hi := by
    rw [pyMin_sorted hnil hs] at hlo
    injection hlo with e
    rw [← e, ← h0', List.head_eq_getElem]
    rcases Nat.eq_zero_or_pos (scale.length - 1) with h | h
    · simp [h]
    · exact List.pairwise_iff_getElem.1 hs _ _ _ _ h
  constructor
  · unfold vector vectorWith
    simp only [scaleValues_round, hlo, hhi, Py.ok_bind]
    rw [if_neg (by simp), if_neg (by linarith), if_pos h, hlen, pyMap_weights _ _ _ (by omega) (by rw [h0']; exact h0), h0', hlen]
  · rw [single_weight _ _ (by omega) _ _ hlen, h0']
    exact weight_error _ _ h0

/-- C109 (what goes wrong): below a scale whose best class rounds to zero, as those of ten default names do, the
weights raise `ZeroDivisionError`. -/
theorem C109_zero_violated (scale : List K) (v hi : K) (hlo : pyMin (roundedScale scale) = .ok 0)
    (hhi : pyMax (roundedScale scale) = .ok hi) (h : round7 v < 0) : vector true scale v = .error .zeroDivision := by
  have hs : (roundedScale scale).Pairwise (· ≤ ·) := List.pairwise_insertionSort _ _
  have hnil : roundedScale scale ≠ [] := by rintro e; rw [e] at hlo; simp [pyMin] at hlo
  unfold vector vectorWith
  simp only [scaleValues_round, hlo, hhi, Py.ok_bind]
  rw [if_neg (by simp), if_pos h]
  obtain ⟨x, l, e⟩ := List.exists_cons_of_ne_nil hnil
  have hx : x = 0 := by
    rw [pyMin_sorted hnil hs] at hlo; injection hlo with e'; rw [← e']; simp [e]
  rw [e, hx]
  simp [pyMap_cons]

example : pyMin (roundedScale ([1 / 2, 1, 1 / 10] : List ℚ)) = .ok (1 / 10) ∧ round7 (1 / 20 : ℚ) < 1 / 10 ∧
    vector true ([1 / 2, 1, 1 / 10] : List ℚ) (1 / 20) = .ok [1 / 2, 0, 0] ∧
    vector true ([1 / 2, 1, 1 / 10] : List ℚ) 2 = .ok [0, 0, 2] := by decide +kernel

end

end Dcf.Rating
