import Mathlib.Analysis.Complex.ExponentialBounds
import Verif.Props.CreditShift
import Verif.Props.RateArith

/-! # Arithmetic of credit curves: C137 -/

set_option linter.unusedSectionVars false
set_option linter.unusedSimpArgs false
set_option linter.unusedVariables false

namespace Dcf

open Spec

/-- Classes that store what they quote. -/
def CRClass.plain (cls : CRClass) : Prop := cls = .survival ∨ cls = .default ∨ cls = .flat ∨ cls = .hazard

/-- What the constructor stores for a given value. -/
noncomputable def storeCredit (cls : CRClass) (y : ℝ) : ℝ := if cls.isProb then storedProb cls y else y

section
variable {D P : Type} [LinearOrder D] {cal : Cal D P}

theorem storage_plain {c : CRCurve D P} (hc : c.cls.plain) (ho : c.base.origin.isSome) (limit : ℕ) (same : D → Bool) (x : D) :
    c.cls.storage cal (limit + 1) same c x = c.call cal x := by
  rcases hc with hc | hc | hc | hc
  · exact storage_eq_call (.inl hc) ho _ _ _
  · exact storage_eq_call (.inr (.inl hc)) ho _ _ _
  · exact storage_eq_call (.inr (.inr hc)) ho _ _ _
  · simp [hc, CRClass.storage, CRCurve.hazardRate]

theorem plain_log {cls : CRClass} (hc : cls.plain) (h : (Option.getD none cls.dflt).isLog) : cls.isProb := by
  rcases hc with rfl | rfl | rfl | rfl
  · rfl
  · rfl
  · simp [CRClass.dflt, linearScheme, FuncSpec.isLog, Kind.isLog] at h
  · simp [CRClass.dflt, FuncSpec.isLog, Kind.isLog] at h

theorem plain_nonzero {cls : CRClass} (hc : cls.plain) (h : (Option.getD none cls.dflt).needsNonzero) : cls.isProb := by
  rcases hc with rfl | rfl | rfl | rfl
  · rfl
  · rfl
  · simp [CRClass.dflt, linearScheme, FuncSpec.needsNonzero, Kind.isRate] at h
  · simp [CRClass.dflt, FuncSpec.needsNonzero, Kind.isRate] at h

theorem log_prob {cls : CRClass} (h : (Option.getD none cls.dflt).isLog) : cls.isProb := by
  cases cls <;> simp [CRClass.dflt, linearScheme, FuncSpec.isLog, Kind.isLog, CRClass.isProb] at h ⊢

/-- Curves of a class with a given tenor store what they quote, as long as probabilities are `ok`. -/
structure OwnStorage (cal : Cal D P) (cls : CRClass) (ok : ℝ → Prop) (t : Option P) : Prop where
  pos : ∀ y, ok y → 0 < y
  storage : ∀ {pts : List (D × ℝ)} {o : D} {o? : Option D}, o?.or (pts.map Prod.fst).head? = some o → ∀ (limit : ℕ) (same : D → Bool) (x : D) (y : ℝ),
    (crOf cal o o? .default none cls t pts).call cal x = .ok y → (cls.isProb → ok y) →
      cls.storage cal (limit + 1) same (crOf cal o o? .default none cls t pts) x = .ok y

theorem plain_own {cls : CRClass} (hc : cls.plain) (t : Option P) : OwnStorage cal cls (fun y => 0 < y) t :=
  ⟨fun _ h => h, fun {pts o o?} ho limit same x y h _ => by
    rw [← h]
    exact storage_plain (c := crOf cal o o? .default none cls t pts) hc (by rw [show (crOf cal o o? .default none cls t pts).base.origin = some o from ho]; rfl) limit same x⟩

/-- Casting a curve to its own class on a given grid. -/
theorem own_castOn (hτ : GoodDayCount cal.dayCount) {cls : CRClass} {ok : ℝ → Prop} {pts : List (D × ℝ)} {o o' : D}
    {o? org : Option D} (ho : o?.or (pts.map Prod.fst).head? = some o) {t t' : Option P} (hc : OwnStorage cal cls ok t) {ys : List D} {w : D → ℝ}
    (hw : ∀ y ∈ ys, (crOf cal o o? .default none cls t pts).call cal y = .ok (w y)) (hpos : cls.isProb → ∀ y ∈ ys, ok (w y))
    (hy : ys.Nodup) (ho' : (cal.or org o?).or ys.head? = some o') (limit : ℕ) (same : D → Bool) :
    (crOf cal o o? .default none cls t pts).castOn cal cls (limit + 1) same ys none org .default t' =
      .ok (crOf cal o' (cal.or org o?) .default none cls t' (ys.map fun x => (x, w x))) := by
  have hdata : pyMap (cls.storage cal (limit + 1) same (crOf cal o o? .default none cls t pts)) ys = .ok (ys.map w) :=
    pyMap_ok fun y hy => hc.storage ho limit same y _ (hw y hy) fun h => hpos h y hy
  simp only [CRCurve.castOn, hdata, Py.ok_bind]
  have hfst : (ys.map fun x => (x, w x)).map Prod.fst = ys := graph_fst _ _
  have := CRCurve_make_eq cal (pts := ys.map fun x => (x, w x)) (cls := cls) (i := none) (o? := cal.or org o?)
    (dc := .default) (tenor := t') (o := o') (by rw [hfst]; exact hy) (fun h p hp => by
      obtain ⟨y, hy, rfl⟩ := List.mem_map.1 hp
      exact hc.pos _ (hpos (log_prob h) y hy)) (by rw [hfst]; exact ho') trivial hτ
  rw [hfst, graph_snd] at this
  exact this

theorem credit_castOn_own (hτ : GoodDayCount cal.dayCount) {cls : CRClass} (hc : cls.plain) {pts : List (D × ℝ)} {o o' : D}
    {o? org : Option D} (ho : o?.or (pts.map Prod.fst).head? = some o) {t t' : Option P} {ys : List D} {w : D → ℝ}
    (hw : ∀ y ∈ ys, (crOf cal o o? .default none cls t pts).call cal y = .ok (w y)) (hpos : cls.isProb → ∀ y ∈ ys, 0 < w y)
    (hy : ys.Nodup) (ho' : (cal.or org o?).or ys.head? = some o') (limit : ℕ) (same : D → Bool) :
    (crOf cal o o? .default none cls t pts).castOn cal cls (limit + 1) same ys none org .default t' =
      .ok (crOf cal o' (cal.or org o?) .default none cls t' (ys.map fun x => (x, w x))) :=
  own_castOn hτ ho (plain_own hc t) hw hpos hy ho' limit same

theorem head_of_min {l : List D} (hs : l.Pairwise (· < ·)) {o : D} (hm : o ∈ l) (hl : ∀ d ∈ l, o ≤ d) : l.head? = some o := by
  cases l with
  | nil => cases hm
  | cons a l =>
    rw [List.pairwise_cons] at hs
    rcases List.mem_cons.1 hm with e | e
    · simp [e]
    · exact absurd (hl a (by simp)) (hs.1 o e).not_ge

theorem head_min {l : List D} (hs : l.Pairwise (· < ·)) {o : D} (hm : l.head? = some o) : o ∈ l ∧ ∀ d ∈ l, o ≤ d := by
  cases l with
  | nil => cases hm
  | cons a l =>
    obtain rfl : a = o := by simpa using hm
    refine ⟨by simp, fun x hx => ?_⟩
    rcases List.mem_cons.1 hx with rfl | hx
    · exact le_rfl
    · exact ((List.pairwise_cons.1 hs).1 x hx).le

theorem exists_max {l : List D} (h : l ≠ []) : ∃ m ∈ l, ∀ x ∈ l, x ≤ m := by
  obtain ⟨m, hm⟩ := Option.isSome_iff_exists.1 (List.isSome_max?_of_ne_nil h)
  exact ⟨m, (List.max?_eq_some_iff.1 hm).1, (List.max?_eq_some_iff.1 hm).2⟩

/-- Dates can be moved on by a day and by a year. -/
structure MovesOn (cal : Cal D P) : Prop where
  day : ∀ x, ∃ y, cal.add x cal.oneDay = .ok y ∧ x < y
  year : ∀ x, ∃ y, cal.add x cal.oneYear = .ok y ∧ x < y

/-- The dates of a curve cast to a class: a year after the last date is added, for probabilities also the day after the origin. -/
def CastDate (cal : Cal D P) (cls : CRClass) (o : D) (l : List D) (x : D) : Prop :=
  x ∈ l ∨ (cls.isProb = true ∧ cal.add o cal.oneDay = .ok x) ∨ ∃ m ∈ l, (∀ y ∈ l, y ≤ m) ∧ cal.add m cal.oneYear = .ok x

/-- Added dates are after given ones. -/
theorem CastDate.after (hm : MovesOn cal) {cls : CRClass} {o : D} {l : List D} (ho : cls.isProb = true → o ∈ l) {x : D}
    (h : CastDate cal cls o l x) : x ∈ l ∨ ∃ y ∈ l, y < x := by
  rcases h with h | ⟨hp, h⟩ | ⟨n, hn, -, h⟩
  · exact .inl h
  · obtain ⟨y, hy, hlt⟩ := hm.day o
    rw [h] at hy; cases hy; exact .inr ⟨o, ho hp, hlt⟩
  · obtain ⟨y, hy, hlt⟩ := hm.year n
    rw [h] at hy; cases hy; exact .inr ⟨n, hn, hlt⟩

/-- Casting a curve to its own class. -/
theorem own_cast (hτ : GoodDayCount cal.dayCount) (hm : MovesOn cal) {cls : CRClass} {ok : ℝ → Prop} {pts : List (D × ℝ)}
    {o : D} {o? : Option D} (hne : pts ≠ []) (ho : o?.or (pts.map Prod.fst).head? = some o)
    (hfirst : o? = some o ∨ (o ∈ pts.map Prod.fst ∧ ∀ x ∈ pts.map Prod.fst, o ≤ x)) {t t' : Option P} (hc : OwnStorage cal cls ok t) {w : D → ℝ}
    (hw : ∀ y, (crOf cal o o? .default none cls t pts).call cal y = .ok (w y)) (hpos : cls.isProb → ∀ y, ok (w y))
    (limit : ℕ) (same : D → Bool) :
    ∃ (ys : List D) (o?' : Option D), (crOf cal o o? .default none cls t pts).cast cal cls (limit + 1) same none none .default t' =
        .ok (crOf cal o o?' .default none cls t' (ys.map fun x => (x, w x))) ∧ ys.Pairwise (· < ·) ∧
      (∀ x, x ∈ ys ↔ CastDate cal cls o (pts.map Prod.fst) x) ∧ o?'.or ys.head? = some o := by
  have hne' : pts.map Prod.fst ≠ [] := by simpa using hne
  obtain ⟨m, hml, hmax⟩ := exists_max hne'
  obtain ⟨a, ha, hoa⟩ := hm.day o
  obtain ⟨b, hb, hmb⟩ := hm.year m
  have hdom : (crOf cal o o? .default none cls t pts).base.domain = pts.map Prod.fst := rfl
  have horg : (crOf cal o o? .default none cls t pts).base.origin = some o := ho
  have hmem : ∀ x, (∃ m ∈ pts.map Prod.fst, (∀ y ∈ pts.map Prod.fst, y ≤ m) ∧ cal.add m cal.oneYear = .ok x) ↔ x = b := fun x =>
    ⟨fun ⟨n, hn, hnm, hx⟩ => by rw [le_antisymm (hmax n hn) (hnm m hml), hb] at hx; exact (Except.ok.inj hx).symm,
     fun h => ⟨m, hml, hmax, h ▸ hb⟩⟩
  have hhead : ∀ ys : List D, ys.Pairwise (· < ·) → (∀ x ∈ ys, x ∈ pts.map Prod.fst ∨ x = a ∨ x = b) → (∀ x ∈ pts.map Prod.fst, x ∈ ys) →
      o?.or ys.head? = some o := by
    intro ys hs h1 h2
    cases hq : o? with
    | some q => rw [hq] at ho; simpa using ho
    | none =>
      rcases hfirst with h | ⟨h, h'⟩
      · rw [hq] at h; cases h
      · rw [Option.none_or]
        refine head_of_min hs (h2 o h) fun d hd => ?_
        rcases h1 d hd with e | rfl | rfl
        · exact h' d e
        · exact hoa.le
        · exact (h' m hml).trans hmb.le
  cases hp : cls.isProb with
  | true =>
    set ys := sortedSet (pts.map Prod.fst ++ [a, b]) with hys
    have hs : ys.Pairwise (· < ·) := sortedSet_strict _
    have hmy : ∀ x, x ∈ ys ↔ x ∈ pts.map Prod.fst ∨ x = a ∨ x = b := fun x => by
      rw [hys, sortedSet_mem, List.mem_append]; simp
    have hh : (cal.or (some o) o?).or ys.head? = some o := by
      simp only [Cal.or]
      split_ifs
      · exact hhead ys hs (fun x hx => (hmy x).1 hx) fun x hx => (hmy x).2 (.inl hx)
      · rfl
    refine ⟨ys, cal.or (some o) o?, ?_, hs, fun x => ?_, hh⟩
    · simp only [CRCurve.cast, hp, if_true, horg, Option.none_or, pyDate, Py.ok_bind, ha, hdom, maxDate_eq hml hmax, hb]
      exact own_castOn hτ ho hc (fun y _ => hw y) (fun h y _ => hpos h y) (hs.imp fun h => h.ne) hh limit same
    · rw [hmy, CastDate, hmem, ha]
      simp [hp, eq_comm]
  | false =>
    set ys := sortedSet (pts.map Prod.fst ++ [b]) with hys
    have hs : ys.Pairwise (· < ·) := sortedSet_strict _
    have hmy : ∀ x, x ∈ ys ↔ x ∈ pts.map Prod.fst ∨ x = b := fun x => by
      rw [hys, sortedSet_mem, List.mem_append]; simp
    have hh : (cal.or none o?).or ys.head? = some o :=
      hhead ys hs (fun x hx => ((hmy x).1 hx).imp id .inr) fun x hx => (hmy x).2 (.inl hx)
    refine ⟨ys, cal.or none o?, ?_, hs, fun x => ?_, hh⟩
    · simp only [CRCurve.cast, hp, Bool.false_eq_true, if_false, hdom, maxDate_eq hml hmax, Py.ok_bind, hb]
      exact own_castOn hτ ho hc (fun y _ => hw y) (fun h y _ => hpos h y) (hs.imp fun h => h.ne) hh limit same
    · rw [hmy, CastDate, hmem]
      simp [hp]

theorem credit_cast_own (hτ : GoodDayCount cal.dayCount) (hm : MovesOn cal) {cls : CRClass} (hc : cls.plain) {pts : List (D × ℝ)}
    {o : D} {o? : Option D} (hne : pts ≠ []) (ho : o?.or (pts.map Prod.fst).head? = some o)
    (hfirst : o? = some o ∨ (o ∈ pts.map Prod.fst ∧ ∀ x ∈ pts.map Prod.fst, o ≤ x)) {t t' : Option P} {w : D → ℝ}
    (hw : ∀ y, (crOf cal o o? .default none cls t pts).call cal y = .ok (w y)) (hpos : cls.isProb → ∀ y, 0 < w y)
    (limit : ℕ) (same : D → Bool) :
    ∃ (ys : List D) (o?' : Option D), (crOf cal o o? .default none cls t pts).cast cal cls (limit + 1) same none none .default t' =
        .ok (crOf cal o o?' .default none cls t' (ys.map fun x => (x, w x))) ∧ ys.Pairwise (· < ·) ∧
      (∀ x, x ∈ ys ↔ CastDate cal cls o (pts.map Prod.fst) x) ∧ o?'.or ys.head? = some o :=
  own_cast hτ hm hne ho hfirst (plain_own hc t) hw hpos limit same

end

section
variable {D P : Type} [LinearOrder D] [AddCommGroup D] {cal : Cal D P}

/-- What arithmetic gives once the second operand is there. -/
theorem own_binop_tail (hτ : GoodDayCount cal.dayCount) (hm : MovesOn cal) {cls : CRClass} {ok : ℝ → Prop} (hc : OwnStorage cal cls ok (none : Option P)) {A : List (D × ℝ)}
    (hA0 : A ≠ []) {o : D} {oa : Option D}
    (hoa : oa.or (A.map Prod.fst).head? = some o) (ta : Option P) {u v : D → ℝ}
    (hu : ∀ x, (crOf cal o oa .default none cls ta A).call cal x = .ok (u x)) {g g₁ : CRCurve D P} {gs : List D} (hd2 : g₁.base.domain = gs)
    (hg1 : ∀ x, g₁.call cal x = .ok (v x)) (op : ℝ → ℝ → ℝ) {limit : ℕ} {same₁ same₂ : D → Bool} (same₃ : D → Bool)
    (hoperand : (crOf cal o oa .default none cls ta A).operand cal (limit + 1) same₁ same₂ g = .ok g₁) :
    ∃ (xs : List D) (m : D), xs.Pairwise (· < ·) ∧ xs.head? = some m ∧
      (∀ x, x ∈ xs ↔ x ∈ A.map Prod.fst ∨ x ∈ gs) ∧
      ∀ w : D → ℝ, (∀ x, (crOf cal m none .default none cls (none : Option P) (xs.map fun x => (x, storeCredit cls (op (u x) (v x))))).call cal x = .ok (w x)) →
        (cls.isProb → ∀ x, ok (w x)) →
        ∃ (ys : List D) (o?' : Option D), (crOf cal o oa .default none cls ta A).binop cal op (limit + 1) same₁ same₂ same₃ g =
            .ok (crOf cal m o?' .default none cls ta (ys.map fun x => (x, w x))) ∧ ys.Pairwise (· < ·) ∧
          (∀ x, x ∈ ys ↔ CastDate cal cls m xs x) ∧ o?'.or ys.head? = some m := by
  set xs := sortedSet (A.map Prod.fst ++ gs) with hxs
  have hs : xs.Pairwise (· < ·) := sortedSet_strict _
  have hxn : xs.Nodup := hs.imp fun h => h.ne
  have hxne : xs ≠ [] := List.ne_nil_of_mem (sortedSet_mem.2 (List.mem_append_left _ (List.head_mem (by simpa using hA0))))
  obtain ⟨m, hxm⟩ : ∃ m, xs.head? = some m := by
    obtain ⟨a, l, h⟩ := List.exists_cons_of_ne_nil hxne; exact ⟨a, by rw [h]; rfl⟩
  have hmin : m ∈ xs ∧ ∀ x ∈ xs, m ≤ x := by
    obtain ⟨a, l, h⟩ := List.exists_cons_of_ne_nil hxne
    rw [h] at hxm hs
    obtain rfl : a = m := by simpa using hxm
    rw [h]
    refine ⟨by simp, fun x hx => ?_⟩
    rcases List.mem_cons.1 hx with rfl | hx
    · exact le_rfl
    · exact ((List.pairwise_cons.1 hs).1 x hx).le
  refine ⟨xs, m, hs, hxm, fun x => by rw [hxs, sortedSet_mem, List.mem_append], fun w hw hwpos => ?_⟩
  set pts := xs.map fun x => (x, op (u x) (v x)) with hpts
  set st := xs.map fun x => (x, storeCredit cls (op (u x) (v x))) with hst
  have hf1 : pts.map Prod.fst = xs := graph_fst _ _
  have hf2 : st.map Prod.fst = xs := graph_fst _ _
  have hnew : ∀ (o? : Option D) (o' : D), o?.or xs.head? = some o' → ∀ z : D → ℝ,
      CRCurve.new cal cls xs (xs.map z) none o? .default none =
        .ok (crOf cal o' o? .default none cls (none : Option P) (xs.map fun x => (x, storeCredit cls (z x)))) := by
    intro o? o' ho' z
    have e1 : (xs.map fun x => (x, z x)).map Prod.fst = xs := graph_fst _ _
    cases hp : cls.isProb with
    | true =>
      have := CRCurve_new_eq (cal := cal) (pts := xs.map fun x => (x, z x)) (i := none) (dc := .default) (tenor := (none : Option P)) (o? := o?) (o := o')
        hp (by rw [e1]; exact hxn) (by rw [e1]; exact ho') trivial hτ
      rw [e1, graph_snd] at this
      rw [this, List.map_map]
      simp [storeCredit, hp, Function.comp_def]
    | false =>
      have := CRCurve_make_eq cal (pts := xs.map fun x => (x, z x)) (cls := cls) (i := none) (o? := o?) (dc := .default)
        (tenor := (none : Option P)) (o := o') (by rw [e1]; exact hxn) (fun h => absurd (log_prob h) (by simp [hp])) (by rw [e1]; exact ho') trivial hτ
      rw [e1, graph_snd] at this
      rw [CRCurve_new_rate hp, this]
      simp [storeCredit, hp]
  have hmo : (none : Option D).or (st.map Prod.fst).head? = some m := by rw [hf2]; exact hxm
  obtain ⟨ys, o?', h1, h2, h3, h4⟩ := own_cast (t' := ta) hτ hm (pts := st) (by rw [hst]; simpa using hxne) hmo
    (.inr (by rw [hf2]; exact hmin)) hc hw hwpos limit same₃
  rw [hf2] at h3
  refine ⟨ys, o?', ?_, h2, h3, h4⟩
  simp only [CRCurve.binop, hoperand, Py.ok_bind]
  have hd1 : (crOf cal o oa .default none cls ta A).base.domain = A.map Prod.fst := rfl
  have hcl : (crOf cal o oa .default none cls ta A).cls = cls := rfl
  have hin : (crOf cal o oa .default none cls ta A).base.interp = none := rfl
  have hdc : (crOf cal o oa .default none cls ta A).base.dc = .default := rfl
  have hog : (crOf cal o oa .default none cls ta A).base.origin = some o := hoa
  rw [hd1, hd2, ← hxs, pyMap_ok (g := fun x => op (u x) (v x)) fun x _ => by simp [hu, hg1], Py.ok_bind, hcl, hin,
    hnew none m hxm, Py.ok_bind]
  have hd3 : (crOf cal m none .default none cls none st : CRCurve D P).base.domain = xs := hf2
  rw [← hst, hd3, pyMap_ok (g := w) fun x _ => hw x, Py.ok_bind,
    show (crOf cal m none .default none cls none st : CRCurve D P).base.interp = none from rfl, hog, hdc, hnew (some o) o rfl, Py.ok_bind]
  exact h1

theorem credit_binop_tail (hτ : GoodDayCount cal.dayCount) (hm : MovesOn cal) {cls : CRClass} (hc : cls.plain) {A : List (D × ℝ)}
    (hA0 : A ≠ []) {o : D} {oa : Option D}
    (hoa : oa.or (A.map Prod.fst).head? = some o) (ta : Option P) {u v : D → ℝ}
    (hu : ∀ x, (crOf cal o oa .default none cls ta A).call cal x = .ok (u x)) {g g₁ : CRCurve D P} {gs : List D} (hd2 : g₁.base.domain = gs)
    (hg1 : ∀ x, g₁.call cal x = .ok (v x)) (op : ℝ → ℝ → ℝ) {limit : ℕ} {same₁ same₂ : D → Bool} (same₃ : D → Bool)
    (hoperand : (crOf cal o oa .default none cls ta A).operand cal (limit + 1) same₁ same₂ g = .ok g₁) :
    ∃ (xs : List D) (m : D), xs.Pairwise (· < ·) ∧ xs.head? = some m ∧
      (∀ x, x ∈ xs ↔ x ∈ A.map Prod.fst ∨ x ∈ gs) ∧
      ∀ w : D → ℝ, (∀ x, (crOf cal m none .default none cls (none : Option P) (xs.map fun x => (x, storeCredit cls (op (u x) (v x))))).call cal x = .ok (w x)) →
        (cls.isProb → ∀ x, 0 < w x) →
        ∃ (ys : List D) (o?' : Option D), (crOf cal o oa .default none cls ta A).binop cal op (limit + 1) same₁ same₂ same₃ g =
            .ok (crOf cal m o?' .default none cls ta (ys.map fun x => (x, w x))) ∧ ys.Pairwise (· < ·) ∧
          (∀ x, x ∈ ys ↔ CastDate cal cls m xs x) ∧ o?'.or ys.head? = some m :=
  own_binop_tail hτ hm (plain_own hc none) hA0 hoa ta hu hd2 hg1 op same₃ hoperand

/-- What arithmetic gives: the operation at all dates of both curves, as stored by the constructor; the rest is what the
interpolation `w` of these values gives. -/
theorem own_binop (hτ : GoodDayCount cal.dayCount) (hm : MovesOn cal) {cls : CRClass} {ok : ℝ → Prop} {A B : List (D × ℝ)}
    (hA : (A.map Prod.fst).Nodup) (hA0 : A ≠ []) (hB0 : B ≠ []) {o : D} {oa ob : Option D}
    (hoa : oa.or (A.map Prod.fst).head? = some o) (hob : ob.or (B.map Prod.fst).head? = some o)
    (hfirst : ob = some o ∨ (o ∈ B.map Prod.fst ∧ ∀ x ∈ B.map Prod.fst, o ≤ x)) (ta tb : Option P) (hc : OwnStorage cal cls ok tb) (hc' : OwnStorage cal cls ok (none : Option P)) {u v : D → ℝ}
    (hu : ∀ x, (crOf cal o oa .default none cls ta A).call cal x = .ok (u x))
    (hv : ∀ x, (crOf cal o ob .default none cls tb B).call cal x = .ok (v x)) (hvpos : cls.isProb → ∀ x, ok (v x))
    (hgrid : ∀ ys : List D, ys.Pairwise (· < ·) → (∀ x, x ∈ ys ↔ CastDate cal cls o (B.map Prod.fst) x) → ∀ o?',
      o?'.or ys.head? = some o → ∀ x, (crOf cal o o?' .default none cls (none : Option P) (ys.map fun x => (x, v x))).call cal x = .ok (v x))
    (op : ℝ → ℝ → ℝ) (limit : ℕ) (same₁ same₂ same₃ : D → Bool) :
    ∃ (xs : List D) (m : D), xs.Pairwise (· < ·) ∧ xs.head? = some m ∧
      (∀ x, x ∈ xs ↔ x ∈ A.map Prod.fst ∨ CastDate cal cls o (B.map Prod.fst) x) ∧
      ∀ w : D → ℝ, (∀ x, (crOf cal m none .default none cls (none : Option P) (xs.map fun x => (x, storeCredit cls (op (u x) (v x))))).call cal x = .ok (w x)) →
        (cls.isProb → ∀ x, ok (w x)) →
        ∃ (ys : List D) (o?' : Option D), (crOf cal o oa .default none cls ta A).binop cal op (limit + 1) same₁ same₂ same₃ (crOf cal o ob .default none cls tb B) =
            .ok (crOf cal m o?' .default none cls ta (ys.map fun x => (x, w x))) ∧ ys.Pairwise (· < ·) ∧
          (∀ x, x ∈ ys ↔ CastDate cal cls m xs x) ∧ o?'.or ys.head? = some m := by
  obtain ⟨gs, og, hcast, hgs, hgm, hgh⟩ := own_cast hτ hm hB0 hob hfirst (t' := none) hc hv hvpos limit same₁
  have hg1 := hgrid gs hgs hgm og hgh
  set g₁ : CRCurve D P := crOf cal o og .default none cls none (gs.map fun x => (x, v x)) with hg₁
  have hfst : (gs.map fun x => (x, v x)).map Prod.fst = gs := graph_fst _ _
  have hoperand : (crOf cal o oa .default none cls ta A).operand cal (limit + 1) same₁ same₂ (crOf cal o ob .default none cls tb B) = .ok g₁ := by
    simp only [CRCurve.operand]
    rw [show (crOf cal o oa .default none cls ta A).cls = cls from rfl, hcast, Py.ok_bind]
    have hod : originDiff (crOf cal o oa .default none cls ta A).base g₁.base = .ok 0 := by
      have e1 : (crOf cal o oa .default none cls ta A).base.origin = some o := hoa
      have e2 : g₁.base.origin = some o := by
        show og.or ((gs.map fun x => (x, v x)).map Prod.fst).head? = some o
        rw [hfst]; exact hgh
      simp [originDiff, e1, e2, pyDate]
    rw [hod, Py.ok_bind]
    simp only [CRCurve.shifted, ne_eq, not_true_eq_false, if_false]
    rw [show g₁.base.domain = gs from hfst]
    exact own_castOn (org := none) hτ (by rw [hfst]; exact hgh) hc' (fun y _ => hg1 y) (fun h y _ => hvpos h y) (hgs.imp fun h => h.ne) hgh limit same₂
  obtain ⟨xs, m, h1, h2, h3, h4⟩ := own_binop_tail hτ hm hc' hA0 hoa ta hu hfst hg1 op same₃ hoperand
  exact ⟨xs, m, h1, h2, fun x => by rw [h3, hgm], h4⟩

theorem credit_binop (hτ : GoodDayCount cal.dayCount) (hm : MovesOn cal) {cls : CRClass} (hc : cls.plain) {A B : List (D × ℝ)}
    (hA : (A.map Prod.fst).Nodup) (hA0 : A ≠ []) (hB0 : B ≠ []) {o : D} {oa ob : Option D}
    (hoa : oa.or (A.map Prod.fst).head? = some o) (hob : ob.or (B.map Prod.fst).head? = some o)
    (hfirst : ob = some o ∨ (o ∈ B.map Prod.fst ∧ ∀ x ∈ B.map Prod.fst, o ≤ x)) (ta tb : Option P) {u v : D → ℝ}
    (hu : ∀ x, (crOf cal o oa .default none cls ta A).call cal x = .ok (u x))
    (hv : ∀ x, (crOf cal o ob .default none cls tb B).call cal x = .ok (v x)) (hvpos : cls.isProb → ∀ x, 0 < v x)
    (hgrid : ∀ ys : List D, ys.Pairwise (· < ·) → (∀ x, x ∈ ys ↔ CastDate cal cls o (B.map Prod.fst) x) → ∀ o?',
      o?'.or ys.head? = some o → ∀ x, (crOf cal o o?' .default none cls (none : Option P) (ys.map fun x => (x, v x))).call cal x = .ok (v x))
    (op : ℝ → ℝ → ℝ) (limit : ℕ) (same₁ same₂ same₃ : D → Bool) :
    ∃ (xs : List D) (m : D), xs.Pairwise (· < ·) ∧ xs.head? = some m ∧
      (∀ x, x ∈ xs ↔ x ∈ A.map Prod.fst ∨ CastDate cal cls o (B.map Prod.fst) x) ∧
      ∀ w : D → ℝ, (∀ x, (crOf cal m none .default none cls (none : Option P) (xs.map fun x => (x, storeCredit cls (op (u x) (v x))))).call cal x = .ok (w x)) →
        (cls.isProb → ∀ x, 0 < w x) →
        ∃ (ys : List D) (o?' : Option D), (crOf cal o oa .default none cls ta A).binop cal op (limit + 1) same₁ same₂ same₃ (crOf cal o ob .default none cls tb B) =
            .ok (crOf cal m o?' .default none cls ta (ys.map fun x => (x, w x))) ∧ ys.Pairwise (· < ·) ∧
          (∀ x, x ∈ ys ↔ CastDate cal cls m xs x) ∧ o?'.or ys.head? = some m :=
  own_binop hτ hm hA hA0 hB0 hoa hob hfirst ta tb (plain_own hc tb) (plain_own hc none) hu hv hvpos hgrid op limit same₁ same₂ same₃

/-! ### Survival probabilities -/

/-- The zero rates implied by survival probabilities. -/
noncomputable def zeroPts (τ : D → D → ℝ) (o : D) (A : List (D × ℝ)) : List (ℝ × ℝ) := sortPairs (ratePts (timePts τ o A))

theorem zeroPts_strict {τ : D → D → ℝ} (hτ : GoodDayCount τ) (o : D) {A : List (D × ℝ)} (hA : (A.map Prod.fst).Nodup) :
    StrictX (zeroPts τ o A) := sortPairs_strict (ratePts_nodup (timePts_nodup hτ o hA))

theorem zeroPts_ne {τ : D → D → ℝ} (hτ : GoodDayCount τ) {o : D} {A : List (D × ℝ)} (h : ∃ p ∈ A, p.1 ≠ o) : zeroPts τ o A ≠ [] := by
  refine sortPairs_ne_nil (ratePts_ne ?_)
  obtain ⟨p, hp, hne⟩ := h
  exact ⟨_, List.mem_map.2 ⟨p, hp, rfl⟩, hτ.ne_zero (Ne.symm hne)⟩

theorem zeroPts_mem {τ : D → D → ℝ} (hτ : GoodDayCount τ) {o : D} {A : List (D × ℝ)} {q : ℝ × ℝ} :
    q ∈ zeroPts τ o A ↔ ∃ p ∈ A, p.1 ≠ o ∧ q = (τ o p.1, -Real.log p.2 / τ o p.1) := by
  rw [zeroPts, (sortPairs_perm _).mem_iff, ratePts, timePts]
  simp only [List.mem_map, List.mem_filter]
  constructor
  · rintro ⟨r, ⟨⟨p, hp, rfl⟩, h⟩, rfl⟩
    refine ⟨p, hp, fun e => ?_, rfl⟩
    rw [e] at h
    simp [hτ.self] at h
  · rintro ⟨p, hp, hne, rfl⟩
    exact ⟨_, ⟨⟨p, hp, rfl⟩, by simpa using hτ.ne_zero (Ne.symm hne)⟩, rfl⟩

/-- A survival curve with value `a` at its origin and the given zero rates. -/
noncomputable def survVal (τ : D → D → ℝ) (o : D) (a : ℝ) (z : ℝ → ℝ) (x : D) : ℝ :=
  if x = o then a else Real.exp (-(z (τ o x) * τ o x))

theorem survVal_pos {τ : D → D → ℝ} {o : D} {a : ℝ} (ha : 0 < a) (z : ℝ → ℝ) (x : D) : 0 < survVal τ o a z x := by
  unfold survVal; split_ifs
  · exact ha
  · exact Real.exp_pos _

theorem surv_call (hτ : GoodDayCount cal.dayCount) {cls : CRClass} (hc : cls = .survival ∨ cls = .default) {A : List (D × ℝ)}
    (hA : (A.map Prod.fst).Nodup) (hpos : ∀ p ∈ A, 0 < p.2) {o : D} {o? : Option D} (ho : o?.or (A.map Prod.fst).head? = some o)
    {a : ℝ} (ha : (o, a) ∈ A) (h0 : ∃ p ∈ A, p.1 ≠ o) (t : Option P) (x : D) :
    (crOf cal o o? .default none cls t A).call cal x = .ok (survVal cal.dayCount o a (flin (zeroPts cal.dayCount o A)) x) := by
  have hi : (none : Option FuncSpec).getD cls.dflt = logLinearRateScheme := by rcases hc with rfl | rfl <;> rfl
  unfold survVal
  split_ifs with hx
  · subst hx
    exact crOf_node cal (dc := .default) ho trivial hτ hA (fun _ => hpos) (fun _ => h0) ha
  · exact crOf_rate cal (dc := .default) hi ho trivial hτ hA h0 hx

/-- Resampling on a finer grid gives the same curve. -/
theorem surv_grid (hτ : GoodDayCount cal.dayCount) {cls : CRClass} (hc : cls = .survival ∨ cls = .default) {R S : List (ℝ × ℝ)}
    (hR : StrictX R) (hS : StrictX S) (hR0 : R ≠ []) (hS0 : S ≠ []) {o : D} {xs : List D} (hs : xs.Pairwise (· < ·)) (hox : o ∈ xs)
    (hRx : ∀ p ∈ R, ∃ x ∈ xs, x ≠ o ∧ p.1 = cal.dayCount o x) (hSx : ∀ p ∈ S, ∃ x ∈ xs, x ≠ o ∧ p.1 = cal.dayCount o x)
    {a : ℝ} (ha : 0 < a) (c d : ℝ) {o? : Option D} (ho : o?.or xs.head? = some o) (t : Option P) (x : D) :
    (crOf cal o o? .default none cls t (xs.map fun x => (x, survVal cal.dayCount o a (fun s => c * flin R s + d * flin S s) x))).call cal x =
      .ok (survVal cal.dayCount o a (fun s => c * flin R s + d * flin S s) x) := by
  set z := fun s => c * flin R s + d * flin S s with hz
  set G := xs.map fun x => (x, survVal cal.dayCount o a z x) with hG
  have hfst : G.map Prod.fst = xs := graph_fst _ _
  have hpos : ∀ p ∈ G, 0 < p.2 := fun p hp => by
    obtain ⟨y, -, rfl⟩ := List.mem_map.1 hp
    exact survVal_pos ha z y
  have h0 : ∃ p ∈ G, p.1 ≠ o := by
    obtain ⟨y, hy, hne, -⟩ := hRx _ (List.head_mem hR0)
    exact ⟨_, List.mem_map.2 ⟨y, hy, rfl⟩, hne⟩
  have hoa : (o, a) ∈ G := List.mem_map.2 ⟨o, hox, by simp [survVal]⟩
  rw [surv_call hτ hc (by rw [hfst]; exact hs.imp fun h => h.ne) hpos (by rw [hfst]; exact ho) hoa h0]
  set ts := (xs.filter fun y => y ≠ o).map (cal.dayCount o) with hts
  have htss : ts.Pairwise (· < ·) := by
    rw [hts, List.pairwise_map]
    exact (hs.filter _).imp fun h => (hτ.lt_iff o _ _).2 h
  have hZ : zeroPts cal.dayCount o G = ts.map fun s => (s, z s) := by
    have e : ratePts (timePts cal.dayCount o G) = ts.map fun s => (s, z s) := by
      rw [hts, hG, ratePts, timePts, List.map_map, List.filter_map, List.map_map, List.map_map]
      have hfil : xs.filter ((fun p : ℝ × ℝ => decide (p.1 ≠ 0)) ∘ (fun p : D × ℝ => (cal.dayCount o p.1, p.2)) ∘ fun x => (x, survVal cal.dayCount o a z x)) =
          xs.filter fun y => decide (y ≠ o) := by
        refine List.filter_congr fun y _ => ?_
        simp only [Function.comp]
        by_cases hy : y = o
        · simp [hy, hτ.self]
        · simp [hy, hτ.ne_zero (Ne.symm hy)]
      rw [hfil]
      refine List.map_congr_left fun y hy => ?_
      have hy' : y ≠ o := by simpa using (List.mem_filter.1 hy).2
      have hne := hτ.ne_zero (Ne.symm hy')
      simp only [Function.comp, survVal, if_neg hy', Real.log_exp, neg_neg, mul_div_assoc, div_self hne, mul_one]
    rw [zeroPts, e, sortPairs_eq_self (graph_strict htss z)]
  have hin : ∀ {Q : List (ℝ × ℝ)}, (∀ p ∈ Q, ∃ x ∈ xs, x ≠ o ∧ p.1 = cal.dayCount o x) → ∀ p ∈ Q, p.1 ∈ ts := fun hQ p hp => by
    obtain ⟨y, hy, hne, e⟩ := hQ p hp
    exact List.mem_map.2 ⟨y, List.mem_filter.2 ⟨hy, by simpa using hne⟩, e.symm⟩
  unfold survVal
  rw [hZ, flin_comb hR hS hR0 hS0 htss (hin hRx) (hin hSx)]

/-- Values from the origin on are at most one. -/
theorem survVal_le {τ : D → D → ℝ} (hτ : GoodDayCount τ) {o : D} {A : List (D × ℝ)} (hA : (A.map Prod.fst).Nodup)
    (h0 : ∃ p ∈ A, p.1 ≠ o) (hle : ∀ p ∈ A, o ≤ p.1 ∧ 0 < p.2 ∧ p.2 ≤ 1) {a : ℝ} (ha : a ≤ 1) {x : D} (hx : o ≤ x) :
    survVal τ o a (flin (zeroPts τ o A)) x ≤ 1 := by
  unfold survVal
  split_ifs with h
  · exact ha
  · have hs := zeroPts_strict hτ o hA
    have hne := zeroPts_ne hτ h0
    obtain ⟨b, hb⟩ : ∃ b, ∀ p ∈ zeroPts τ o A, p.2 ≤ b := by
      refine ⟨((zeroPts τ o A).map fun p => |p.2|).sum, fun p hp => ?_⟩
      refine (le_abs_self _).trans (List.single_le_sum (fun y hy => ?_) _ (List.mem_map.2 ⟨p, hp, rfl⟩))
      obtain ⟨r, -, rfl⟩ := List.mem_map.1 hy
      exact abs_nonneg _
    have := (flin_bounds (a := 0) (b := b) hs hne (fun p hp => ⟨?_, hb p hp⟩) (τ o x)).1
    · exact Real.exp_le_one_iff.2 (neg_nonpos.2 (mul_nonneg this (hτ.nonneg hx)))
    · obtain ⟨q, hq, hqo, rfl⟩ := (zeroPts_mem hτ).1 hp
      have := hle q hq
      exact div_nonneg (neg_nonneg.2 (Real.log_nonpos this.2.1.le this.2.2)) (hτ.nonneg this.1)

/-- Two credit curves of one class with default day count and interpolation, and with the same origin. -/
structure CreditOperands (cal : Cal D P) (cls : CRClass) (A B : List (D × ℝ)) (o : D) (oa ob : Option D) (ta tb : Option P)
    (f g : CRCurve D P) : Prop where
  good : GoodDayCount cal.dayCount
  moves : MovesOn cal
  left : (A.map Prod.fst).Nodup
  right : (B.map Prod.fst).Nodup
  leftNe : A ≠ []
  rightNe : B ≠ []
  leftOrigin : oa.or (A.map Prod.fst).head? = some o
  rightOrigin : ob.or (B.map Prod.fst).head? = some o
  first : ob = some o ∨ (o ∈ B.map Prod.fst ∧ ∀ x ∈ B.map Prod.fst, o ≤ x)
  newLeft : CRCurve.new cal cls (A.map Prod.fst) (A.map Prod.snd) none oa .default ta = .ok f
  newRight : CRCurve.new cal cls (B.map Prod.fst) (B.map Prod.snd) none ob .default tb = .ok g

/-- Both curves have a probability at their origin, which is their first date, and another one; all are in the range the
constructor does not touch. -/
structure SurvivalOperands (A B : List (D × ℝ)) (o : D) : Prop where
  leftFirst : o ∈ A.map Prod.fst ∧ ∀ p ∈ A, o ≤ p.1
  rightFirst : o ∈ B.map Prod.fst ∧ ∀ p ∈ B, o ≤ p.1
  leftMore : ∃ p ∈ A, p.1 ≠ o
  rightMore : ∃ p ∈ B, p.1 ≠ o
  leftRange : ∀ p ∈ A, floatMin ≤ p.2 ∧ p.2 ≤ 1
  rightRange : ∀ p ∈ B, floatMin ≤ p.2 ∧ p.2 ≤ 1

/-- `S` quotes `op` of what `f` and `g` quote, keeps class and tenor of `f`, and has the dates of both. -/
structure CreditResult (cal : Cal D P) (op : ℝ → ℝ → ℝ) (f g S : CRCurve D P) : Prop where
  call : ∀ x, ∃ u v, f.call cal x = .ok u ∧ g.call cal x = .ok v ∧ S.call cal x = .ok (op u v)
  cls : S.cls = f.cls
  tenor : S.tenor = f.tenor
  sorted : S.base.domain.Pairwise (· < ·)
  domain : ∀ x, x ∈ f.base.domain ∨ x ∈ g.base.domain → x ∈ S.base.domain
  domainOnly : ∀ x ∈ S.base.domain, x ∈ f.base.domain ∨ x ∈ g.base.domain ∨ ∃ y, (y ∈ f.base.domain ∨ y ∈ g.base.domain) ∧ y < x
  origin : S.base.origin = S.base.domain.head?
  dayCount : S.base.dc = .default

variable {A B : List (D × ℝ)} {o : D} {oa ob : Option D} {ta tb : Option P} {f g : CRCurve D P}

/-- The dates of the result. -/
theorem result_dates (hm : MovesOn cal) {cls : CRClass} {A B xs ys : List D} {o m : D} (hs : xs.Pairwise (· < ·)) (hys : ys.Pairwise (· < ·))
    (hx : ∀ x, x ∈ xs ↔ x ∈ A ∨ CastDate cal cls o B x) (hxm : xs.head? = some m) (hy : ∀ x, x ∈ ys ↔ CastDate cal cls m xs x)
    (ho : cls.isProb = true → o ∈ B) :
    ys.head? = some m ∧ ∀ x ∈ ys, x ∈ A ∨ x ∈ B ∨ ∃ y, (y ∈ A ∨ y ∈ B) ∧ y < x := by
  obtain ⟨h1, h2⟩ := head_min hs hxm
  have hA : ∀ x ∈ xs, x ∈ A ∨ x ∈ B ∨ ∃ y, (y ∈ A ∨ y ∈ B) ∧ y < x := by
    intro x h
    rcases (hx x).1 h with h | h
    · exact .inl h
    · rcases h.after hm ho with h | ⟨y, hy, hlt⟩
      · exact .inr (.inl h)
      · exact .inr (.inr ⟨y, .inr hy, hlt⟩)
  constructor
  · refine head_of_min hys ((hy m).2 (.inl h1)) fun d hd => ?_
    rcases ((hy d).1 hd).after hm (fun _ => h1) with h | ⟨y, hyx, hlt⟩
    · exact h2 d h
    · exact (h2 y hyx).trans hlt.le
  · intro x h
    rcases ((hy x).1 h).after hm (fun _ => h1) with h | ⟨y, hyx, hlt⟩
    · exact hA x h
    · rcases hA y hyx with h | h | ⟨z, hz, hzy⟩
      · exact .inr (.inr ⟨y, .inl h, hlt⟩)
      · exact .inr (.inr ⟨y, .inr h, hlt⟩)
      · exact .inr (.inr ⟨z, hz, hzy.trans hlt⟩)

theorem stored_graph {cls : CRClass} (hc : cls ≠ .default ∧ cls ≠ .marginalDefault) {A : List (D × ℝ)}
    (h : ∀ p ∈ A, floatMin ≤ p.2 ∧ p.2 ≤ 1) : A.map (fun p => (p.1, storedProb cls p.2)) = A := by
  conv_rhs => rw [← List.map_id A]
  refine List.map_congr_left fun p hp => ?_
  simp only [id, storedProb, hc.1, hc.2, or_self, if_false]
  rw [min_eq_left (h p hp).2, max_eq_right (h p hp).1]

/-- C137: products of survival probability curves are pointwise at every date, as long as they are not too small for a float at
the dates of the new curve. -/
theorem C137_product_partial (h : CreditOperands cal .survival A B o oa ob ta tb f g) (hs : SurvivalOperands A B o)
    (hmin : ∀ x a b, x ∈ A.map Prod.fst ∨ CastDate cal .survival o (B.map Prod.fst) x → f.call cal x = .ok a → g.call cal x = .ok b →
      floatMin ≤ a * b) (limit : ℕ) (same₁ same₂ same₃ : D → Bool) :
    ∃ S, f.binop cal (· * ·) (limit + 1) same₁ same₂ same₃ g = .ok S ∧ CreditResult cal (· * ·) f g S ∧ S.base.origin = some o := by
  have hτ := h.good
  have hcd : CRClass.survival ≠ .default ∧ CRClass.survival ≠ .marginalDefault := by decide
  obtain rfl : f = crOf cal o oa .default none .survival ta A := by
    have := h.newLeft
    rw [CRCurve_new_eq (cal := cal) rfl h.left h.leftOrigin (dc := .default) trivial hτ, stored_graph hcd hs.leftRange] at this
    exact (Except.ok.inj this).symm
  obtain rfl : g = crOf cal o ob .default none .survival tb B := by
    have := h.newRight
    rw [CRCurve_new_eq (cal := cal) rfl h.right h.rightOrigin (dc := .default) trivial hτ, stored_graph hcd hs.rightRange] at this
    exact (Except.ok.inj this).symm
  obtain ⟨⟨o1, a⟩, ha, rfl⟩ := List.mem_map.1 hs.leftFirst.1
  obtain ⟨⟨o2, b⟩, hb, e⟩ := List.mem_map.1 hs.rightFirst.1
  obtain rfl : o2 = o1 := e
  rename' o2 => o
  have fm := floatMin_pos
  have hu := surv_call hτ (.inl rfl) h.left (fun p hp => fm.trans_le (hs.leftRange p hp).1) h.leftOrigin ha hs.leftMore ta
  have hv := surv_call hτ (.inl rfl) h.right (fun p hp => fm.trans_le (hs.rightRange p hp).1) h.rightOrigin hb hs.rightMore tb
  set u := survVal cal.dayCount o a (flin (zeroPts cal.dayCount o A)) with hud
  set v := survVal cal.dayCount o b (flin (zeroPts cal.dayCount o B)) with hvd
  have hapos : 0 < a := fm.trans_le (hs.leftRange _ ha).1
  have hbpos : 0 < b := fm.trans_le (hs.rightRange _ hb).1
  have hRs := zeroPts_strict hτ o h.left
  have hSs := zeroPts_strict hτ o h.right
  have hR0 := zeroPts_ne hτ hs.leftMore
  have hS0 := zeroPts_ne hτ hs.rightMore
  have hin : ∀ {Q : List (D × ℝ)} {xs : List D}, (∀ x ∈ Q.map Prod.fst, x ∈ xs) → ∀ p ∈ zeroPts cal.dayCount o Q, ∃ x ∈ xs, x ≠ o ∧ p.1 = cal.dayCount o x := by
    intro Q xs hQ p hp
    obtain ⟨q, hq, hne, rfl⟩ := (zeroPts_mem hτ).1 hp
    exact ⟨q.1, hQ _ (List.mem_map.2 ⟨q, hq, rfl⟩), hne, rfl⟩
  have hv1 : v = survVal cal.dayCount o b fun s => 0 * flin (zeroPts cal.dayCount o A) s + 1 * flin (zeroPts cal.dayCount o B) s := by
    rw [hvd]; simp
  have huv : (fun x => u x * v x) = survVal cal.dayCount o (a * b) fun s => 1 * flin (zeroPts cal.dayCount o A) s + 1 * flin (zeroPts cal.dayCount o B) s := by
    funext x
    simp only [hud, hvd, survVal]
    split_ifs with hx
    · rfl
    · rw [← Real.exp_add]; congr 1; ring
  have hpB : ∀ {ys : List D}, (∀ x, x ∈ ys ↔ CastDate cal .survival o (B.map Prod.fst) x) → ∀ x ∈ B.map Prod.fst, x ∈ ys :=
    fun hy x hx => (hy x).2 (.inl hx)
  have hv1' : v = survVal cal.dayCount o b fun s => 0 * flin (zeroPts cal.dayCount o B) s + 1 * flin (zeroPts cal.dayCount o B) s := by
    rw [hvd]; simp
  obtain ⟨xs, m, hxs, hxm, hxmem, hk⟩ := credit_binop hτ h.moves (.inl rfl) h.left h.leftNe h.rightNe h.leftOrigin h.rightOrigin h.first ta tb hu hv
    (fun _ x => survVal_pos hbpos _ x) (fun ys hys hmem o?' hho x => by
      rw [hv1']
      exact surv_grid hτ (.inl rfl) hSs hSs hS0 hS0 hys (hpB hmem o hs.rightFirst.1) (hin (hpB hmem)) (hin (hpB hmem)) hbpos _ _ hho none x)
    (· * ·) limit same₁ same₂ same₃
  have hge : ∀ x ∈ xs, o ≤ x := by
    intro x hx
    rcases (hxmem x).1 hx with h1 | h1 | ⟨-, h1⟩ | ⟨n, hn, -, h1⟩
    · obtain ⟨p, hp, rfl⟩ := List.mem_map.1 h1; exact hs.leftFirst.2 p hp
    · obtain ⟨p, hp, rfl⟩ := List.mem_map.1 h1; exact hs.rightFirst.2 p hp
    · obtain ⟨y, hy, hlt⟩ := h.moves.day o
      rw [h1] at hy; cases hy; exact hlt.le
    · obtain ⟨y, hy, hlt⟩ := h.moves.year n
      rw [h1] at hy; cases hy
      obtain ⟨p, hp, rfl⟩ := List.mem_map.1 hn
      exact (hs.rightFirst.2 p hp).trans hlt.le
  have hxA : ∀ x ∈ A.map Prod.fst, x ∈ xs := fun x hx => (hxmem x).2 (.inl hx)
  have hxB : ∀ x ∈ B.map Prod.fst, x ∈ xs := fun x hx => (hxmem x).2 (.inr (.inl hx))
  have hmo : m = o := by
    have := head_of_min hxs (hxA o hs.leftFirst.1) hge
    rw [hxm] at this; exact Option.some.inj this
  subst hmo
  rename' m => o
  have hst : (xs.map fun x => (x, storeCredit .survival (u x * v x))) = xs.map fun x => (x, u x * v x) := by
    refine List.map_congr_left fun x hx => ?_
    have h1 : floatMin ≤ u x * v x := hmin x _ _ ((hxmem x).1 hx) (hu x) (hv x)
    have h2 : u x ≤ 1 := survVal_le hτ h.left hs.leftMore (fun p hp => ⟨hs.leftFirst.2 p hp, fm.trans_le (hs.leftRange p hp).1, (hs.leftRange p hp).2⟩)
      (hs.leftRange _ ha).2 (hge x hx)
    have h3 : v x ≤ 1 := survVal_le hτ h.right hs.rightMore (fun p hp => ⟨hs.rightFirst.2 p hp, fm.trans_le (hs.rightRange p hp).1, (hs.rightRange p hp).2⟩)
      (hs.rightRange _ hb).2 (hge x hx)
    have h4 : u x * v x ≤ 1 := mul_le_one₀ h2 (survVal_pos hbpos _ x).le h3
    simp [storeCredit, CRClass.isProb, storedProb, min_eq_left h4, max_eq_right h1]
  have grid : ∀ (ys : List D), ys.Pairwise (· < ·) → (∀ x ∈ xs, x ∈ ys) → ∀ o?', o?'.or ys.head? = some o → ∀ (t : Option P) x,
      (crOf cal o o?' .default none .survival t (ys.map fun x => (x, u x * v x))).call cal x = .ok (u x * v x) := by
    intro ys hys hsub o?' hho t x
    have e : ∀ x, u x * v x = survVal cal.dayCount o (a * b) (fun s => 1 * flin (zeroPts cal.dayCount o A) s + 1 * flin (zeroPts cal.dayCount o B) s) x :=
      fun x => congrFun huv x
    simp only [e]
    exact surv_grid hτ (.inl rfl) hRs hSs hR0 hS0 hys (hsub o (hxA o hs.leftFirst.1)) (hin fun x hx => hsub x (hxA x hx)) (hin fun x hx => hsub x (hxB x hx))
      (mul_pos hapos hbpos) 1 1 hho t x
  obtain ⟨ys, o?', h1, h2, h3, h4⟩ := hk (fun x => u x * v x) (fun x => by
    rw [hst]; exact grid xs hxs (fun _ h => h) none (by simpa using hxm) none x) (fun _ x => mul_pos (survVal_pos hapos _ x) (survVal_pos hbpos _ x))
  have hfst : (ys.map fun x => (x, u x * v x)).map Prod.fst = ys := graph_fst _ _
  refine ⟨_, h1, ⟨fun x => ⟨_, _, hu x, hv x, grid ys h2 (fun x hx => (h3 x).2 (.inl hx)) o?' h4 ta x⟩, rfl, rfl, ?_, fun x hx => ?_, ?_, ?_, rfl⟩, ?_⟩
  · show (List.map Prod.fst _).Pairwise _
    rw [hfst]; exact h2
  · show x ∈ List.map Prod.fst _
    rw [hfst]; exact (h3 x).2 (.inl (hx.elim (hxA x) (hxB x)))
  · show ∀ x ∈ List.map Prod.fst _, _
    rw [hfst]; exact (result_dates h.moves hxs h2 hxmem hxm h3 fun _ => hs.rightFirst.1).2
  · show o?'.or (List.map Prod.fst _).head? = (List.map Prod.fst _).head?
    rw [hfst, h4, (result_dates h.moves hxs h2 hxmem hxm h3 fun _ => hs.rightFirst.1).1]
  · show o?'.or (List.map Prod.fst _).head? = _
    rw [hfst]; exact h4

/-! ### Intensities and hazard rates -/

/-- A linear function of two linear interpolations is its linear interpolation on any finer grid, whatever the origin. -/
theorem linVal_finer {τ : D → D → ℝ} (hτ : GoodDayCount τ) {A B : List (D × ℝ)} (hA : (A.map Prod.fst).Nodup)
    (hB : (B.map Prod.fst).Nodup) (hA0 : A ≠ []) (hB0 : B ≠ []) {xs : List D} (hstr : xs.Pairwise (· < ·))
    (hAx : ∀ x ∈ A.map Prod.fst, x ∈ xs) (hBx : ∀ x ∈ B.map Prod.fst, x ∈ xs) (o m : D) (a b : ℝ) (x : D) :
    linVal τ m (xs.map fun x => (x, a * linVal τ o A x + b * linVal τ o B x)) x =
      a * linVal τ o A x + b * linVal τ o B x := by
  have hnd : xs.Nodup := hstr.imp fun h => h.ne
  have hne : xs ≠ [] := List.ne_nil_of_mem (hAx _ (List.head_mem (by simpa using hA0)))
  rw [linVal_origin hτ (by rw [graph_fst]; exact hnd) (by simpa using hne) o m]
  have hts : (xs.map (τ o)).Pairwise (· < ·) := by
    rw [List.pairwise_map]; exact hstr.imp fun h => (hτ.lt_iff o _ _).2 h
  have e2 : timePts τ o (xs.map fun x => (x, a * linVal τ o A x + b * linVal τ o B x)) =
      (xs.map (τ o)).map fun t => (t, a * flin (sortPairs (timePts τ o A)) t + b * flin (sortPairs (timePts τ o B)) t) := by
    simp [timePts, Function.comp_def, linVal]
  have hsub : ∀ {L : List (D × ℝ)}, (∀ x ∈ L.map Prod.fst, x ∈ xs) → ∀ p ∈ sortPairs (timePts τ o L), p.1 ∈ xs.map (τ o) := by
    intro L hL p hp
    obtain ⟨q, hq, rfl⟩ := List.mem_map.1 ((sortPairs_perm _).subset hp)
    exact List.mem_map.2 ⟨_, hL q.1 (List.mem_map.2 ⟨q, hq, rfl⟩), rfl⟩
  have hA0' : timePts τ o A ≠ [] := by simpa [timePts] using hA0
  have hB0' : timePts τ o B ≠ [] := by simpa [timePts] using hB0
  have hst2 := graph_strict hts fun t => a * flin (sortPairs (timePts τ o A)) t + b * flin (sortPairs (timePts τ o B)) t
  show flin (sortPairs (timePts τ o _)) (τ o x) = _
  rw [e2, sortPairs_eq_self hst2, flin_comb (sortPairs_strict (timePts_nodup hτ o hA)) (sortPairs_strict (timePts_nodup hτ o hB))
    (sortPairs_ne_nil hA0') (sortPairs_ne_nil hB0') hts (hsub hAx) (hsub hBx)]
  rfl

/-- A function of two step functions is its step function on any finer grid. -/
theorem left_grid {A B : List (D × ℝ)} (hA : (A.map Prod.fst).Nodup) (hB : (B.map Prod.fst).Nodup) {xs : List D}
    (hAx : ∀ x ∈ A.map Prod.fst, x ∈ xs) (hBx : ∀ x ∈ B.map Prod.fst, x ∈ xs)
    {u v : D → ℝ} (hu : ∀ x, IsLeftDate A x (u x)) (hv : ∀ x, IsLeftDate B x (v x)) (op : ℝ → ℝ → ℝ) {x : D} {y : ℝ}
    (hy : IsLeftDate (xs.map fun x => (x, op (u x) (v x))) x y) : y = op (u x) (v x) := by
  have hgrid : ∀ q, q ∈ A ∨ q ∈ B → (q.1, op (u q.1) (v q.1)) ∈ xs.map fun x => (x, op (u x) (v x)) := fun q hq =>
    List.mem_map.2 ⟨q.1, hq.elim (fun h => hAx _ (List.mem_map.2 ⟨q, h, rfl⟩)) fun h => hBx _ (List.mem_map.2 ⟨q, h, rfl⟩), rfl⟩
  obtain ⟨p, hp, rfl, h⟩ := hy
  obtain ⟨m, hm, rfl⟩ := List.mem_map.1 hp
  rcases h with ⟨h, h'⟩ | ⟨h, h'⟩
  · have hx : ∀ q, q ∈ A ∨ q ∈ B → (q.1 ≤ m ↔ q.1 ≤ x) := fun q hq => ⟨fun hqm => hqm.trans h, fun hqx => h' (q.1, op (u q.1) (v q.1)) (hgrid q hq) hqx⟩
    have e1 : u m = u x := ((hu m).mono fun q hq => hx q (Or.inl hq)).unique hA (hu x)
    have e2 : v m = v x := ((hv m).mono fun q hq => hx q (Or.inr hq)).unique hB (hv x)
    simp [e1, e2]
  · have e1 : u m = u x := ((hu m).first (fun q hq => h' (q.1, op (u q.1) (v q.1)) (hgrid q (Or.inl hq))) (h _ hp)).unique hA (hu x)
    have e2 : v m = v x := ((hv m).first (fun q hq => h' (q.1, op (u q.1) (v q.1)) (hgrid q (Or.inr hq))) (h _ hp)).unique hB (hv x)
    simp [e1, e2]

/-- Hazard rate curves quote the rate of the last date. -/
theorem hazard_left (hτ : GoodDayCount cal.dayCount) {A : List (D × ℝ)} (hA : (A.map Prod.fst).Nodup) (hA0 : A ≠ []) {o : D} {oa : Option D}
    (hoa : oa.or (A.map Prod.fst).head? = some o) (ta : Option P) (x : D) :
    ∃ y, (crOf cal o oa .default none .hazard ta A).call cal x = .ok y ∧ IsLeftDate A x y := by
  obtain ⟨y, h1, h2⟩ := leftCall_sorted (timePts_nodup hτ o hA) (by simpa [timePts] using hA0) (cal.dayCount o x)
  refine ⟨y, ?_, ?_⟩
  · apply crOf_call_some cal (dc := .default) hoa trivial
    simp only [Option.getD, CRClass.dflt, funcOf, interpOf]
    simp [Func.call, Interp.call, storedPts, DayCountArg.fn, h1]
  · have hlt : ∀ a b, cal.dayCount o a < cal.dayCount o b ↔ a < b := fun a b => hτ.lt_iff o a b
    have hle : ∀ a b, cal.dayCount o a ≤ cal.dayCount o b ↔ a ≤ b := fun a b => by
      rw [← not_lt, ← not_lt, hlt]
    obtain ⟨p, hp, rfl, h⟩ := h2
    obtain ⟨p', hp', rfl⟩ := List.mem_map.1 hp
    have hmem : ∀ {q : D × ℝ}, q ∈ A → (cal.dayCount o q.1, q.2) ∈ timePts cal.dayCount o A := fun hq => List.mem_map.2 ⟨_, hq, rfl⟩
    refine ⟨p', hp', rfl, ?_⟩
    rcases h with ⟨h, h'⟩ | ⟨h, h'⟩
    · exact Or.inl ⟨(hle _ _).1 h, fun q hq hqx => (hle _ _).1 (h' _ (hmem hq) ((hle _ _).2 hqx))⟩
    · exact Or.inr ⟨fun q hq => (hlt _ _).1 (h _ (hmem hq)), fun q hq => (hle _ _).1 (h' _ (hmem hq))⟩

theorem CreditOperands.eq {cls : CRClass} (hc : cls.plain) (hp : cls.isProb = false) (h : CreditOperands cal cls A B o oa ob ta tb f g) :
    f = crOf cal o oa .default none cls ta A ∧ g = crOf cal o ob .default none cls tb B := by
  have hτ : GoodDayCount (DayCountArg.fn cal .default) := h.good
  have h1 := h.newLeft
  have h2 := h.newRight
  rw [CRCurve_new_rate hp, CRCurve_make_eq cal h.left (fun h => absurd (plain_log hc h) (by simp [hp])) h.leftOrigin (dc := .default) trivial hτ] at h1
  rw [CRCurve_new_rate hp, CRCurve_make_eq cal h.right (fun h => absurd (plain_log hc h) (by simp [hp])) h.rightOrigin (dc := .default) trivial hτ] at h2
  exact ⟨(Except.ok.inj h1).symm, (Except.ok.inj h2).symm⟩

/-- Rates that are read off any finer grid are added pointwise. -/
theorem credit_rates {cls : CRClass} (hc : cls.plain) (hp : cls.isProb = false) (h : CreditOperands cal cls A B o oa ob ta tb f g)
    (op : ℝ → ℝ → ℝ) {u v : D → ℝ} (hu : ∀ x, f.call cal x = .ok (u x)) (hv : ∀ x, g.call cal x = .ok (v x))
    (hB : ∀ (xs : List D), xs.Pairwise (· < ·) → (∀ x ∈ B.map Prod.fst, x ∈ xs) → ∀ o?' m, o?'.or xs.head? = some m → ∀ (t : Option P) x,
      (crOf cal m o?' .default none cls t (xs.map fun x => (x, v x))).call cal x = .ok (v x))
    (hAB : ∀ (xs : List D), xs.Pairwise (· < ·) → (∀ x ∈ A.map Prod.fst, x ∈ xs) → (∀ x ∈ B.map Prod.fst, x ∈ xs) →
      ∀ o?' m, o?'.or xs.head? = some m → ∀ (t : Option P) x,
      (crOf cal m o?' .default none cls t (xs.map fun x => (x, op (u x) (v x)))).call cal x = .ok (op (u x) (v x)))
    (limit : ℕ) (same₁ same₂ same₃ : D → Bool) :
    ∃ S, f.binop cal op (limit + 1) same₁ same₂ same₃ g = .ok S ∧ CreditResult cal op f g S := by
  obtain ⟨rfl, rfl⟩ := h.eq hc hp
  obtain ⟨xs, m, hxs, hxm, hxmem, hk⟩ := credit_binop h.good h.moves hc h.left h.leftNe h.rightNe h.leftOrigin h.rightOrigin h.first ta tb hu hv
    (fun h' => absurd h' (by simp [hp])) (fun ys hys hmem o?' hho x => hB ys hys (fun x hx => (hmem x).2 (.inl hx)) o?' o hho none x)
    op limit same₁ same₂ same₃
  have hxA : ∀ x ∈ A.map Prod.fst, x ∈ xs := fun x hx => (hxmem x).2 (.inl hx)
  have hxB : ∀ x ∈ B.map Prod.fst, x ∈ xs := fun x hx => (hxmem x).2 (.inr (.inl hx))
  have hst : ∀ y, storeCredit cls y = y := fun y => by simp [storeCredit, hp]
  obtain ⟨ys, o?', h1, h2, h3, h4⟩ := hk (fun x => op (u x) (v x)) (fun x => by
    simp only [hst]
    exact hAB xs hxs hxA hxB none m (by simpa using hxm) none x) (fun h' => absurd h' (by simp [hp]))
  have hfst : (ys.map fun x => (x, op (u x) (v x))).map Prod.fst = ys := graph_fst _ _
  have hsub : ∀ x ∈ xs, x ∈ ys := fun x hx => (h3 x).2 (.inl hx)
  refine ⟨_, h1, ⟨fun x => ⟨_, _, hu x, hv x, hAB ys h2 (fun x hx => hsub x (hxA x hx)) (fun x hx => hsub x (hxB x hx)) o?' m h4 ta x⟩, rfl, rfl, ?_, fun x hx => ?_, ?_, ?_, rfl⟩⟩
  · show (List.map Prod.fst _).Pairwise _
    rw [hfst]; exact h2
  · show x ∈ List.map Prod.fst _
    rw [hfst]; exact hsub x (hx.elim (hxA x) (hxB x))
  · show ∀ x ∈ List.map Prod.fst _, _
    rw [hfst]; exact (result_dates h.moves hxs h2 hxmem hxm h3 fun h' => absurd h' (by simp [hp])).2
  · show o?'.or (List.map Prod.fst _).head? = (List.map Prod.fst _).head?
    rw [hfst, h4, (result_dates h.moves hxs h2 hxmem hxm h3 fun h' => absurd h' (by simp [hp])).1]

/-- C137: sums and differences of intensity curves are pointwise at every date. -/
theorem C137_intensity_partial (h : CreditOperands cal .flat A B o oa ob ta tb f g) (limit : ℕ) (same₁ same₂ same₃ : D → Bool) :
    (∃ S, f.binop cal (· + ·) (limit + 1) same₁ same₂ same₃ g = .ok S ∧ CreditResult cal (· + ·) f g S) ∧
      ∃ S, f.binop cal (· - ·) (limit + 1) same₁ same₂ same₃ g = .ok S ∧ CreditResult cal (· - ·) f g S := by
  have hc : CRClass.flat.plain := .inr (.inr (.inl rfl))
  obtain ⟨ef, eg⟩ := h.eq hc rfl
  have hτ : GoodDayCount (DayCountArg.fn cal .default) := h.good
  have hu := crOf_linear cal (o? := oa) (dc := .default) (i := none) (cls := .flat) (tenor := ta) rfl h.leftOrigin trivial hτ h.left h.leftNe
  have hv := crOf_linear cal (o? := ob) (dc := .default) (i := none) (cls := .flat) (tenor := tb) rfl h.rightOrigin trivial hτ h.right h.rightNe
  rw [← ef] at hu
  rw [← eg] at hv
  have key : ∀ (op : ℝ → ℝ → ℝ) (a b : ℝ), (∀ x y, op x y = a * x + b * y) →
      ∃ S, f.binop cal op (limit + 1) same₁ same₂ same₃ g = .ok S ∧ CreditResult cal op f g S := by
    intro op a b hop
    have lin : ∀ (a b : ℝ) {A : List (D × ℝ)}, (A.map Prod.fst).Nodup → A ≠ [] → ∀ (xs : List D), xs.Pairwise (· < ·) →
        (∀ x ∈ A.map Prod.fst, x ∈ xs) → (∀ x ∈ B.map Prod.fst, x ∈ xs) →
        ∀ o?' m, o?'.or xs.head? = some m → ∀ (t : Option P) x, (crOf cal m o?' .default none .flat t
          (xs.map fun x => (x, a * linVal (DayCountArg.fn cal .default) o A x + b * linVal (DayCountArg.fn cal .default) o B x))).call cal x =
            .ok (a * linVal (DayCountArg.fn cal .default) o A x + b * linVal (DayCountArg.fn cal .default) o B x) := by
      intro a b A hA hA0 xs hxs hAx hBx o?' m hm t x
      have hne : xs ≠ [] := List.ne_nil_of_mem (hAx _ (List.head_mem (by simpa using hA0)))
      rw [crOf_linear cal (o? := o?') (dc := .default) (i := none) (cls := .flat) rfl (by rw [graph_fst]; exact hm) trivial hτ
        (by rw [graph_fst]; exact hxs.imp fun h => h.ne) (by simpa using hne), linVal_finer hτ hA h.right hA0 h.rightNe hxs hAx hBx]
    refine credit_rates hc rfl h op hu hv (fun xs hxs hBx o?' m hm t x => ?_) (fun xs hxs hAx hBx o?' m hm t x => ?_) limit same₁ same₂ same₃
    · have := lin 0 1 h.right h.rightNe xs hxs hBx hBx o?' m hm t x
      simpa using this
    · have := lin a b h.left h.leftNe xs hxs hAx hBx o?' m hm t x
      simpa only [hop] using this
  exact ⟨key (· + ·) 1 1 (by intros; ring), key (· - ·) 1 (-1) (by intros; ring)⟩

/-- C137: sums, differences and products of hazard rate curves are pointwise at every date. -/
theorem C137_hazard_partial (h : CreditOperands cal .hazard A B o oa ob ta tb f g) (op : ℝ → ℝ → ℝ) (limit : ℕ)
    (same₁ same₂ same₃ : D → Bool) :
    ∃ S, f.binop cal op (limit + 1) same₁ same₂ same₃ g = .ok S ∧ CreditResult cal op f g S := by
  have hc : CRClass.hazard.plain := .inr (.inr (.inr rfl))
  obtain ⟨ef, eg⟩ := h.eq hc rfl
  have hu' := fun x => hazard_left h.good h.left h.leftNe h.leftOrigin ta x
  have hv' := fun x => hazard_left h.good h.right h.rightNe h.rightOrigin tb x
  choose u hu hul using hu'
  choose v hv hvl using hv'
  rw [← ef] at hu
  rw [← eg] at hv
  have step : ∀ (op : ℝ → ℝ → ℝ) {A : List (D × ℝ)} {u : D → ℝ}, (A.map Prod.fst).Nodup → A ≠ [] → (∀ x, IsLeftDate A x (u x)) → ∀ (xs : List D), xs.Pairwise (· < ·) →
      (∀ x ∈ A.map Prod.fst, x ∈ xs) → (∀ x ∈ B.map Prod.fst, x ∈ xs) →
      ∀ o?' m, o?'.or xs.head? = some m → ∀ (t : Option P) x,
        (crOf cal m o?' .default none .hazard t (xs.map fun x => (x, op (u x) (v x)))).call cal x = .ok (op (u x) (v x)) := by
    intro op A u hA hA0 hul xs hxs hAx hBx o?' m hm t x
    have hne : xs ≠ [] := List.ne_nil_of_mem (hAx _ (List.head_mem (by simpa using hA0)))
    obtain ⟨y, h1, h2⟩ := hazard_left h.good (A := xs.map fun x => (x, op (u x) (v x))) (oa := o?') (o := m)
      (by rw [graph_fst]; exact hxs.imp fun h => h.ne) (by simpa using hne) (by rw [graph_fst]; exact hm) t x
    rw [h1, left_grid hA h.right hAx hBx hul hvl op h2]
  exact credit_rates hc rfl h op hu hv
    (fun xs hxs hBx o?' m hm t x => step (fun _ b => b) h.right h.rightNe hvl xs hxs hBx hBx o?' m hm t x)
    (fun xs hxs hAx hBx o?' m hm t x => step op h.left h.leftNe hul xs hxs hAx hBx o?' m hm t x) limit same₁ same₂ same₃

/-- C137: survival probabilities of the sum of intensity curves are the products, if the origin is the first date. -/
theorem C137_survival_partial (h : CreditOperands cal .flat A B o oa ob ta tb f g) (hmem : o ∈ A.map Prod.fst ++ B.map Prod.fst)
    (hfirst : ∀ d ∈ A.map Prod.fst ++ B.map Prod.fst, o ≤ d) (limit : ℕ) (same₁ same₂ same₃ : D → Bool) :
    ∃ S, f.binop cal (· + ·) (limit + 1) same₁ same₂ same₃ g = .ok S ∧
      ∀ same s t, (same = true → s = o) → ∃ a b, f.factor cal same s t = .ok a ∧ g.factor cal same s t = .ok b ∧
        S.factor cal same s t = .ok (a * b) := by
  obtain ⟨⟨S, hS, hR⟩, -⟩ := C137_intensity_partial h limit same₁ same₂ same₃
  obtain ⟨ef, eg⟩ := h.eq (.inr (.inr (.inl rfl))) rfl
  have hτ : GoodDayCount (DayCountArg.fn cal .default) := h.good
  have hf : CreditAnswers cal f (linVal (DayCountArg.fn cal .default) o A) (DayCountArg.fn cal .default) o := by
    rw [ef]; exact ⟨crOf_linear cal rfl h.leftOrigin trivial hτ h.left h.leftNe, crOf_dayCount cal trivial, hτ, h.leftOrigin⟩
  have hg : CreditAnswers cal g (linVal (DayCountArg.fn cal .default) o B) (DayCountArg.fn cal .default) o := by
    rw [eg]; exact ⟨crOf_linear cal rfl h.rightOrigin trivial hτ h.right h.rightNe, crOf_dayCount cal trivial, hτ, h.rightOrigin⟩
  have ho : S.base.origin = some o := by
    rw [hR.origin]
    refine head_of_min hR.sorted (hR.domain o ?_) fun d hd => ?_
    · rw [ef, eg]; simpa [crOf, dateCurveOf] using hmem
    · rcases hR.domainOnly d hd with h1 | h1 | ⟨n, hn, hlt⟩
      · rw [ef] at h1; exact hfirst d (List.mem_append_left _ h1)
      · rw [eg] at h1; exact hfirst d (List.mem_append_right _ h1)
      · rw [ef, eg] at hn
        exact (hfirst n (List.mem_append.2 hn)).trans hlt.le
  have hSa : CreditAnswers cal S (fun x => linVal (DayCountArg.fn cal .default) o A x + linVal (DayCountArg.fn cal .default) o B x)
      (DayCountArg.fn cal .default) o := by
    refine ⟨fun x => ?_, fun s e => ?_, hτ, ho⟩
    · obtain ⟨u, v, h1, h2, h3⟩ := hR.call x
      rw [hf.call] at h1; rw [hg.call] at h2
      rw [h3, ← Except.ok.inj h1, ← Except.ok.inj h2]
    · simp [CRCurve.dayCount, DateCurve.dayCount, hR.dayCount, DayCountArg.eval, DayCountArg.fn]
  obtain ⟨df, -, e1, h1, -⟩ := C38_flat hf (by rw [ef]; rfl)
  obtain ⟨dg, -, e2, h2, -⟩ := C38_flat hg (by rw [eg]; rfl)
  obtain ⟨ds, -, e3, h3, -⟩ := C38_flat hSa (by rw [hR.cls, ef]; rfl)
  refine ⟨S, hS, fun same s t hs => ⟨_, _, h1 same s t hs, h2 same s t hs, ?_⟩⟩
  rw [h3 same s t hs, e1, e2, e3, ← Real.exp_add]
  congr 2
  ring

/-- C137 (what goes wrong): credit curves of any class cannot be divided. -/
theorem C137_div_violated (limit : ℕ) (same₁ same₂ : D → Bool) (f g S : CRCurve D P) : f.div cal limit same₁ same₂ g ≠ .ok S := by
  intro e
  simp only [CRCurve.div, Py.bind_eq_ok] at e
  obtain ⟨_, _, b, _, e⟩ := e
  split_ifs at e with hb
  · simp [Py.throw_eq, Py.error_bind] at e
  · simp only [Py.pure_eq, Py.ok_bind, Py.bind_eq_ok] at e
    obtain ⟨_, _, _, _, e⟩ := e
    simp [Py.throw_eq] at e

/-- What the constructor makes of a probability. -/
noncomputable def clampedProb (cls : CRClass) (y : ℝ) : ℝ := if cls = .default then clampProb (1 - y) else clampProb y

/-- C137 (what goes wrong): at the dates of both curves the result of an operation on probabilities is cut off at one and, for
default probabilities, replaced by its complement. -/
theorem C137_dates {cls : CRClass} (hcl : cls = .survival ∨ cls = .default) (h : CreditOperands cal cls A B o oa ob ta tb f g)
    (hA1 : o ∈ A.map Prod.fst ∧ ∀ p ∈ A, o ≤ p.1) (hB1 : o ∈ B.map Prod.fst ∧ ∀ p ∈ B, o ≤ p.1) (hA2 : ∃ p ∈ A, p.1 ≠ o)
    (hB2 : ∃ p ∈ B, p.1 ≠ o) (op : ℝ → ℝ → ℝ) (limit : ℕ) (same₁ same₂ same₃ : D → Bool) :
    ∃ S, f.binop cal op (limit + 1) same₁ same₂ same₃ g = .ok S ∧ ∀ x, x ∈ A.map Prod.fst ∨ x ∈ B.map Prod.fst →
      ∃ u v, f.call cal x = .ok u ∧ g.call cal x = .ok v ∧ S.call cal x = .ok (clampedProb cls (op u v)) := by
  have hτ := h.good
  have hp : cls.isProb = true := by rcases hcl with rfl | rfl <;> rfl
  have hc : cls.plain := hcl.elim .inl (.inr ∘ .inl)
  have hst : ∀ y, storeCredit cls y = clampedProb cls y := fun y => by
    rcases hcl with rfl | rfl <;> simp [storeCredit, CRClass.isProb, clampedProb, storedProb, clampProb]
  set A' := A.map (fun p => (p.1, storedProb cls p.2)) with hA'
  set B' := B.map (fun p => (p.1, storedProb cls p.2)) with hB'
  have eA : A'.map Prod.fst = A.map Prod.fst := by rw [hA', List.map_map]; rfl
  have eB : B'.map Prod.fst = B.map Prod.fst := by rw [hB', List.map_map]; rfl
  obtain rfl : f = crOf cal o oa .default none cls ta A' := by
    have := h.newLeft
    rw [CRCurve_new_eq (cal := cal) hp h.left h.leftOrigin (dc := .default) trivial hτ] at this
    exact (Except.ok.inj this).symm
  obtain rfl : g = crOf cal o ob .default none cls tb B' := by
    have := h.newRight
    rw [CRCurve_new_eq (cal := cal) hp h.right h.rightOrigin (dc := .default) trivial hτ] at this
    exact (Except.ok.inj this).symm
  have hposA : ∀ p ∈ A', 0 < p.2 := fun p hp => by obtain ⟨q, -, rfl⟩ := List.mem_map.1 hp; exact storedProb_pos _ _
  have hposB : ∀ p ∈ B', 0 < p.2 := fun p hp => by obtain ⟨q, -, rfl⟩ := List.mem_map.1 hp; exact storedProb_pos _ _
  have hnA : (A'.map Prod.fst).Nodup := by rw [eA]; exact h.left
  have hnB : (B'.map Prod.fst).Nodup := by rw [eB]; exact h.right
  have hmoreA : ∃ p ∈ A', p.1 ≠ o := by obtain ⟨p, hp, hne⟩ := hA2; exact ⟨_, List.mem_map.2 ⟨p, hp, rfl⟩, hne⟩
  have hmoreB : ∃ p ∈ B', p.1 ≠ o := by obtain ⟨p, hp, hne⟩ := hB2; exact ⟨_, List.mem_map.2 ⟨p, hp, rfl⟩, hne⟩
  obtain ⟨⟨o1, a⟩, ha, e1⟩ := List.mem_map.1 (eA ▸ hA1.1)
  obtain ⟨⟨o2, b⟩, hb, e2⟩ := List.mem_map.1 (eB ▸ hB1.1)
  simp only at e1 e2
  subst e1 e2
  rename' o2 => o
  have hu := surv_call hτ hcl hnA hposA (by rw [eA]; exact h.leftOrigin) ha hmoreA ta
  have hv := surv_call hτ hcl hnB hposB (by rw [eB]; exact h.rightOrigin) hb hmoreB tb
  set u := survVal cal.dayCount o a (flin (zeroPts cal.dayCount o A')) with hud
  set v := survVal cal.dayCount o b (flin (zeroPts cal.dayCount o B')) with hvd
  have hSs := zeroPts_strict hτ o hnB
  have hS0 := zeroPts_ne hτ hmoreB
  have hin : ∀ {xs : List D}, (∀ x ∈ B'.map Prod.fst, x ∈ xs) → ∀ p ∈ zeroPts cal.dayCount o B', ∃ x ∈ xs, x ≠ o ∧ p.1 = cal.dayCount o x := by
    intro xs hQ p hp
    obtain ⟨q, hq, hne, rfl⟩ := (zeroPts_mem hτ).1 hp
    exact ⟨q.1, hQ _ (List.mem_map.2 ⟨q, hq, rfl⟩), hne, rfl⟩
  have hv1 : v = survVal cal.dayCount o b fun s => 0 * flin (zeroPts cal.dayCount o B') s + 1 * flin (zeroPts cal.dayCount o B') s := by
    rw [hvd]; simp
  obtain ⟨xs, m, hxs, hxm, hxmem, hk⟩ := credit_binop hτ h.moves hc hnA (List.ne_nil_of_mem ha) (List.ne_nil_of_mem hb) (by rw [eA]; exact h.leftOrigin)
    (by rw [eB]; exact h.rightOrigin) (by rw [eB]; exact h.first) ta tb hu hv
    (fun _ x => survVal_pos (hposB _ hb) _ x) (fun ys hys hmem o?' hho x => by
      have hsub : ∀ x ∈ B'.map Prod.fst, x ∈ ys := fun x hx => (hmem x).2 (.inl hx)
      rw [hv1]
      exact surv_grid hτ hcl hSs hSs hS0 hS0 hys (hsub o (eB ▸ hB1.1)) (hin hsub) (hin hsub) (hposB _ hb) _ _ hho none x)
    op limit same₁ same₂ same₃
  rw [eA, eB] at hxmem
  have hge : ∀ x ∈ xs, o ≤ x := by
    intro x hx
    rcases (hxmem x).1 hx with h1 | h1 | ⟨-, h1⟩ | ⟨n, hn, -, h1⟩
    · obtain ⟨p, hp, rfl⟩ := List.mem_map.1 h1; exact hA1.2 p hp
    · obtain ⟨p, hp, rfl⟩ := List.mem_map.1 h1; exact hB1.2 p hp
    · obtain ⟨y, hy, hlt⟩ := h.moves.day o
      rw [h1] at hy; cases hy; exact hlt.le
    · obtain ⟨y, hy, hlt⟩ := h.moves.year n
      rw [h1] at hy; cases hy
      obtain ⟨p, hp, rfl⟩ := List.mem_map.1 hn
      exact (hB1.2 p hp).trans hlt.le
  have hxA : ∀ x ∈ A.map Prod.fst, x ∈ xs := fun x hx => (hxmem x).2 (.inl hx)
  have hxB : ∀ x ∈ B.map Prod.fst, x ∈ xs := fun x hx => (hxmem x).2 (.inr (.inl hx))
  have hmo : m = o := by
    have := head_of_min hxs (hxA o hA1.1) hge
    rw [hxm] at this; exact Option.some.inj this
  subst hmo
  rename' m => o
  set st := xs.map fun x => (x, storeCredit cls (op (u x) (v x))) with hstd
  have hsf : st.map Prod.fst = xs := graph_fst _ _
  have hspos : ∀ p ∈ st, 0 < p.2 := fun p hp' => by
    obtain ⟨q, -, rfl⟩ := List.mem_map.1 hp'
    simp only [storeCredit, hp, if_true]; exact storedProb_pos _ _
  have hso : (o, storeCredit cls (op (u o) (v o))) ∈ st := List.mem_map.2 ⟨o, hxA o hA1.1, rfl⟩
  have hsm : ∃ p ∈ st, p.1 ≠ o := by
    obtain ⟨p, hp, hne⟩ := hA2
    exact ⟨_, List.mem_map.2 ⟨p.1, hxA _ (List.mem_map.2 ⟨p, hp, rfl⟩), rfl⟩, hne⟩
  have hsn : (st.map Prod.fst).Nodup := by rw [hsf]; exact hxs.imp fun h => h.ne
  have hsorg : (none : Option D).or (st.map Prod.fst).head? = some o := by rw [hsf]; exact hxm
  have hcall := surv_call hτ hcl hsn hspos hsorg hso hsm (none : Option P)
  set w := survVal cal.dayCount o (storeCredit cls (op (u o) (v o))) (flin (zeroPts cal.dayCount o st)) with hwd
  have hwpos : ∀ x, 0 < w x := fun x => survVal_pos (hspos _ hso) _ x
  obtain ⟨ys, o?', h1, h2, h3, h4⟩ := hk w hcall fun _ => hwpos
  refine ⟨_, h1, fun x hx => ⟨_, _, hu x, hv x, ?_⟩⟩
  have hxx : x ∈ xs := hx.elim (hxA x) (hxB x)
  have hwx : w x = clampedProb cls (op (u x) (v x)) := by
    have e := crOf_node cal (dc := .default) (cls := cls) (i := none) (tenor := (none : Option P)) hsorg trivial hτ hsn (fun _ => hspos) (fun _ => hsm)
      (List.mem_map.2 ⟨x, hxx, rfl⟩)
    rw [hcall x] at e
    rw [Except.ok.inj e, hst]
  have hyf : (ys.map fun x => (x, w x)).map Prod.fst = ys := graph_fst _ _
  rw [← hwx]
  refine crOf_node cal (dc := .default) (by rw [hyf]; exact h4) trivial hτ (by rw [hyf]; exact h2.imp fun h => h.ne) (fun _ p hp => ?_) (fun _ => ?_)
    (List.mem_map.2 ⟨x, (h3 x).2 (.inl hxx), rfl⟩)
  · obtain ⟨q, -, rfl⟩ := List.mem_map.1 hp; exact hwpos q
  · obtain ⟨p, hp, hne⟩ := hA2
    exact ⟨_, List.mem_map.2 ⟨p.1, (h3 _).2 (.inl (hxA _ (List.mem_map.2 ⟨p, hp, rfl⟩))), rfl⟩, hne⟩

/-- C137 (refuted): the sum of two survival probabilities of at least one half is 1, and the product of two default probability
curves has `1 - u v` where they have `u` and `v`. -/
theorem C137_probability_violated {cls : CRClass} (hcl : cls = .survival ∨ cls = .default) (h : CreditOperands cal cls A B o oa ob ta tb f g)
    (hA1 : o ∈ A.map Prod.fst ∧ ∀ p ∈ A, o ≤ p.1) (hB1 : o ∈ B.map Prod.fst ∧ ∀ p ∈ B, o ≤ p.1) (hA2 : ∃ p ∈ A, p.1 ≠ o)
    (hB2 : ∃ p ∈ B, p.1 ≠ o) (limit : ℕ) (same₁ same₂ same₃ : D → Bool) {x : D} (hx : x ∈ A.map Prod.fst ∨ x ∈ B.map Prod.fst)
    {u v : ℝ} (hu : f.call cal x = .ok u) (hv : g.call cal x = .ok v) :
    (cls = .survival → 1 / 2 ≤ u → 1 / 2 ≤ v →
      ∃ S, f.binop cal (· + ·) (limit + 1) same₁ same₂ same₃ g = .ok S ∧ S.call cal x = .ok 1) ∧
    (cls = .default → 0 ≤ u * v → floatMin ≤ 1 - u * v →
      ∃ S, f.binop cal (· * ·) (limit + 1) same₁ same₂ same₃ g = .ok S ∧ S.call cal x = .ok (1 - u * v)) := by
  have key : ∀ op : ℝ → ℝ → ℝ, ∃ S, f.binop cal op (limit + 1) same₁ same₂ same₃ g = .ok S ∧ S.call cal x = .ok (clampedProb cls (op u v)) := by
    intro op
    obtain ⟨S, hS, h'⟩ := C137_dates hcl h hA1 hB1 hA2 hB2 op limit same₁ same₂ same₃
    obtain ⟨u', v', h1, h2, h3⟩ := h' x hx
    rw [hu] at h1; rw [hv] at h2
    cases h1; cases h2
    exact ⟨S, hS, h3⟩
  have fm := floatMin_le_one
  have fp := floatMin_pos
  constructor
  · rintro rfl h1 h2
    obtain ⟨S, hS, hc⟩ := key (· + ·)
    refine ⟨S, hS, ?_⟩
    rw [hc]
    simp only [clampedProb, reduceCtorEq, if_false, clampProb]
    rw [min_eq_right (by linarith), max_eq_right (by linarith)]
  · rintro rfl h1 h2
    obtain ⟨S, hS, hc⟩ := key (· * ·)
    refine ⟨S, hS, ?_⟩
    rw [hc]
    simp only [clampedProb, if_true]
    rw [clampProb_eq h2 (by linarith)]

end

section
variable {D P : Type} [LinearOrder D] [AddCommGroup D] [IsOrderedAddMonoid D] {cal : Cal D P}

/-- C137 (refuted for dates out of order): the operand is sorted and so gets another origin, and is shifted by the difference.  The
intensity curve with `r₁` at `d₁` and `r₀` at the earlier `d₀` plus itself is `r₀ + r₁` at `d₀`, not `2 r₀`. -/
theorem C137_order_violated (hτ : GoodDayCount cal.dayCount) (hm : MovesOn cal) {d₀ d₁ : D} (hd : d₀ < d₁) (r₀ r₁ : ℝ) (t : Option P)
    (limit : ℕ) (same₁ same₂ same₃ : D → Bool) :
    ∃ f S, CRCurve.new cal .flat [d₁, d₀] [r₁, r₀] none none .default t = .ok f ∧ f.call cal d₀ = .ok r₀ ∧
      f.binop cal (· + ·) (limit + 1) same₁ same₂ same₃ f = .ok S ∧ S.call cal d₀ = .ok (r₀ + r₁) := by
  have hc : CRClass.flat.plain := .inr (.inr (.inl rfl))
  have hτ' : GoodDayCount (DayCountArg.fn cal .default) := hτ
  have hnl : (Option.getD none (CRClass.dflt .flat)).isLog = false := by
    simp [CRClass.dflt, linearScheme, FuncSpec.isLog, Kind.isLog]
  have hnz : (Option.getD none (CRClass.dflt .flat)).needsNonzero = false := by
    simp [CRClass.dflt, linearScheme, FuncSpec.needsNonzero, Kind.isRate]
  set A : List (D × ℝ) := [(d₁, r₁), (d₀, r₀)] with hA
  have hn : (A.map Prod.fst).Nodup := by simpa [hA] using hd.ne'
  have hA0 : A ≠ [] := by simp [hA]
  have hoA : (none : Option D).or (A.map Prod.fst).head? = some d₁ := rfl
  have node : ∀ {pts : List (D × ℝ)} {o : D} {o? : Option D} {t : Option P} {x : D} {y : ℝ}, o?.or (pts.map Prod.fst).head? = some o →
      (pts.map Prod.fst).Nodup → (x, y) ∈ pts → (crOf cal o o? .default none .flat t pts).call cal x = .ok y := fun ho hn hm =>
    crOf_node cal (dc := .default) ho trivial hτ' hn (fun h => absurd (hnl.symm.trans h) (by simp)) (fun h => absurd (hnz.symm.trans h) (by simp)) hm
  have lin : ∀ {pts : List (D × ℝ)} {o : D} {o? : Option D} (t : Option P), o?.or (pts.map Prod.fst).head? = some o →
      (pts.map Prod.fst).Nodup → pts ≠ [] → ∀ x, (crOf cal o o? .default none .flat t pts).call cal x = .ok (linVal (DayCountArg.fn cal .default) o pts x) :=
    fun t ho hn hne x => crOf_linear cal (dc := .default) rfl ho trivial hτ' hn hne x
  have hnew : CRCurve.new cal .flat [d₁, d₀] [r₁, r₀] none none .default t = .ok (crOf cal d₁ none .default none .flat t A) := by
    rw [CRCurve_new_rate rfl]
    exact CRCurve_make_eq cal (pts := A) (dc := .default) hn (fun h => absurd (hnl.symm.trans h) (by simp)) rfl trivial hτ
  obtain ⟨b, hb, hdb⟩ := hm.year d₁
  set ys := sortedSet ([d₁, d₀] ++ [b]) with hys
  have hys1 : ys.Pairwise (· < ·) := sortedSet_strict _
  have hysm : ∀ x, x ∈ ys ↔ x = d₁ ∨ x = d₀ ∨ x = b := fun x => by rw [hys, sortedSet_mem]; simp
  have hysn : ys.Nodup := hys1.imp fun h => h.ne
  have hysh : ys.head? = some d₀ := head_of_min hys1 ((hysm _).2 (.inr (.inl rfl))) fun x hx => by
    rcases (hysm x).1 hx with rfl | rfl | rfl
    · exact hd.le
    · exact le_rfl
    · exact (hd.trans hdb).le
  set u := linVal (DayCountArg.fn cal .default) d₁ A with hu
  have hfu := lin t hoA hn hA0
  have hu1 : u d₁ = r₁ := by
    have := hfu d₁
    rw [node (y := r₁) hoA hn (by simp [hA])] at this
    exact (Except.ok.inj this).symm
  have hu0 : u d₀ = r₀ := by
    have := hfu d₀
    rw [node (y := r₀) hoA hn (by simp [hA])] at this
    exact (Except.ok.inj this).symm
  -- the operand, sorted
  set G := ys.map fun x => (x, u x) with hG
  have hGf : G.map Prod.fst = ys := graph_fst _ _
  have hGn : (G.map Prod.fst).Nodup := by rw [hGf]; exact hysn
  have hGo : (none : Option D).or (G.map Prod.fst).head? = some d₀ := by rw [hGf]; exact hysh
  have hGne : G ≠ [] := by intro e; rw [e] at hGo; cases hGo
  have hcast : (crOf cal d₁ none .default none .flat t A).cast cal .flat (limit + 1) same₁ none none .default none =
      .ok (crOf cal d₀ none .default none .flat none G) := by
    simp only [CRCurve.cast, CRClass.isProb, Bool.false_eq_true, if_false]
    rw [show (crOf cal d₁ none .default none .flat t A).base.domain = [d₁, d₀] from rfl, maxDate_eq (m := d₁) (by simp) (by
      intro x hx; simp at hx; rcases hx with rfl | rfl; exacts [le_rfl, hd.le]), Py.ok_bind, hb, Py.ok_bind]
    exact credit_castOn_own (org := none) (o? := none) hτ hc hoA (fun y _ => hfu y) (fun h => absurd h (by simp [CRClass.isProb])) hysn hysh limit same₁
  -- and shifted
  set δ := d₁ - d₀ with hδ
  have hδ0 : 0 < δ := sub_pos.2 hd
  have hδ1 : d₀ + δ = d₁ := by rw [hδ]; abel
  set zs := ys.map (· + δ) with hzs
  set v := linVal (DayCountArg.fn cal .default) d₀ G with hv
  have hgv := lin (none : Option P) hGo hGn hGne
  have hv1 : v d₁ = r₁ := by
    have := hgv d₁
    rw [node (y := u d₁) hGo hGn (List.mem_map.2 ⟨d₁, (hysm _).2 (.inl rfl), rfl⟩)] at this
    rw [← hu1]; exact (Except.ok.inj this).symm
  have hzn : zs.Nodup := hysn.map (add_left_injective δ)
  have hzh : zs.head? = some d₁ := by rw [hzs, List.head?_map, hysh]; simp [hδ1]
  set H := zs.map fun x => (x, v x) with hH
  have hHf : H.map Prod.fst = zs := graph_fst _ _
  have hHn : (H.map Prod.fst).Nodup := by rw [hHf]; exact hzn
  have hHo : (none : Option D).or (H.map Prod.fst).head? = some d₁ := by rw [hHf]; exact hzh
  have hHne : H ≠ [] := by intro e; rw [e] at hHo; cases hHo
  have hop : (crOf cal d₁ none .default none .flat t A).operand cal (limit + 1) same₁ same₂ (crOf cal d₁ none .default none .flat t A) =
      .ok (crOf cal d₁ none .default none .flat none H) := by
    simp only [CRCurve.operand]
    rw [show (crOf cal d₁ none .default none .flat t A).cls = .flat from rfl, hcast, Py.ok_bind]
    have hod : originDiff (crOf cal d₁ none .default none .flat t A).base (crOf cal d₀ none .default none .flat none G : CRCurve D P).base = .ok δ := by
      have e1 : (crOf cal d₁ none .default none .flat t A).base.origin = some d₁ := rfl
      have e2 : (crOf cal d₀ none .default none .flat none G : CRCurve D P).base.origin = some d₀ := hGo
      simp [originDiff, e1, e2, pyDate, hδ]
    rw [hod, Py.ok_bind]
    simp only [CRCurve.shifted]
    rw [shift_grid, show (crOf cal d₀ none .default none .flat none G : CRCurve D P).base.domain = ys from hGf]
    exact credit_castOn_own (org := none) (o? := none) hτ hc hGo (fun y _ => hgv y) (fun h => absurd h (by simp [CRClass.isProb])) hzn hzh limit same₂
  set w := linVal (DayCountArg.fn cal .default) d₁ H with hw
  have hhw := lin (none : Option P) hHo hHn hHne
  have hzge : ∀ x ∈ zs, d₁ ≤ x := by
    intro x hx
    obtain ⟨y, hy, rfl⟩ := List.mem_map.1 hx
    rw [← hδ1]
    exact add_le_add_left ((head_min hys1 hysh).2 y hy) δ
  have hw0 : w d₀ = r₁ := by
    have hne : sortPairs (timePts (DayCountArg.fn cal .default) d₁ H) ≠ [] := sortPairs_ne_nil (by simpa [timePts] using hHne)
    have hle : ∀ x, x ≤ d₁ → ∀ p ∈ sortPairs (timePts (DayCountArg.fn cal .default) d₁ H), DayCountArg.fn cal .default d₁ x ≤ p.1 := by
      intro x hx p hp
      obtain ⟨q, hq, rfl⟩ := List.mem_map.1 ((sortPairs_perm _).subset hp)
      have : q.1 ∈ zs := by rw [← hHf]; exact List.mem_map.2 ⟨q, hq, rfl⟩
      exact le_of_not_gt fun h => absurd ((hτ'.lt_iff d₁ _ _).1 h) (hx.trans (hzge _ this)).not_gt
    have e : w d₀ = w d₁ := by
      simp only [hw, linVal]
      rw [flin_left hne (hle d₀ hd.le), flin_left hne (hle d₁ le_rfl)]
    have := hhw d₁
    rw [node (y := v d₁) hHo hHn (List.mem_map.2 ⟨d₁, List.mem_of_mem_head? hzh, rfl⟩)] at this
    rw [e, ← hv1]; exact (Except.ok.inj this).symm
  obtain ⟨xs, m, hxs, hxm, hxmem, hk⟩ := credit_binop_tail hτ hm hc hA0 hoA t hfu (g₁ := crOf cal d₁ none .default none .flat none H) hHf hhw (· + ·) same₃ hop
  have hst : ∀ y, storeCredit .flat y = y := fun y => by simp [storeCredit, CRClass.isProb]
  simp only [hst] at hk
  set K := xs.map fun x => (x, u x + w x) with hK
  have hKf : K.map Prod.fst = xs := graph_fst _ _
  have hKo : (none : Option D).or (K.map Prod.fst).head? = some m := by rw [hKf]; exact hxm
  have hKn : (K.map Prod.fst).Nodup := by rw [hKf]; exact hxs.imp fun h => h.ne
  have hKne : K ≠ [] := by intro e; rw [e] at hKo; cases hKo
  have hkl := lin (none : Option P) hKo hKn hKne
  obtain ⟨zs', o?', h1, h2, h3, h4⟩ := hk _ hkl (fun h => absurd h (by simp [CRClass.isProb]))
  have h0x : d₀ ∈ xs := (hxmem d₀).2 (.inl (by simp [hA]))
  refine ⟨_, _, hnew, node hoA hn (by simp [hA]), h1, ?_⟩
  have e : linVal (DayCountArg.fn cal .default) m K d₀ = r₀ + r₁ := by
    have := hkl d₀
    rw [node (y := u d₀ + w d₀) hKo hKn (List.mem_map.2 ⟨d₀, h0x, rfl⟩), hu0, hw0] at this
    exact (Except.ok.inj this).symm
  exact node (by rw [graph_fst]; exact h4) (by rw [graph_fst]; exact h2.imp fun h => h.ne)
    (List.mem_map.2 ⟨d₀, (h3 _).2 (.inl h0x), by rw [← e]⟩)

end

/-- C137 (refuted for dates that are numbers): no credit curve with a date can be added, subtracted or multiplied. -/
theorem C137_float_violated (op : ℝ → ℝ → ℝ) (limit : ℕ) (same₁ same₂ same₃ : ℝ → Bool) (f g : CRCurve ℝ FloatPeriod)
    (hg : g.base.domain ≠ []) : f.binop floatCal op limit same₁ same₂ same₃ g = .error .type := by
  obtain ⟨m, hml, hmax⟩ := exists_max hg
  have ho : ∃ o, g.base.origin = some o := by
    obtain ⟨a, l, hal⟩ := List.exists_cons_of_ne_nil hg
    simp only [DateCurve.origin, hal]
    cases g.base.origin? <;> simp
  obtain ⟨o, ho⟩ := ho
  have hcast : g.cast floatCal f.cls limit same₁ none none .default none = .error .type := by
    have e1 : ∀ x, floatCal.add x floatCal.oneDay = .error .type := fun _ => rfl
    have e2 : ∀ x, floatCal.add x floatCal.oneYear = .error .type := fun _ => rfl
    cases hp : f.cls.isProb with
    | true => simp [CRCurve.cast, hp, ho, pyDate, e1]
    | false => simp [CRCurve.cast, hp, maxDate_eq hml hmax, e2]
  simp [CRCurve.binop, CRCurve.operand, hcast]

theorem movesOn_day : MovesOn dayCal :=
  ⟨fun x => ⟨x + 1, rfl, by omega⟩, fun x => ⟨x + 365, rfl, by omega⟩⟩

/-- A survival curve with intensity one, from two points. -/
theorem unit_survival {n : ℤ} (hn : 0 < n) (x : ℤ) : (crOf dayCal 0 none .default none .survival (none : Option ℤ)
    [(0, 1), (n, Real.exp (-dayCal.dayCount 0 n))]).call dayCal x = .ok (Real.exp (-dayCal.dayCount 0 x)) := by
  have hτ : GoodDayCount dayCal.dayCount := goodDayCount_int
  have hnd : (([(0, 1), (n, Real.exp (-dayCal.dayCount 0 n))] : List (ℤ × ℝ)).map Prod.fst).Nodup := by simpa using hn.ne
  have hmore : ∃ p ∈ ([(0, 1), (n, Real.exp (-dayCal.dayCount 0 n))] : List (ℤ × ℝ)), p.1 ≠ 0 := ⟨_, List.mem_cons_of_mem _ (List.mem_singleton.2 rfl), hn.ne'⟩
  rw [surv_call hτ (.inl rfl) hnd (by intro p hp; fin_cases hp <;> simp [Real.exp_pos]) rfl (a := 1) (by simp) hmore]
  have hz : ∀ t, flin (zeroPts dayCal.dayCount 0 [(0, 1), (n, Real.exp (-dayCal.dayCount 0 n))]) t = 1 := by
    intro t
    have := flin_bounds (a := 1) (b := 1) (zeroPts_strict hτ 0 hnd) (zeroPts_ne hτ hmore) (fun p hp => ?_) t
    · exact le_antisymm this.2 this.1
    · obtain ⟨q, hq, hne, rfl⟩ := (zeroPts_mem hτ).1 hp
      simp only [List.mem_cons, List.not_mem_nil, or_false] at hq
      rcases hq with rfl | rfl
      · exact absurd rfl hne
      · simp [hτ.ne_zero hn.ne]
  unfold survVal
  split_ifs with h
  · subst h; simp [hτ.self]
  · rw [hz, one_mul]

/-- The hypotheses are met: the product of two survival curves of intensity one, with different dates. -/
example (limit : ℕ) (same₁ same₂ same₃ : ℤ → Bool) :
    ∃ f g S : CRCurve ℤ ℤ, CRCurve.new dayCal .survival [0, 365] [1, Real.exp (-dayCal.dayCount 0 365)] none none .default none = .ok f ∧
      CRCurve.new dayCal .survival [0, 730] [1, Real.exp (-dayCal.dayCount 0 730)] none none .default none = .ok g ∧
      f.binop dayCal (· * ·) (limit + 1) same₁ same₂ same₃ g = .ok S ∧ CreditResult dayCal (· * ·) f g S := by
  have hτ : GoodDayCount dayCal.dayCount := goodDayCount_int
  have hsmall : ∀ t : ℝ, t ≤ 6 → floatMin ≤ Real.exp (-t) := by
    intro t ht
    have h3 : Real.exp 1 ≤ 4 := Real.exp_one_lt_three.le.trans (by norm_num)
    have h1 : Real.exp 6 ≤ 4 ^ 6 := by
      rw [show (6 : ℝ) = ((6 : ℕ) : ℝ) * 1 by norm_num, Real.exp_nat_mul]
      exact pow_le_pow_left₀ (Real.exp_pos _).le h3 6
    calc floatMin = ((1 : ℝ) / 2) ^ 1022 := rfl
      _ ≤ (1 / 2) ^ 12 := pow_le_pow_of_le_one (by norm_num) (by norm_num) (by norm_num)
      _ = (4 ^ 6 : ℝ)⁻¹ := by norm_num
      _ ≤ (Real.exp 6)⁻¹ := inv_anti₀ (Real.exp_pos _) h1
      _ = Real.exp (-6) := (Real.exp_neg 6).symm
      _ ≤ Real.exp (-t) := Real.exp_le_exp.2 (by linarith)
  have hdc : ∀ n : ℤ, dayCal.dayCount 0 n = (n : ℝ) / (36525 / 100) := fun n => by simp [dayCal]
  have hone : ∀ n : ℤ, 0 ≤ n → Real.exp (-dayCal.dayCount 0 n) ≤ 1 := fun n hn => by
    rw [Real.exp_le_one_iff, hdc]
    have : (0 : ℝ) ≤ n := by exact_mod_cast hn
    have : 0 ≤ (n : ℝ) / (36525 / 100) := by positivity
    linarith
  have hrange : ∀ n : ℤ, 0 ≤ n → n ≤ 730 → ∀ p ∈ [((0 : ℤ), (1 : ℝ)), (n, Real.exp (-dayCal.dayCount 0 n))], floatMin ≤ p.2 ∧ p.2 ≤ 1 := by
    intro n hn hn2 p hp
    simp only [List.mem_cons, List.not_mem_nil, or_false] at hp
    rcases hp with rfl | rfl
    · exact ⟨by have := hsmall 0 (by norm_num); simpa using this, le_rfl⟩
    · refine ⟨hsmall _ ?_, hone n hn⟩
      rw [hdc]
      have : (n : ℝ) ≤ 730 := by exact_mod_cast hn2
      rw [div_le_iff₀ (by norm_num)]; linarith
  have hcd : CRClass.survival ≠ .default ∧ CRClass.survival ≠ .marginalDefault := by decide
  have n1 := CRCurve_new_eq (cal := dayCal) (cls := .survival) (pts := [(0, 1), (365, Real.exp (-dayCal.dayCount 0 365))]) (i := none)
    (o? := none) (o := 0) (dc := .default) (tenor := none) rfl (by decide) rfl trivial hτ
  have n2 := CRCurve_new_eq (cal := dayCal) (cls := .survival) (pts := [(0, 1), (730, Real.exp (-dayCal.dayCount 0 730))]) (i := none)
    (o? := none) (o := 0) (dc := .default) (tenor := none) rfl (by decide) rfl trivial hτ
  rw [stored_graph hcd (hrange 365 (by norm_num) (by norm_num))] at n1
  rw [stored_graph hcd (hrange 730 (by norm_num) (by norm_num))] at n2
  have h : CreditOperands dayCal .survival [(0, 1), (365, Real.exp (-dayCal.dayCount 0 365))] [(0, 1), (730, Real.exp (-dayCal.dayCount 0 730))]
      0 none none none none _ _ :=
    ⟨hτ, movesOn_day, by decide, by decide, by simp, by simp, rfl, rfl, .inr ⟨by simp, by decide⟩, n1, n2⟩
  have hs : SurvivalOperands ([(0, 1), (365, Real.exp (-dayCal.dayCount 0 365))] : List (ℤ × ℝ)) [(0, 1), (730, Real.exp (-dayCal.dayCount 0 730))] 0 :=
    ⟨⟨by simp, by simp⟩, ⟨by simp, by simp⟩, ⟨_, List.mem_cons_of_mem _ (List.mem_singleton.2 rfl), show (365 : ℤ) ≠ 0 by decide⟩, ⟨_, List.mem_cons_of_mem _ (List.mem_singleton.2 rfl), show (730 : ℤ) ≠ 0 by decide⟩,
      hrange 365 (by norm_num) (by norm_num), hrange 730 (by norm_num) (by norm_num)⟩
  obtain ⟨S, hS, hR, -⟩ := C137_product_partial h hs (fun x a b hx ha hb => by
    rw [unit_survival (by norm_num)] at ha hb
    cases ha; cases hb
    rw [← Real.exp_add, ← neg_add]
    refine hsmall _ ?_
    have hx' : x ≤ 1095 := by
      rcases hx with hx | hx | ⟨-, hx⟩ | ⟨m, hm, -, hx⟩
      · simp at hx; omega
      · simp at hx; omega
      · have := Except.ok.inj hx; simp [dayCal] at this; omega
      · have := Except.ok.inj hx; simp [dayCal] at this hm; omega
    rw [hdc]
    have : (x : ℝ) ≤ 1095 := by exact_mod_cast hx'
    have : (x : ℝ) / (36525 / 100) ≤ 3 := by rw [div_le_iff₀ (by norm_num)]; linarith
    linarith) limit same₁ same₂ same₃
  exact ⟨_, _, S, n1, n2, hS, hR⟩

/-- The hypotheses are met for intensities: 1% and 2% a year make 3%. -/
example (limit : ℕ) (same₁ same₂ same₃ : ℤ → Bool) :
    ∃ f g S : CRCurve ℤ ℤ, CRCurve.new dayCal .flat [0, 365] [1 / 100, 2 / 100] none none .default none = .ok f ∧
      CRCurve.new dayCal .flat [0] [2 / 100] none none .default none = .ok g ∧
      f.binop dayCal (· + ·) (limit + 1) same₁ same₂ same₃ g = .ok S ∧ CreditResult dayCal (· + ·) f g S := by
  have hτ : GoodDayCount dayCal.dayCount := goodDayCount_int
  have n1 := CRCurve_make_eq dayCal (cls := .flat) (pts := [(0, 1 / 100), (365, 2 / 100)]) (i := none) (o? := none) (o := 0) (dc := .default)
    (tenor := none) (by decide) (by simp [CRClass.dflt, linearScheme, FuncSpec.isLog, Kind.isLog]) rfl trivial hτ
  have n2 := CRCurve_make_eq dayCal (cls := .flat) (pts := [(0, 2 / 100)]) (i := none) (o? := none) (o := 0) (dc := .default)
    (tenor := none) (by decide) (by simp [CRClass.dflt, linearScheme, FuncSpec.isLog, Kind.isLog]) rfl trivial hτ
  rw [← CRCurve_new_rate rfl] at n1 n2
  obtain ⟨⟨S, hS, hR⟩, -⟩ := C137_intensity_partial (f := _) (g := _) ⟨hτ, movesOn_day, by decide, by decide, by simp, by simp, rfl, rfl, .inr ⟨by simp, by decide⟩, n1, n2⟩
    limit same₁ same₂ same₃
  exact ⟨_, _, S, n1, n2, hS, hR⟩

/-! ### The hypotheses can be met: each theorem applied -/

/-- Two curves of rates over common origin `0`. -/
theorem exRateCurves (cls : CRClass) (hp : cls.isProb = false) (hc : cls.plain): ∃ f g : CRCurve ℤ ℤ,
    CreditOperands dayCal cls [(0, 1 / 100), (365, 2 / 100)] [(0, 2 / 100)] 0 none none none none f g := by
  have hτ : GoodDayCount dayCal.dayCount := goodDayCount_int
  have hl : ∀ pts : List (ℤ × ℝ), (Option.getD none cls.dflt).isLog → ∀ p ∈ pts, 0 < p.2 := fun pts h => absurd (plain_log hc h) (by simp [hp])
  have n1 := CRCurve_make_eq dayCal (cls := cls) (pts := [(0, 1 / 100), (365, 2 / 100)]) (i := none) (o? := none) (o := 0) (dc := .default)
    (tenor := none) (by decide) (hl _) rfl trivial hτ
  have n2 := CRCurve_make_eq dayCal (cls := cls) (pts := [(0, 2 / 100)]) (i := none) (o? := none) (o := 0) (dc := .default)
    (tenor := none) (by decide) (hl _) rfl trivial hτ
  rw [← CRCurve_new_rate hp] at n1 n2
  exact ⟨_, _, hτ, movesOn_day, by decide, by decide, by simp, by simp, rfl, rfl, .inr ⟨by simp, by decide⟩, n1, n2⟩

example (limit : ℕ) (same₁ same₂ same₃ : ℤ → Bool) : True := by
  obtain ⟨f, g, h⟩ := exRateCurves .hazard rfl (by simp [CRClass.plain])
  have := C137_hazard_partial h (· + ·) limit same₁ same₂ same₃
  obtain ⟨f, g, h⟩ := exRateCurves .flat rfl (by simp [CRClass.plain])
  have := C137_survival_partial h (by simp) (by simp) limit same₁ same₂ same₃
  trivial

/-- Two curves of survival probabilities with different dates. -/
theorem exProbabilities : ∃ f g : CRCurve ℤ ℤ,
    CreditOperands dayCal .survival [(0, 1), (365, 9 / 10)] [(0, 1), (730, 8 / 10)] 0 none none none none f g :=
  ⟨_, _, goodDayCount_int, movesOn_day, by decide, by decide, by simp, by simp, rfl, rfl, .inr ⟨by simp, by decide⟩,
    CRCurve_new_eq (cal := dayCal) (cls := .survival) (pts := [(0, 1), (365, 9 / 10)]) (i := none)
      (o? := none) (o := 0) (dc := .default) (tenor := none) rfl (by decide) rfl trivial goodDayCount_int,
    CRCurve_new_eq (cal := dayCal) (cls := .survival) (pts := [(0, 1), (730, 8 / 10)]) (i := none)
      (o? := none) (o := 0) (dc := .default) (tenor := none) rfl (by decide) rfl trivial goodDayCount_int⟩

example (limit : ℕ) (same₁ same₂ same₃ : ℤ → Bool) : True := by
  obtain ⟨f, g, h⟩ := exProbabilities
  obtain ⟨S, -, hS⟩ := C137_dates (.inl rfl) h (by simp) (by simp) ⟨_, List.mem_cons_of_mem _ (List.mem_singleton.2 rfl), by simp⟩
    ⟨_, List.mem_cons_of_mem _ (List.mem_singleton.2 rfl), by simp⟩ (· * ·) limit same₁ same₂ same₃
  obtain ⟨u, v, hu, hv, -⟩ := hS 365 (by simp)
  have := C137_probability_violated (.inl rfl) h (by simp) (by simp) ⟨_, List.mem_cons_of_mem _ (List.mem_singleton.2 rfl), by simp⟩
    ⟨_, List.mem_cons_of_mem _ (List.mem_singleton.2 rfl), by simp⟩ limit same₁ same₂ same₃ (by simp) hu hv
  trivial

example (limit : ℕ) (same₁ same₂ same₃ : ℤ → Bool) := C137_order_violated (cal := dayCal) goodDayCount_int movesOn_day (d₀ := 0) (d₁ := 365)
  (by norm_num) (1 / 100) (2 / 100) none limit same₁ same₂ same₃

end Dcf
