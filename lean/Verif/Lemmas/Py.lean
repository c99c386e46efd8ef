import Verif.Py

/-! # Basic facts about the python primitives -/

namespace Dcf

section
variable {K : Type} [Field K] [LinearOrder K]

theorem pyDiv_ok {a b : K} (h : b ≠ 0) : pyDiv a b = .ok (a / b) := by simp [pyDiv, h]

@[simp] theorem pyDiv_zero (a : K) : pyDiv a 0 = .error .zeroDivision := by simp [pyDiv]

theorem pyDiv_eq_ok {a b c : K} : pyDiv a b = .ok c ↔ b ≠ 0 ∧ c = a / b := by
  unfold pyDiv; split <;> simp_all [eq_comm]

omit [LinearOrder K] in
theorem foldl_add_eq (l : List K) (a : K) : l.foldl (· + ·) a = a + l.sum := by
  induction l generalizing a with
  | nil => simp
  | cons b l ih => simp [ih, add_assoc]

omit [LinearOrder K] in
@[simp] theorem pySum_eq (l : List K) : pySum l = l.sum := by simp [pySum, foldl_add_eq]
end

@[simp] theorem pyMap_nil {α β} (f : α → Py β) : pyMap f [] = .ok [] := rfl

theorem pyMap_cons {α β} (f : α → Py β) (a : α) (l : List α) :
    pyMap f (a :: l) = (do let b ← f a; let bs ← pyMap f l; .ok (b :: bs)) := rfl

theorem pyMap_ok {α β} {f : α → Py β} {g : α → β} {l : List α} (h : ∀ a ∈ l, f a = .ok (g a)) :
    pyMap f l = .ok (l.map g) := by
  induction l with
  | nil => rfl
  | cons a l ih =>
    rw [pyMap_cons, h a (by simp), ih fun b hb => h b (by simp [hb])]
    rfl

theorem pyMap_eq_ok {α β} {f : α → Py β} {l : List α} {bs : List β} :
    pyMap f l = .ok bs ↔ List.Forall₂ (fun a b => f a = .ok b) l bs := by
  induction l generalizing bs with
  | nil => cases bs <;> simp [pyMap]
  | cons a l ih =>
    rw [pyMap_cons]
    cases bs with
    | nil => cases h : f a <;> simp; cases h2 : pyMap f l <;> simp
    | cons b bs =>
      rw [List.forall₂_cons, ← ih]
      cases h : f a <;> simp
      cases h2 : pyMap f l <;> simp

theorem pyMap_append {α β} (f : α → Py β) (l₁ l₂ : List α) :
    pyMap f (l₁ ++ l₂) = (do let a ← pyMap f l₁; let b ← pyMap f l₂; .ok (a ++ b)) := by
  induction l₁ with
  | nil => simp; cases pyMap f l₂ <;> rfl
  | cons a l ih =>
    rw [List.cons_append, pyMap_cons, pyMap_cons, ih]
    cases f a <;> simp

theorem pyMap_length {α β} {f : α → Py β} {l : List α} {bs : List β} (h : pyMap f l = .ok bs) :
    bs.length = l.length := ((pyMap_eq_ok.1 h).length_eq).symm

theorem pyMap_congr {α β} {f g : α → Py β} {l : List α} (h : ∀ a ∈ l, f a = g a) :
    pyMap f l = pyMap g l := by
  induction l with
  | nil => rfl
  | cons a l ih =>
    rw [pyMap_cons, pyMap_cons, h a (by simp), ih fun b hb => h b (by simp [hb])]

theorem pyMap_error {α β} {f : α → Py β} {l : List α} {e : PyErr} (h : ∀ a ∈ l, f a = .error e)
    (hl : l ≠ []) : pyMap f l = .error e := by
  cases l with
  | nil => exact absurd rfl hl
  | cons a l => rw [pyMap_cons, h a (by simp)]; rfl

theorem pyIndex_ok {α} {l : List α} {i : ℕ} (h : i < l.length) : pyIndex l i = .ok l[i] := by
  simp [pyIndex, h]

theorem pyIndex_eq_ok {α} {l : List α} {i : ℕ} {a : α} : pyIndex l i = .ok a ↔ l[i]? = some a := by
  unfold pyIndex; split <;> simp_all

theorem pyLog_ok {x : ℝ} (h : 0 < x) : pyLog x = .ok (Real.log x) := by simp [pyLog, h]

theorem pyLog_error {x : ℝ} (h : x ≤ 0) : pyLog x = .error .value := by simp [pyLog, h.not_gt]

theorem pySqrt_ok {x : ℝ} (h : 0 ≤ x) : pySqrt x = .ok (Real.sqrt x) := by simp [pySqrt, h]

theorem pyPow_ok {x y : ℝ} (h : 0 < x) : pyPow x y = .ok (x ^ y) := by simp [pyPow, h]

theorem pyPow_zero_neg {y : ℝ} (h : y < 0) : pyPow 0 y = .error .value := by simp [pyPow, h]

/-- A negative base with an integral exponent. -/
theorem pyPow_neg_int {x : ℝ} (h : x < 0) (n : ℤ) : pyPow x n = .ok (x ^ n) := by
  have hex : ∃ m : ℤ, (m : ℝ) = (n : ℝ) := ⟨n, rfl⟩
  have hc : hex.choose = n := by exact_mod_cast hex.choose_spec
  unfold pyPow
  rw [if_neg h.not_gt, if_neg h.ne, dif_pos hex, hc]

theorem pyMap_map {α β γ} (f : β → Py γ) (g : α → β) (l : List α) :
    pyMap f (l.map g) = pyMap (fun a => f (g a)) l := by
  induction l with
  | nil => rfl
  | cons a l ih => simp only [List.map_cons, pyMap, ih]

theorem Dict.get_set {α β : Type} [DecidableEq α] (d : Dict α β) (k x : α) (v : β) :
    (Dict.set d k v).get x = if k = x then some v else d.get x := by
  induction d with
  | nil => simp [Dict.set, Dict.get]
  | cons p l ih =>
    obtain ⟨a, b⟩ := p
    simp only [Dict.set]
    by_cases h : a = k
    · subst h; simp only [if_true, Dict.get]; by_cases hx : a = x <;> simp [hx]
    · rw [if_neg h]
      simp only [Dict.get, ih]
      by_cases hx : a = x
      · subst hx; simp [Ne.symm h]
      · simp [hx]

/-! ### Loops -/

theorem runWhile_mono {σ} {cond : σ → Py Bool} {body : σ → Py σ} {n : ℕ} {s : σ} {r : Py σ}
    (h : runWhile cond body n s = some r) {m : ℕ} (hm : n ≤ m) : runWhile cond body m s = some r := by
  induction n generalizing s m with
  | zero => simp [runWhile] at h
  | succ n ih =>
    obtain ⟨m, rfl⟩ : ∃ k, m = k + 1 := ⟨m - 1, by omega⟩
    simp only [runWhile] at h ⊢
    cases hc : cond s with
    | error e => simpa [hc] using h
    | ok b =>
      cases b with
      | false => simpa [hc] using h
      | true =>
        cases hb : body s with
        | error e => simpa [hc, hb] using h
        | ok s' => simp only [hc, hb] at h ⊢; exact ih h (by omega)

theorem pyWhile_of_run {σ} {cond : σ → Py Bool} {body : σ → Py σ} {n : ℕ} {s : σ} {r : Py σ}
    (h : runWhile cond body n s = some r) : pyWhile cond body s = r := by
  have hex : ∃ n r, runWhile cond body n s = some r := ⟨n, r, h⟩
  unfold pyWhile
  rw [dif_pos hex]
  have h1 := runWhile_mono hex.choose_spec.choose_spec (le_max_left hex.choose n)
  have h2 := runWhile_mono h (le_max_right hex.choose n)
  rw [h1] at h2
  exact Option.some.inj h2

/-- One round of a loop. -/
theorem pyWhile_step {σ} (cond : σ → Py Bool) (body : σ → Py σ) (s : σ) :
    pyWhile cond body s = (do
      if ← cond s then do
        let s' ← body s
        pyWhile cond body s'
      else .ok s) := by
  cases hc : cond s with
  | error e => exact pyWhile_of_run (n := 1) (by simp [runWhile, hc])
  | ok b =>
    cases b with
    | false => exact pyWhile_of_run (n := 1) (by simp [runWhile, hc])
    | true =>
      cases hb : body s with
      | error e => exact pyWhile_of_run (n := 1) (by simp [runWhile, hc, hb])
      | ok s' =>
        simp only [Py.ok_bind, if_true]
        by_cases hex : ∃ n r, runWhile cond body n s' = some r
        · obtain ⟨n, r, h⟩ := hex
          rw [pyWhile_of_run h]
          exact pyWhile_of_run (n := n + 1) (by simp [runWhile, hc, hb, h])
        · have hex' : ¬ ∃ n r, runWhile cond body n s = some r := by
            rintro ⟨n, r, h⟩
            cases n with
            | zero => simp [runWhile] at h
            | succ n => simp only [runWhile, hc, hb] at h; exact hex ⟨n, r, h⟩
          unfold pyWhile
          rw [dif_neg hex, dif_neg hex']

/-- A loop whose body never leaves an invariant set on which the condition is true does not end. -/
theorem pyWhile_diverges {σ} {cond : σ → Py Bool} {body : σ → Py σ} {s : σ} (I : σ → Prop) (h0 : I s)
    (hc : ∀ s, I s → cond s = .ok true) (hb : ∀ s, I s → ∃ s', body s = .ok s' ∧ I s') :
    pyWhile cond body s = .error .diverges := by
  unfold pyWhile
  rw [dif_neg]
  rintro ⟨n, r, h⟩
  induction n generalizing s with
  | zero => simp [runWhile] at h
  | succ n ih =>
    obtain ⟨s', hs', hI⟩ := hb s h0
    simp only [runWhile, hc s h0, hs'] at h
    exact ih hI h

end Dcf
