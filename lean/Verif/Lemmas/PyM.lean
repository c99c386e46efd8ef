import Verif.Model.Pricer
import Verif.Lemmas.Py

/-! # Lemmas on computations with state -/

namespace Dcf.PyM

variable {σ α β : Type}

@[simp] theorem pure_run (a : α) (s : σ) : (pure a : PyM σ α) s = (.ok a, s) := rfl

theorem bind_run (m : PyM σ α) (f : α → PyM σ β) (s : σ) :
    (m >>= f) s = match m s with
      | (.ok a, s') => f a s'
      | (.error e, s') => (.error e, s') := rfl

theorem bind_ok {m : PyM σ α} {f : α → PyM σ β} {s s' : σ} {a : α} (h : m s = (.ok a, s')) :
    (m >>= f) s = f a s' := by rw [bind_run, h]

theorem bind_error {m : PyM σ α} {f : α → PyM σ β} {s s' : σ} {e : PyErr} (h : m s = (.error e, s')) :
    (m >>= f) s = (.error e, s') := by rw [bind_run, h]

theorem bind_eq_ok {m : PyM σ α} {f : α → PyM σ β} {s s'' : σ} {b : β} :
    (m >>= f) s = (.ok b, s'') ↔ ∃ a s', m s = (.ok a, s') ∧ f a s' = (.ok b, s'') := by
  rw [bind_run]
  rcases m s with ⟨a | a, s'⟩
  · simp
  · constructor
    · intro h; exact ⟨a, s', rfl, h⟩
    · rintro ⟨a', t, h, h'⟩
      cases h
      exact h'

@[simp] theorem lift_run (x : Py α) (s : σ) : (PyM.lift x : PyM σ α) s = (x, s) := rfl
@[simp] theorem get_run (s : σ) : (PyM.get : PyM σ σ) s = (.ok s, s) := rfl
@[simp] theorem modify_run (f : σ → σ) (s : σ) : PyM.modify f s = (.ok (), f s) := rfl

theorem get_bind (f : σ → PyM σ β) (s : σ) : ((PyM.get : PyM σ σ) >>= f) s = f s s := rfl
theorem lift_ok_bind (a : α) (f : α → PyM σ β) (s : σ) : ((PyM.lift (.ok a) : PyM σ α) >>= f) s = f a s := rfl
theorem lift_error_bind (e : PyErr) (f : α → PyM σ β) (s : σ) :
    ((PyM.lift (.error e) : PyM σ α) >>= f) s = (.error e, s) := rfl
theorem modify_bind (g : σ → σ) (f : Unit → PyM σ β) (s : σ) : (PyM.modify g >>= f) s = f () (g s) := rfl

theorem bind_lift_run (m : PyM σ α) (f : α → Py β) (s : σ) :
    (m >>= fun a => PyM.lift (f a)) s = ((m s).1 >>= f, (m s).2) := by
  rw [bind_run]
  rcases m s with ⟨a | a, s'⟩ <;> rfl

end Dcf.PyM
