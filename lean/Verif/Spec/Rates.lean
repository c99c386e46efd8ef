import Verif.Spec.Dates

/-! # Specification vocabulary for rates and discount factors -/

namespace Dcf.Spec

variable {D : Type}

/-- What is expected of discount factors. -/
structure DiscountLaws (df : D → D → ℝ) : Prop where
  self : ∀ t, df t t = 1
  mul : ∀ s t u, df s t * df t u = df s u
  pos : ∀ s t, 0 < df s t

/-- Zero rates over a longer period are the time-weighted average of the rates of its parts. -/
def Averages (z τ : D → D → ℝ) : Prop :=
  ∀ s t u, z s t * τ s t + z t u * τ t u = z s u * τ s u

/-- `Σ df(t_i) τ(t_(i-1), t_i)` over consecutive dates. -/
noncomputable def annuity (df : D → ℝ) (τ : D → D → ℝ) : List D → ℝ
  | s :: e :: l => df e * τ s e + annuity df τ (e :: l)
  | _ => 0

end Dcf.Spec
