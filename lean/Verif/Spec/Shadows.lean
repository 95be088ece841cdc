import Verif.Spec.Rounding
import Verif.Model.Binary
import Mathlib.Analysis.Calculus.Deriv.Basic

/-! # A model computed in double precision, near an exact motion

The element `i` of a state or derivative is measured in the unit `w i`. -/

namespace SAD

/-- units that are neither tiny nor huge -/
def Spec.Weights {n : ℕ} (w : Fin n → ℚ) : Prop := ∀ i, 2⁻¹ ^ 100 ≤ w i ∧ w i ≤ 2 ^ 50

/-- within the distance `ρ` of the motion `φ` during `T` seconds -/
def Spec.Around {n : ℕ} (w : Fin n → ℚ) (φ : ℝ → Fin n → ℝ) (ρ T : ℝ) (y : Fin n → ℝ) : Prop := ∃ t ∈ Set.Icc 0 T, ∀ i, |y i - φ t i| ≤ w i * ρ

/-- `φ` is an exact motion `y' = f y` during `T` seconds, and within the distance `ρ` of it the dynamics `d` computes, under the control `U`, a finite
derivative within `δ` of `f`. There `f` is Lipschitz with constant `L`, derivatives are at most `D` and states at most `X`. -/
structure Spec.Shadows {libm : Fmt ℚ} {n m : ℕ} (w : Fin n → ℚ) (d : Dyn (b64Of libm)) (U : Fin m → ℚ) (f : (Fin n → ℝ) → Fin n → ℝ) (φ : ℝ → Fin n → ℝ)
    (L δ ρ : ℝ) (D X : ℚ) (T : ℝ) : Prop where
  solves : ∀ t ∈ Set.Icc 0 T, HasDerivWithinAt φ (f (φ t)) (Set.Icc 0 T) t
  computes : ∀ (t : Fl (b64Of libm)) (y : Fin n → ℚ), Spec.Around w φ ρ T (fun i => (y i : ℝ)) → ∃ v : Fin n → ℚ,
    d.computeStateDot t (toFl y) (toFl U) = .ok (toFl v) ∧ ∀ i, |(v i : ℝ) - f (fun i => (y i : ℝ)) i| ≤ w i * δ ∧ |v i| ≤ w i * D
  lipschitz : ∀ y z e, Spec.Around w φ ρ T y → Spec.Around w φ ρ T z → (∀ i, |y i - z i| ≤ w i * e) → ∀ i, |f y i - f z i| ≤ w i * (L * e)
  speed : ∀ y, Spec.Around w φ ρ T y → ∀ i, |f y i| ≤ w i * D
  size : ∀ y, Spec.Around w φ ρ T y → ∀ i, |y i| ≤ w i * X

/-- what a call makes of the integrated state `y`: limits, then angle wrapping, give `y'` (base_models.py:452-453) -/
def Spec.Finished {libm : Fmt ℚ} {n : ℕ} (d : Dyn (b64Of libm)) (y y' : Fin n → ℚ) : Prop :=
  ∃ c, npClip (toFl y) d.stateMin d.stateMax = .ok c ∧ d.wrapAngles c = .ok (toFl y')

end SAD
