import Verif.Spec.Shadows
import Verif.Spec.Base
import Mathlib.Analysis.SpecialFunctions.Trigonometric.Basic

/-! # The planar rotating spacecraft over the reals, and the sizes involved in simulating it -/

namespace SAD

/-- the sine and cosine of `libm` are between -1 and 1 and off by at most `δ`, up to the angle `A` -/
def Spec.TrigWithin (libm : Fmt ℚ) (A : ℚ) (δ : ℝ) : Prop := ∀ x : ℚ, |x| ≤ A →
  |libm.sin x| ≤ 1 ∧ |libm.cos x| ≤ 1 ∧ |(libm.sin x : ℝ) - Real.sin x| ≤ δ ∧ |(libm.cos x : ℝ) - Real.cos x| ≤ δ

/-- Derivative of position, heading, velocity and turn rate `x, y, θ, x', y', θ'` of a body of mass `m` and moment of inertia `I` in an orbit of mean motion
`n`, under the thrust `U 0, U 1` in its own frame and the moment `U 2`. The angular acceleration is limited to `acc`. -/
noncomputable def Spec.turning (m n I acc : ℝ) (U : Fin 3 → ℝ) (y : Fin 6 → ℝ) : Fin 6 → ℝ :=
  ![y 3, y 4, y 5, 3 * n ^ 2 * y 0 + 2 * n * y 4 + (Real.cos (y 2) * U 0 - Real.sin (y 2) * U 1) / m,
    -2 * n * y 3 + (Real.sin (y 2) * U 0 + Real.cos (y 2) * U 1) / m, min (max (U 2 / I) (-acc)) acc]

/-- Units `w` of the elements of the state, in which the derivative has the Lipschitz constant `L`, states are at most `X` and accelerations due to the
thrust, up to `F` in all, and to the moment, up to `J`, at most `M`. -/
structure Spec.TurnUnits (w : Fin 6 → ℚ) (m n I L X F J M : ℚ) : Prop where
  weights : Spec.Weights w
  mass : m ≠ 0 ∧ |m⁻¹| ≤ 2 ^ 30
  inertia : I ≠ 0 ∧ |I⁻¹| ≤ 2 ^ 30
  mean : |n| ≤ 2 ^ 30
  force : F ≤ 2 ^ 30
  moment : J ≤ 2 ^ 30
  size : 0 ≤ X ∧ ∀ i, w i * X ≤ 2 ^ 30
  lip : w 3 ≤ L * w 0 ∧ w 4 ≤ L * w 1 ∧ w 5 ≤ L * w 2 ∧ 3 * n ^ 2 * w 0 + 2 * |n| * w 4 + F / |m| * w 2 ≤ L * w 3 ∧ 2 * |n| * w 3 + F / |m| * w 2 ≤ L * w 4
  push : F / |m| ≤ w 3 * M ∧ F / |m| ≤ w 4 * M ∧ J / |I| ≤ w 5 * M
  tiny : ∀ i, 2⁻¹ ^ 40 ≤ w i * M

/-- An exact motion under the calls of a history, from `y` to `z`: during each call the solution of `y' = turning U y`, where `U` is the control the call applies.
It keeps away from the limit `vel` of the turn rate, and from the bounds `X` of the other elements, by `ρ`. The heading (element 2) is not wrapped. -/
def Spec.TurnFollows {libm : Fmt ℚ} (env : Env (b64Of libm)) (e : Entity (b64Of libm)) (w : Fin 6 → ℚ) (m n I acc vel : ℚ) (ρ : ℝ) (X F J : ℚ) :
    List (ℚ × Action (b64Of libm)) → (Fin 6 → ℝ) → (Fin 6 → ℝ) → Prop
  | [], y, z => z = y
  | (T, a) :: hist, y, z => 0 ≤ T ∧ ∃ (U : Fin 3 → ℚ) (φ : ℝ → Fin 6 → ℝ), Applied env e a (toFl U) ∧ |U 0| + |U 1| ≤ F ∧ |U 2| ≤ J ∧
      (∀ t ∈ Set.Icc 0 (T : ℝ), HasDerivWithinAt φ (Spec.turning m n I acc (fun j => U j) (φ t)) (Set.Icc 0 (T : ℝ)) t ∧
        (∀ i, i ≠ 2 → |φ t i| + w i * ρ ≤ w i * X) ∧ |φ t 5| + w 5 * ρ < vel) ∧
      φ 0 = y ∧ Spec.TurnFollows env e w m n I acc vel ρ X F J hist (φ T) z

end SAD
