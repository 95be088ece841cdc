import Verif.Spec.Turning
import Verif.Spec.Legs3

/-! # The aircraft over the reals, and the sizes involved in simulating them -/

namespace SAD

/-- An exact motion under the calls of a history, from `y` to `z`: during each call the solution of `y' = f U y`, where `U` is the control the call applies,
through states for which `G U` holds. -/
def Spec.MovesUnder {libm : Fmt ℚ} {n m : ℕ} (env : Env (b64Of libm)) (e : Entity (b64Of libm)) (f : (Fin m → ℚ) → (Fin n → ℝ) → Fin n → ℝ)
    (G : (Fin m → ℚ) → (Fin n → ℝ) → Prop) : List (ℚ × Action (b64Of libm)) → (Fin n → ℝ) → (Fin n → ℝ) → Prop
  | [], y, z => z = y
  | (T, a) :: hist, y, z => 0 ≤ T ∧ ∃ (U : Fin m → ℚ) (φ : ℝ → Fin n → ℝ), Applied env e a (toFl U) ∧
      (∀ t ∈ Set.Icc 0 (T : ℝ), HasDerivWithinAt φ (f U (φ t)) (Set.Icc 0 (T : ℝ)) t ∧ G U (φ t)) ∧ φ 0 = y ∧ Spec.MovesUnder env e f G hist (φ T) z

/-- A quantity `v` between its limits, which changes at the rate `u`: it is more than `r` away from the limits, or it does not change at all. -/
def Spec.Keeps (lo hi u : ℚ) (r v : ℝ) : Prop := (lo + r < v ∧ v + r < hi) ∨ (u = 0 ∧ lo ≤ v ∧ v ≤ hi)

/-- derivative of position, heading and speed `x, y, ψ, v` under the turn rate `U 0` and the acceleration `U 1` -/
noncomputable def Spec.aloft2 (U : Fin 2 → ℚ) (y : Fin 4 → ℝ) : Fin 4 → ℝ := ![y 3 * Real.cos (y 2), y 3 * Real.sin (y 2), U 0, U 1]

/-- Units `w` of the elements of the state, in which the derivative has the Lipschitz constant `L` and states are at most `X`. -/
structure Spec.AloftUnits2 (w : Fin 4 → ℚ) (L X M : ℚ) : Prop where
  weights : Spec.Weights w
  size : 0 ≤ X ∧ ∀ i, w i * X ≤ 2 ^ 30
  lip : w 3 + w 3 * X * w 2 ≤ L * w 0 ∧ w 3 + w 3 * X * w 2 ≤ L * w 1
  rates : ∀ i, 2⁻¹ ^ 40 ≤ w i * M ∧ w i * M ≤ 2 ^ 30

/-- the rates are at most `M`, position and speed (the heading is not wrapped) at most `X - ρ`, and the speed keeps off its limits -/
def Spec.AloftRoom2 (w : Fin 4 → ℚ) (lo hi : ℚ) (ρ : ℝ) (X M : ℚ) (U : Fin 2 → ℚ) (y : Fin 4 → ℝ) : Prop :=
  |U 0| ≤ w 2 * M ∧ |U 1| ≤ w 3 * M ∧ (∀ i, i ≠ 2 → |y i| + w i * ρ ≤ w i * X) ∧ Spec.Keeps lo hi (U 1) (w 3 * ρ) (y 3)

/-- derivative of position, heading, flight path angle, roll and speed `x, y, z, ψ, γ, φ, v` under the rates `U` of the last three -/
noncomputable def Spec.aloft3 (U : Fin 3 → ℚ) (y : Fin 7 → ℝ) : Fin 7 → ℝ :=
  ![y 6 * Real.cos (y 3) * Real.cos (y 4), y 6 * Real.sin (y 3) * Real.cos (y 4), -(y 6 * Real.sin (y 4)), 32.17 / y 6 * Real.tan (y 5), U 0, U 1, U 2]

/-- Units `w` of the elements of the state, in which the derivative has the Lipschitz constant `L` and states are at most `X`, for speeds of at least `s` and rolls
with a tangent of at most `t`. -/
structure Spec.AloftUnits3 (w : Fin 7 → ℚ) (L X M s t : ℚ) : Prop where
  weights : Spec.Weights w
  size : 0 ≤ X ∧ ∀ i, w i * X ≤ 2 ^ 30
  lip : w 6 + w 6 * X * (w 3 + w 4) ≤ L * w 0 ∧ w 6 + w 6 * X * (w 3 + w 4) ≤ L * w 1 ∧ w 6 + w 6 * X * w 4 ≤ L * w 2 ∧
    33 / s * ((1 + t ^ 2) * w 5 + t / s * w 6) ≤ L * w 3
  slow : 0 < s ∧ 33 / s * (t + 1) ≤ w 3 * M
  rates : ∀ i, 2⁻¹ ^ 40 ≤ w i * M ∧ w i * M ≤ 2 ^ 30

/-- limits of flight path angle, roll and speed -/
structure Spec.AloftLimits where
  lo : Fin 3 → ℚ
  hi : Fin 3 → ℚ

/-- The rates are at most `M`, position, angles (the heading is not wrapped) and speed at most `X - ρ`. The speed is at least `s`, the roll at most `r`. Flight path
angle, roll and speed keep off their limits. -/
def Spec.AloftRoom3 (w : Fin 7 → ℚ) (l : Spec.AloftLimits) (ρ r : ℝ) (X M s : ℚ) (U : Fin 3 → ℚ) (y : Fin 7 → ℝ) : Prop :=
  (|U 0| ≤ w 4 * M ∧ |U 1| ≤ w 5 * M ∧ |U 2| ≤ w 6 * M) ∧ (∀ i, i ≠ 3 → |y i| + w i * ρ ≤ w i * X) ∧ s + w 6 * ρ ≤ y 6 ∧ |y 5| + w 5 * ρ ≤ r ∧
    Spec.Keeps (l.lo 0) (l.hi 0) (U 0) (w 4 * ρ) (y 4) ∧ Spec.Keeps (l.lo 1) (l.hi 1) (U 1) (w 5 * ρ) (y 5) ∧ Spec.Keeps (l.lo 2) (l.hi 2) (U 2) (w 6 * ρ) (y 6)

end SAD
