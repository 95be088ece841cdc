import Verif.Spec.Shadows
import Verif.Spec.Base

/-! # The spacecraft with six degrees of freedom over a field, and the sizes involved in simulating it -/

namespace SAD

section
variable {K : Type} [Field K]

/-- A vector in the frame of the body, in Hill's frame: turned by the quaternion `q` (scalar last). Every entry of the matrix is multiplied by the squared
length of `q`, as in the code. -/
def Spec.toHill (q : Fin 4 → K) (f : Fin 3 → K) : Fin 3 → K :=
  ![(q 0 ^ 2 - q 1 ^ 2 - q 2 ^ 2 + q 3 ^ 2) * f 0 + 2 * (q 0 * q 1 - q 2 * q 3) * f 1 + 2 * (q 0 * q 2 + q 1 * q 3) * f 2,
    2 * (q 0 * q 1 + q 2 * q 3) * f 0 + (-q 0 ^ 2 + q 1 ^ 2 - q 2 ^ 2 + q 3 ^ 2) * f 1 + 2 * (q 1 * q 2 - q 0 * q 3) * f 2,
    2 * (q 0 * q 2 - q 1 * q 3) * f 0 + 2 * (q 1 * q 2 + q 0 * q 3) * f 1 + (-q 0 ^ 2 - q 1 ^ 2 + q 2 ^ 2 + q 3 ^ 2) * f 2]

/-- the thrust `U 0, U 1, U 2`, given in the frame of the body or in Hill's -/
def Spec.hillForce (body : Bool) (U : Fin 6 → K) (y : Fin 13 → K) : Fin 3 → K :=
  if body then Spec.toHill ![y 3, y 4, y 5, y 6] ![U 0, U 1, U 2] else ![U 0, U 1, U 2]

/-- Derivative of position `y 0, y 1, y 2`, attitude `y 3, …, y 6` (a quaternion, scalar last), velocity `y 7, y 8, y 9` and body rates `y 10, y 11, y 12` of a
body of mass `m` and principal moments of inertia `I` in an orbit of mean motion `n`, under a thrust and the moments `U 3, U 4, U 5`. -/
def Spec.tumbling (m n : K) (I : Fin 3 → K) (body : Bool) (U : Fin 6 → K) (y : Fin 13 → K) : Fin 13 → K :=
  ![y 7, y 8, y 9,
    (y 6 * y 10 - y 5 * y 11 + y 4 * y 12) / 2,
    (y 5 * y 10 + y 6 * y 11 - y 3 * y 12) / 2,
    (-y 4 * y 10 + y 3 * y 11 + y 6 * y 12) / 2,
    (-y 3 * y 10 - y 4 * y 11 - y 5 * y 12) / 2,
    3 * n ^ 2 * y 0 + 2 * n * y 8 + Spec.hillForce body U y 0 / m,
    -2 * n * y 7 + Spec.hillForce body U y 1 / m,
    -n ^ 2 * y 2 + Spec.hillForce body U y 2 / m,
    (I 1 - I 2) / I 0 * (y 11 * y 12) + U 3 / I 0,
    (I 2 - I 0) / I 1 * (y 10 * y 12) + U 4 / I 1,
    (I 0 - I 1) / I 2 * (y 10 * y 11) + U 5 / I 2]

end

/-- units of the elements of the state: `wp` for the position, `wq` for the attitude, `wv` for the velocity, `wr` for the rates -/
def Spec.tumbleW (wp wq wv wr : ℚ) : Fin 13 → ℚ := ![wp, wp, wp, wq, wq, wq, wq, wv, wv, wv, wr, wr, wr]

/-- In these units the derivative has the Lipschitz constant `L`, states are at most `X` and accelerations due to the thrust, up to `F` in all, and to the
moments, up to `J`, at most `M`. The mean motion is at most `N`, and no two moments of inertia differ by more than `κ` times the third. -/
structure Spec.TumbleUnits (wp wq wv wr m n : ℚ) (I : Fin 3 → ℚ) (N κ L X F J M : ℚ) : Prop where
  weights : Spec.Weights (Spec.tumbleW wp wq wv wr)
  mass : m ≠ 0 ∧ |m| ≤ 2 ^ 30 ∧ |m⁻¹| ≤ 2 ^ 30
  inertia : ∀ i, I i ≠ 0 ∧ |I i| ≤ 2 ^ 30 ∧ |(I i)⁻¹| ≤ 2 ^ 30
  mean : |n| ≤ N
  lever : |I 1 - I 2| ≤ κ * |I 0| ∧ |I 2 - I 0| ≤ κ * |I 1| ∧ |I 0 - I 1| ≤ κ * |I 2|
  range : ∀ c ∈ [N, κ, F, J], 2⁻¹ ^ 50 ≤ c ∧ c ≤ 2 ^ 30
  size : 1 ≤ wq * X ∧ wp * X ≤ 2 ^ 30 ∧ wq * X ≤ 2 ^ 30 ∧ wv * X ≤ 2 ^ 30 ∧ wr * X ≤ 2 ^ 30
  lip : wv ≤ L * wp ∧ 3 * (wr * X) ≤ L ∧ 3 * N ^ 2 * wp + 2 * N * wv + 8 * (wq * X) * (F / |m|) * wq ≤ L * wv ∧ 2 * κ * (wr * X) ≤ L
  push : 4 * (wq * X) ^ 2 * (F / |m|) ≤ wv * M ∧ ∀ i, J / |I i| ≤ wr * M
  tiny : 2⁻¹ ^ 40 ≤ wp * M ∧ 2⁻¹ ^ 40 ≤ wq * M ∧ 2⁻¹ ^ 40 ≤ wv * M ∧ 2⁻¹ ^ 40 ≤ wr * M

/-- An exact motion under the calls of a history, from `y` to `z`: during each call the solution of `y' = tumbling U y`, where `U` is the control the call applies.
It keeps away from the limits `vel` of the body rates, and from the bounds `X`, by `ρ`. -/
def Spec.TumbleFollows {libm : Fmt ℚ} (env : Env (b64Of libm)) (e : Entity (b64Of libm)) (w : Fin 13 → ℚ) (m n : ℚ) (I : Fin 3 → ℚ) (body : Bool) (vel : Fin 3 → ℚ)
    (ρ : ℝ) (X F J : ℚ) : List (ℚ × Action (b64Of libm)) → (Fin 13 → ℝ) → (Fin 13 → ℝ) → Prop
  | [], y, z => z = y
  | (T, a) :: hist, y, z => 0 ≤ T ∧ ∃ (U : Fin 6 → ℚ) (φ : ℝ → Fin 13 → ℝ), Applied env e a (toFl U) ∧ |U 0| + |U 1| + |U 2| ≤ F ∧
      (|U 3| ≤ J ∧ |U 4| ≤ J ∧ |U 5| ≤ J) ∧
      (∀ t ∈ Set.Icc 0 (T : ℝ), HasDerivWithinAt φ (Spec.tumbling (m : ℝ) n (fun i => I i) body (fun j => U j) (φ t)) (Set.Icc 0 (T : ℝ)) t ∧
        (∀ i, |φ t i| + w i * ρ ≤ w i * X) ∧ |φ t 10| + w 10 * ρ < vel 0 ∧ |φ t 11| + w 11 * ρ < vel 1 ∧ |φ t 12| + w 12 * ρ < vel 2) ∧
      φ 0 = y ∧ Spec.TumbleFollows env e w m n I body vel ρ X F J hist (φ T) z

end SAD
