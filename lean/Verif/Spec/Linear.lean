import Mathlib.Algebra.BigOperators.Group.Finset.Basic
import Mathlib.Algebra.Field.Defs
import Mathlib.Data.Fintype.BigOperators
import Mathlib.Data.Fin.Tuple.Basic
import Mathlib.Analysis.SpecialFunctions.ExpDeriv

/-! # Linear models -/

namespace SAD

/-- the derivative `A x + B u` of a linear model -/
def Spec.linear {K : Type} [Field K] {n m : ℕ} (A : Fin n → Fin n → K) (B : Fin n → Fin m → K) (u : Fin m → K) (x : Fin n → K) (i : Fin n) : K :=
  ∑ j, A i j * x j + ∑ j, B i j * u j

/-- positions in units of 1, velocities in units of `ω` -/
def Spec.pmW {V : Type} [One V] (k : ℕ) (ω : V) : Fin (k + k) → V := Fin.append (fun _ => 1) (fun _ => ω)

/-- Positions and velocities of a mass that starts at `x` with the velocity `v`, is pushed with the accelerations `g` and slowed down by the damping
`c`: the velocity tends to `g / c`. -/
noncomputable def Spec.damped {k : ℕ} (x v g : Fin k → ℝ) (c t : ℝ) : Fin (k + k) → ℝ :=
  Fin.append (fun i => x i + g i / c * t + (v i - g i / c) * (1 - Real.exp (-c * t)) / c) (fun i => g i / c + (v i - g i / c) * Real.exp (-c * t))

end SAD
