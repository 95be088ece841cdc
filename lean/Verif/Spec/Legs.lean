import Verif.Model.Base
import Mathlib.Analysis.SpecialFunctions.Trigonometric.Basic

/-! # Flights of the 2d aircraft in exact arithmetic -/

namespace SAD

/-- The sine and cosine of `libm` are off by at most `δ` between -4 and 4. -/
def Spec.Trig (libm : Fmt ℚ) (δ : ℝ) : Prop :=
  ∀ x : ℚ, |x| ≤ 4 → |(libm.sin x : ℝ) - Real.sin x| ≤ δ ∧ |(libm.cos x : ℝ) - Real.cos x| ≤ δ

/-- Euler's method for `x' = v cos h`, `y' = v sin h`, `h' = w`, `v' = a` over the reals, with the speed limited to `[lo, hi]`: the legs of a
flight are durations with a heading rate and an acceleration, its state is `x, y, h, v`. -/
noncomputable def Spec.eulerFlight (lo hi : ℝ) : List (ℝ × ℝ × ℝ) → ℝ × ℝ × ℝ × ℝ → ℝ × ℝ × ℝ × ℝ
  | [], s => s
  | (T, w, a) :: legs, (x, y, h, v) =>
    Spec.eulerFlight lo hi legs (x + T * (v * Real.cos h), y + T * (v * Real.sin h), h + T * w, min (max (v + T * a) lo) hi)

/-- a leg of a flight in floating-point arithmetic: duration, action, and the heading rate and acceleration applied -/
structure Spec.Leg (R : Fmt ℚ) where
  T : ℚ
  action : Action R
  w : ℚ
  a : ℚ

namespace Spec.Leg
variable {R : Fmt ℚ}

/-- the history of steps -/
def hist (legs : List (Leg R)) : List (ℚ × Action R) := legs.map fun l => (l.T, l.action)
/-- the legs as numbers -/
def exact (legs : List (Leg R)) : List (ℝ × ℝ × ℝ) := legs.map fun l => ((l.T : ℝ), (l.w : ℝ), (l.a : ℝ))
/-- total time -/
def time (legs : List (Leg R)) : ℝ := (legs.map fun l => (l.T : ℝ)).sum
/-- total turn -/
def turn (legs : List (Leg R)) : ℝ := (legs.map fun l => (l.T : ℝ) * |(l.w : ℝ)|).sum
/-- total change of speed -/
def gain (legs : List (Leg R)) : ℝ := (legs.map fun l => (l.T : ℝ) * |(l.a : ℝ)|).sum

end Spec.Leg

end SAD
