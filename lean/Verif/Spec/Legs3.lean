import Verif.Spec.Legs

/-! # Flights of the 3d aircraft in exact arithmetic -/

namespace SAD

/-- The tangent of `libm` is off by at most `δ` between `-ρ` and `ρ`. -/
def Spec.Tangent (libm : Fmt ℚ) (ρ δ : ℝ) : Prop := ∀ x : ℚ, |(x : ℝ)| ≤ ρ → |(libm.tan x : ℝ) - Real.tan x| ≤ δ

/-- position, heading, flight path angle, roll and speed -/
structure Spec.Flying where
  x : ℝ
  y : ℝ
  z : ℝ
  heading : ℝ
  gamma : ℝ
  roll : ℝ
  v : ℝ

/-- the limits of flight path angle, roll and speed -/
structure Spec.FlyingLimits where
  gammaMin : ℝ
  gammaMax : ℝ
  rollMin : ℝ
  rollMax : ℝ
  vMin : ℝ
  vMax : ℝ

/-- Euler's method for the 3d aircraft over the reals, for a time `T` with flight path angle rate `p`, roll rate `q` and acceleration `a` -/
noncomputable def Spec.Flying.euler (L : FlyingLimits) (s : Flying) (T p q a : ℝ) : Flying where
  x := s.x + T * (s.v * Real.cos s.heading * Real.cos s.gamma)
  y := s.y + T * (s.v * Real.sin s.heading * Real.cos s.gamma)
  z := s.z - T * (s.v * Real.sin s.gamma)
  heading := s.heading + T * (32.17 / s.v * Real.tan s.roll)
  gamma := min (max (s.gamma + T * p) L.gammaMin) L.gammaMax
  roll := min (max (s.roll + T * q) L.rollMin) L.rollMax
  v := min (max (s.v + T * a) L.vMin) L.vMax

/-- a flight of several legs, each a duration with the three controls -/
noncomputable def Spec.eulerFlight3 (L : FlyingLimits) : List (ℝ × ℝ × ℝ × ℝ) → Flying → Flying
  | [], s => s
  | (T, p, q, a) :: legs, s => Spec.eulerFlight3 L legs (s.euler L T p q a)

/-- a leg of a flight in floating-point arithmetic: duration, action, and the controls applied -/
structure Spec.Leg3 (R : Fmt ℚ) where
  T : ℚ
  action : Action R
  p : ℚ
  q : ℚ
  a : ℚ

namespace Spec.Leg3
variable {R : Fmt ℚ}

/-- the history of steps -/
def hist (legs : List (Leg3 R)) : List (ℚ × Action R) := legs.map fun l => (l.T, l.action)
/-- the legs as numbers -/
def exact (legs : List (Leg3 R)) : List (ℝ × ℝ × ℝ × ℝ) := legs.map fun l => ((l.T : ℝ), (l.p : ℝ), (l.q : ℝ), (l.a : ℝ))
/-- total time -/
def time (legs : List (Leg3 R)) : ℝ := (legs.map fun l => (l.T : ℝ)).sum
/-- total change of the flight path angle asked for -/
def pitch (legs : List (Leg3 R)) : ℝ := (legs.map fun l => (l.T : ℝ) * |(l.p : ℝ)|).sum
/-- total change of the roll asked for -/
def bank (legs : List (Leg3 R)) : ℝ := (legs.map fun l => (l.T : ℝ) * |(l.q : ℝ)|).sum
/-- total change of speed asked for -/
def gain (legs : List (Leg3 R)) : ℝ := (legs.map fun l => (l.T : ℝ) * |(l.a : ℝ)|).sum

end Spec.Leg3

end SAD
