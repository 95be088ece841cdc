import Verif.Spec.F16
import Verif.Model.Formats
import Mathlib.LinearAlgebra.Matrix.Notation
import Mathlib.Analysis.SpecialFunctions.Trigonometric.Basic
import Mathlib.Analysis.SpecialFunctions.Pow.Real
import Mathlib.Analysis.SpecialFunctions.Sqrt

/-!
# Specification of flight over a flat earth

Newton's equations of a rigid aircraft, over the reals: body velocity, attitude matrix, specific force. The frame of the ground is
north, east, down.
-/

namespace SAD.Spec
open SAD SAD.Aero Real

/-- 1962 standard atmosphere of the source: temperature (degrees Rankine), density (slug/ft³), dynamic pressure (lb/ft²), Mach number -/
noncomputable def airTemperature (alt : ℝ) : ℝ := if 35000 ≤ alt then 390 else 519 * (1 - 0.703e-5 * alt)
noncomputable def airDensity (alt : ℝ) : ℝ := 2.377e-3 * (1 - 0.703e-5 * alt) ^ (4.14 : ℝ)
noncomputable def dynamicPressure (vt alt : ℝ) : ℝ := 1 / 2 * airDensity alt * vt ^ 2
noncomputable def machNumber (vt alt : ℝ) : ℝ := vt / √(1.4 * 1716.3 * airTemperature alt)

/-- bilinear interpolation of a thrust table, given every 10000 ft and every Mach 0.2; negative altitudes read at 0.01 ft -/
noncomputable def tableThrust (table : List (List ℚ)) (alt mach : ℝ) : ℝ :=
  interp2 0 10000 0 0.2 table (if alt < 0 then 0.01 else alt) mach

/-- thrust (lb): idle to military below power 50, military to maximum above -/
noncomputable def engineThrust (power alt mach : ℝ) : ℝ :=
  if power < 50 then
    tableThrust thrustIdle alt mach + (tableThrust thrustMil alt mach - tableThrust thrustIdle alt mach) * (power / 50)
  else tableThrust thrustMil alt mach + (tableThrust thrustMax alt mach - tableThrust thrustMil alt mach) * ((power - 50) / 50)

/-- dynamic pressure times the wing area of 300 ft² -/
noncomputable def wingForce (s : Flight ℝ) : ℝ := dynamicPressure s.vt s.alt * 300

/-- aerodynamic and propulsive force per unit mass along the body axes; the mass is 1/1.57e-3 slug -/
noncomputable def specificForce (m : AeroModel) (s : Flight ℝ) (c : Controls ℝ) : Fin 3 → ℝ :=
  ![1.57e-3 * (wingForce s * (coefs π m s c).cx + engineThrust s.power s.alt (machNumber s.vt s.alt)),
    1.57e-3 * (wingForce s * (coefs π m s c).cy), 1.57e-3 * (wingForce s * (coefs π m s c).cz)]

/-- velocity along the body axes of airspeed, angle of attack and sideslip -/
noncomputable def bodyVelocity (s : Flight ℝ) : Fin 3 → ℝ :=
  ![s.vt * cos s.alpha * cos s.beta, s.vt * sin s.beta, s.vt * sin s.alpha * cos s.beta]

/-- rotations about the three axes -/
noncomputable def rotX (a : ℝ) : Matrix (Fin 3) (Fin 3) ℝ := !![1, 0, 0; 0, cos a, -sin a; 0, sin a, cos a]
noncomputable def rotY (a : ℝ) : Matrix (Fin 3) (Fin 3) ℝ := !![cos a, 0, sin a; 0, 1, 0; -sin a, 0, cos a]
noncomputable def rotZ (a : ℝ) : Matrix (Fin 3) (Fin 3) ℝ := !![cos a, -sin a, 0; sin a, cos a, 0; 0, 0, 1]

/-- the attitude: body axes to north, east, down -/
noncomputable def attitude (s : Flight ℝ) : Matrix (Fin 3) (Fin 3) ℝ := rotZ s.psi * rotY s.theta * rotX s.phi

/-- the matrix of `ω ×` for the body rates `ω = (p, q, r)` -/
def bodyRates (s : Flight ℝ) : Matrix (Fin 3) (Fin 3) ℝ := !![0, -s.r, s.q; s.r, 0, -s.p; -s.q, s.p, 0]

/-- position north, east, down -/
def position (s : Flight ℝ) : Fin 3 → ℝ := ![s.posN, s.posE, -s.alt]

/-- gravity in the frame of the ground -/
noncomputable def gravity : Fin 3 → ℝ := ![0, 0, 32.17]

/-- kinetic plus potential energy per unit mass -/
noncomputable def specificEnergy (s : Flight ℝ) : ℝ := 1 / 2 * s.vt ^ 2 + 32.17 * s.alt

/-- The conditions under which the equations of motion have no division by zero: the aircraft moves, does not move sideways, does not
point straight up or down, and is below the altitude (about 142 248 ft) where the modelled atmosphere ends. -/
structure Flyable (s : Flight ℝ) : Prop where
  moving : s.vt ≠ 0
  forward : cos s.beta ≠ 0
  tilted : cos s.theta ≠ 0
  air : 0.703e-5 * s.alt < 1

/-- at time `t` every component of the motion has the given derivative -/
def HasRates (s : ℝ → Flight ℝ) (rates : List ℝ) (t : ℝ) : Prop :=
  rates.length = 13 ∧ ∀ i, HasDerivAt (fun τ => (s τ).toList.getD i 0) (rates.getD i 0) t

end SAD.Spec
