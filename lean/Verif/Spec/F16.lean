import Verif.Spec.Aero
import Verif.Model.Aero

/-!
# Specification of the F-16 equations of motion

Stevens & Lewis, Aircraft Control and Simulation, appendix A, with the mass properties of the source, over an ordered field.
Nothing here mentions floating point data.
-/

namespace SAD.Spec
open SAD SAD.Aero

/-- aerodynamic coefficients: axial, side and normal force, rolling, pitching and yawing moment -/
@[ext]
structure Coef (K : Type) where
  cx : K
  cy : K
  cz : K
  cl : K
  cm : K
  cn : K

/-! ## Morelli's polynomials, as lists of (coefficient, exponent of the first variable, exponent of the second) -/

/-- `Cx0` in (alpha, de) -/
def tabCx0 : List (ℚ × ℕ × ℕ) := [(-1.943367e-2, 0, 0), (2.136104e-1, 1, 0), (-2.903457e-1, 0, 2), (-3.348641e-3, 0, 1), (-2.060504e-1, 1, 1), (6.988016e-1, 2, 0), (-9.035381e-1, 3, 0)]
/-- `Cxq` in (alpha, beta) -/
def tabCxq : List (ℚ × ℕ × ℕ) := [(4.833383e-1, 0, 0), (8.644627, 1, 0), (1.131098e1, 2, 0), (-7.422961e1, 3, 0), (6.075776e1, 4, 0)]
/-- `Cyp` in (alpha, beta) -/
def tabCyp : List (ℚ × ℕ × ℕ) := [(-1.006733e-1, 0, 0), (8.679799e-1, 1, 0), (4.260586, 2, 0), (-6.923267, 3, 0)]
/-- `Cyr` in (alpha, beta) -/
def tabCyr : List (ℚ × ℕ × ℕ) := [(8.071648e-1, 0, 0), (1.189633e-1, 1, 0), (4.177702, 2, 0), (-9.162236, 3, 0)]
/-- `Cz0` in (alpha, beta) -/
def tabCz0 : List (ℚ × ℕ × ℕ) := [(-1.378278e-1, 0, 0), (-4.211369, 1, 0), (4.775187, 2, 0), (-1.026225e1, 3, 0), (8.399763, 4, 0)]
/-- `Czq` in (alpha, beta) -/
def tabCzq : List (ℚ × ℕ × ℕ) := [(-3.054956e1, 0, 0), (-4.132305e1, 1, 0), (3.292788e2, 2, 0), (-6.848038e2, 3, 0), (4.080244e2, 4, 0)]
/-- `Cl0` in (alpha, beta) -/
def tabCl0 : List (ℚ × ℕ × ℕ) := [(-1.05853e-1, 0, 1), (-5.776677e-1, 1, 1), (-1.672435e-2, 2, 1), (1.357256e-1, 0, 2), (2.172952e-1, 1, 2), (3.464156, 3, 1), (-2.835451, 4, 1), (-1.098104, 2, 2)]
/-- `Clp` in (alpha, beta) -/
def tabClp : List (ℚ × ℕ × ℕ) := [(-4.126806e-1, 0, 0), (-1.189974e-1, 1, 0), (1.247721, 2, 0), (-7.391132e-1, 3, 0)]
/-- `Clr` in (alpha, beta) -/
def tabClr : List (ℚ × ℕ × ℕ) := [(6.250437e-2, 0, 0), (6.067723e-1, 1, 0), (-1.101964, 2, 0), (9.100087, 3, 0), (-1.192672e1, 4, 0)]
/-- `Clda` in (alpha, beta) -/
def tabClda : List (ℚ × ℕ × ℕ) := [(-1.463144e-1, 0, 0), (-4.07391e-2, 1, 0), (3.253159e-2, 0, 1), (4.851209e-1, 2, 0), (2.978850e-1, 1, 1), (-3.746393e-1, 2, 1), (-3.213068e-1, 3, 0)]
/-- `Cldr` in (alpha, beta) -/
def tabCldr : List (ℚ × ℕ × ℕ) := [(2.635729e-2, 0, 0), (-2.192910e-2, 1, 0), (-3.152901e-3, 0, 1), (-5.817803e-2, 1, 1), (4.516159e-1, 2, 1), (-4.928702e-1, 3, 1), (-1.579864e-2, 0, 2)]
/-- `Cm0` in (alpha, de) -/
def tabCm0 : List (ℚ × ℕ × ℕ) := [(-2.029370e-2, 0, 0), (4.660702e-2, 1, 0), (-6.012308e-1, 0, 1), (-8.062977e-2, 1, 1), (8.320429e-2, 0, 2), (5.018538e-1, 2, 1), (6.378864e-1, 0, 3), (4.226356e-1, 1, 2)]
/-- `Cmq` in (alpha, beta) -/
def tabCmq : List (ℚ × ℕ × ℕ) := [(-5.19153, 0, 0), (-3.554716, 1, 0), (-3.598636e1, 2, 0), (2.247355e2, 3, 0), (-4.120991e2, 4, 0), (2.411750e2, 5, 0)]
/-- `Cn0` in (alpha, beta) -/
def tabCn0 : List (ℚ × ℕ × ℕ) := [(2.993363e-1, 0, 1), (6.594004e-2, 1, 1), (-2.003125e-1, 0, 2), (-6.233977e-2, 1, 2), (-2.107885, 2, 1), (2.141420, 2, 2), (8.476901e-1, 3, 1)]
/-- `Cnp` in (alpha, beta) -/
def tabCnp : List (ℚ × ℕ × ℕ) := [(2.677652e-2, 0, 0), (-3.298246e-1, 1, 0), (1.926178e-1, 2, 0), (4.013325, 3, 0), (-4.404302, 4, 0)]
/-- `Cnr` in (alpha, beta) -/
def tabCnr : List (ℚ × ℕ × ℕ) := [(-3.698756e-1, 0, 0), (-1.167551e-1, 1, 0), (-7.641297e-1, 2, 0)]
/-- `Cnda` in (alpha, beta) -/
def tabCnda : List (ℚ × ℕ × ℕ) := [(-3.348717e-2, 0, 0), (4.276655e-2, 1, 0), (6.573646e-3, 0, 1), (3.535831e-1, 1, 1), (-1.373308, 2, 1), (1.237582, 3, 1), (2.302543e-1, 2, 0), (-2.512876e-1, 3, 0), (1.588105e-1, 0, 3), (-5.199526e-1, 1, 3)]
/-- `Cndr` in (alpha, beta) -/
def tabCndr : List (ℚ × ℕ × ℕ) := [(-8.115894e-2, 0, 0), (-1.156580e-2, 1, 0), (2.514167e-2, 0, 1), (2.038748e-1, 1, 1), (-3.337476e-1, 2, 1), (1.004297e-1, 2, 0)]

section
variable {K : Type} [Field K] [LinearOrder K] [FloorRing K]

/-- a table as numbers of the field -/
def asK (a : List ℚ) : List K := a.map (fun q : ℚ => (q : K))

/-- the polynomial with the given terms -/
def poly (tab : List (ℚ × ℕ × ℕ)) (x y : K) : K := (tab.map (fun t => (t.1 : K) * x ^ t.2.1 * y ^ t.2.2)).sum

/-- the tabulated model: angles and surfaces in degrees -/
def stevens (alpha beta el ail rdr : K) : Coef K where
  cx := interp2 (-10) 5 (-24) 12 cxTable alpha el
  cy := -0.02 * beta + 0.021 * (ail / 20) + 0.086 * (rdr / 30)
  cz := interp (-10) 5 (asK czTable) alpha * (1 - (beta / 57.3) ^ 2) - 0.19 * (el / 25)
  cl := interp2 (-10) 5 0 5 clTable alpha |beta| * sgn beta + interp2 (-10) 5 (-30) 10 dldaTable alpha beta * (ail / 20) +
    interp2 (-10) 5 (-30) 10 dldrTable alpha beta * (rdr / 30)
  cm := interp2 (-10) 5 (-24) 12 cmTable alpha el
  cn := interp2 (-10) 5 0 5 cnTable alpha |beta| * sgn beta + interp2 (-10) 5 (-30) 10 dndaTable alpha beta * (ail / 20) +
    interp2 (-10) 5 (-30) 10 dndrTable alpha beta * (rdr / 30)

/-- `x` degrees in radians, limited to `[lo, hi]` degrees -/
def limitedRad (pi lo hi x : K) : K := max (lo * pi / 180) (min (hi * pi / 180) (x * pi / 180))

/-- the polynomial model: angles and surfaces in degrees, rates in rad/s -/
def morelli (pi alpha beta el ail rdr p q r vt : K) : Coef K :=
  let a := limitedRad pi (-10) 45 alpha
  let b := limitedRad pi (-30) 30 beta
  let de := limitedRad pi (-25) 25 el
  let da := limitedRad pi (-21.5) 21.5 ail
  let dr := limitedRad pi (-30) 30 rdr
  let ph := 30 * p / (2 * vt)
  let qh := 11.32 * q / (2 * vt)
  let rh := 30 * r / (2 * vt)
  { cx := poly tabCx0 a de + poly tabCxq a b * qh
    cy := -1.145916 * b + 6.016057e-2 * da + 1.642479e-1 * dr + poly tabCyp a b * ph + poly tabCyr a b * rh
    cz := poly tabCz0 a b * (1 - b ^ 2) - 4.354000e-1 * de + poly tabCzq a b * qh
    cl := poly tabCl0 a b + poly tabClp a b * ph + poly tabClr a b * rh + poly tabClda a b * da + poly tabCldr a b * dr
    cm := poly tabCm0 a de + poly tabCmq a b * qh
    cn := poly tabCn0 a b + poly tabCnp a b * ph + poly tabCnr a b * rh + poly tabCnda a b * da + poly tabCndr a b * dr }

/-- the damping coefficients at an angle of attack in degrees -/
def damping (alpha : K) (i : ℕ) : K := interp (-10) 5 (asK (damppTable.getD i [])) alpha

/-- the total coefficients: the model's plus the damping ones, for both models (Morelli's polynomials contain damping terms of their
own). The centre of gravity is at the reference point. -/
def total (c : Coef K) (alpha p q r vt : K) : Coef K where
  cx := c.cx + 11.32 * q / (2 * vt) * damping alpha 0
  cy := c.cy + 30 / (2 * vt) * (damping alpha 1 * r + damping alpha 2 * p)
  cz := c.cz + 11.32 * q / (2 * vt) * damping alpha 3
  cl := c.cl + 30 / (2 * vt) * (damping alpha 4 * r + damping alpha 5 * p)
  cm := c.cm + 11.32 * q / (2 * vt) * damping alpha 6
  cn := c.cn + 30 / (2 * vt) * (damping alpha 7 * r + damping alpha 8 * p)

/-- the two aerodynamic models -/
inductive AeroModel
  | stevens
  | morelli

/-- the name a model is selected with -/
def AeroModel.name : AeroModel → String
  | .stevens => "stevens"
  | .morelli => "morelli"

/-- state of the aircraft: airspeed (ft/s), angle of attack and sideslip (rad), Euler angles (rad), body rates (rad/s), position
(ft), altitude (ft), engine power (%) -/
structure Flight (K : Type) where
  vt : K
  alpha : K
  beta : K
  phi : K
  theta : K
  psi : K
  p : K
  q : K
  r : K
  posN : K
  posE : K
  alt : K
  power : K

/-- controls: throttle, elevator, aileron, rudder (degrees) -/
structure Controls (K : Type) where
  thtl : K
  el : K
  ail : K
  rdr : K

def Flight.toList (s : Flight K) : List K :=
  [s.vt, s.alpha, s.beta, s.phi, s.theta, s.psi, s.p, s.q, s.r, s.posN, s.posE, s.alt, s.power]
def Controls.toList (c : Controls K) : List K := [c.thtl, c.el, c.ail, c.rdr]

/-- the total coefficients in a flight condition -/
def coefs (pi : K) (m : AeroModel) (s : Flight K) (c : Controls K) : Coef K :=
  let alpha := s.alpha * 57.29578
  let beta := s.beta * 57.29578
  total (match m with
    | .stevens => stevens alpha beta c.el c.ail c.rdr
    | .morelli => morelli pi alpha beta c.el c.ail c.rdr s.p s.q s.r s.vt) alpha s.p s.q s.r s.vt

end

end SAD.Spec
