import Verif.Model.Aero

/-!
# The F-16 equations of motion, low-level controller, controlled aircraft and trim functions of aerobench

`lowlevel/x.py` below is `/repo/safe_autonomy_dynamics/external/aerobench/lowlevel/x.py`; `controlled_f16.py` is in the directory
above it. States and controls are `float64` arrays, so their elements and everything computed from them are NumPy scalars (no
exception on division by zero). The results of `math.sin` and `math.cos` are Python floats: dividing two of them does raise.
-/

namespace SAD.Aero

open SAD

section
variable {K : Type} {R : Fmt K} [Field K] [LinearOrder K]

/-- `lowlevel/morellif16.py` 41-47, 171-171 (`Cx0`) -/
def morelliCx0 (alpha de : Fl R) : Fl R :=
  let a0 : Fl R := -1.943367e-2
  let a1 : Fl R := 2.136104e-1
  let a2 : Fl R := -2.903457e-1
  let a3 : Fl R := -3.348641e-3
  let a4 : Fl R := -2.060504e-1
  let a5 : Fl R := 6.988016e-1
  let a6 : Fl R := -9.035381e-1
  a0 + a1 * alpha + a2 * (powNat de 2) + a3 * de + a4 * alpha * de + a5 * (powNat alpha 2) + a6 * (powNat alpha 3)

/-- `lowlevel/morellif16.py` 49-53, 175-175 (`Cxq`) -/
def morelliCxq (alpha : Fl R) : Fl R :=
  let b0 : Fl R := 4.833383e-1
  let b1 : Fl R := 8.644627
  let b2 : Fl R := 1.131098e1
  let b3 : Fl R := -7.422961e1
  let b4 : Fl R := 6.075776e1
  b0 + b1 * alpha + b2 * (powNat alpha 2) + b3 * (powNat alpha 3) + b4 * (powNat alpha 4)

/-- `lowlevel/morellif16.py` 55-57, 176-176 (`Cy0`) -/
def morelliCy0 (beta da dr : Fl R) : Fl R :=
  let c0 : Fl R := -1.145916
  let c1 : Fl R := 6.016057e-2
  let c2 : Fl R := 1.642479e-1
  c0 * beta + c1 * da + c2 * dr

/-- `lowlevel/morellif16.py` 59-62, 177-177 (`Cyp`) -/
def morelliCyp (alpha : Fl R) : Fl R :=
  let d0 : Fl R := -1.006733e-1
  let d1 : Fl R := 8.679799e-1
  let d2 : Fl R := 4.260586
  let d3 : Fl R := -6.923267
  d0 + d1 * alpha + d2 * (powNat alpha 2) + d3 * (powNat alpha 3)

/-- `lowlevel/morellif16.py` 64-67, 178-178 (`Cyr`) -/
def morelliCyr (alpha : Fl R) : Fl R :=
  let e0 : Fl R := 8.071648e-1
  let e1 : Fl R := 1.189633e-1
  let e2 : Fl R := 4.177702
  let e3 : Fl R := -9.162236
  e0 + e1 * alpha + e2 * (powNat alpha 2) + e3 * (powNat alpha 3)

/-- `lowlevel/morellif16.py` 69-74, 179-179 (`Cz0`) -/
def morelliCz0 (alpha beta de : Fl R) : Fl R :=
  let f0 : Fl R := -1.378278e-1
  let f1 : Fl R := -4.211369
  let f2 : Fl R := 4.775187
  let f3 : Fl R := -1.026225e1
  let f4 : Fl R := 8.399763
  let f5 : Fl R := -4.354000e-1
  (f0 + f1 * alpha + f2 * (powNat alpha 2) + f3 * (powNat alpha 3) + f4 * (powNat alpha 4)) * (1 - (powNat beta 2)) + f5 * de

/-- `lowlevel/morellif16.py` 76-80, 180-180 (`Czq`) -/
def morelliCzq (alpha : Fl R) : Fl R :=
  let g0 : Fl R := -3.054956e1
  let g1 : Fl R := -4.132305e1
  let g2 : Fl R := 3.292788e2
  let g3 : Fl R := -6.848038e2
  let g4 : Fl R := 4.080244e2
  g0 + g1 * alpha + g2 * (powNat alpha 2) + g3 * (powNat alpha 3) + g4 * (powNat alpha 4)

/-- `lowlevel/morellif16.py` 82-89, 181-182 (`Cl0`) -/
def morelliCl0 (alpha beta : Fl R) : Fl R :=
  let h0 : Fl R := -1.05853e-1
  let h1 : Fl R := -5.776677e-1
  let h2 : Fl R := -1.672435e-2
  let h3 : Fl R := 1.357256e-1
  let h4 : Fl R := 2.172952e-1
  let h5 : Fl R := 3.464156
  let h6 : Fl R := -2.835451
  let h7 : Fl R := -1.098104
  h0 * beta + h1 * alpha * beta + h2 * (powNat alpha 2) * beta + h3 * (powNat beta 2) + h4 * alpha * (powNat beta 2) + h5 * (powNat alpha 3) * beta + h6 * (powNat alpha 4) * beta + h7 * (powNat alpha 2) * (powNat beta 2)

/-- `lowlevel/morellif16.py` 91-94, 183-183 (`Clp`) -/
def morelliClp (alpha : Fl R) : Fl R :=
  let i0 : Fl R := -4.126806e-1
  let i1 : Fl R := -1.189974e-1
  let i2 : Fl R := 1.247721
  let i3 : Fl R := -7.391132e-1
  i0 + i1 * alpha + i2 * (powNat alpha 2) + i3 * (powNat alpha 3)

/-- `lowlevel/morellif16.py` 96-100, 184-184 (`Clr`) -/
def morelliClr (alpha : Fl R) : Fl R :=
  let j0 : Fl R := 6.250437e-2
  let j1 : Fl R := 6.067723e-1
  let j2 : Fl R := -1.101964
  let j3 : Fl R := 9.100087
  let j4 : Fl R := -1.192672e1
  j0 + j1 * alpha + j2 * (powNat alpha 2) + j3 * (powNat alpha 3) + j4 * (powNat alpha 4)

/-- `lowlevel/morellif16.py` 102-108, 185-185 (`Clda`) -/
def morelliClda (alpha beta : Fl R) : Fl R :=
  let k0 : Fl R := -1.463144e-1
  let k1 : Fl R := -4.07391e-2
  let k2 : Fl R := 3.253159e-2
  let k3 : Fl R := 4.851209e-1
  let k4 : Fl R := 2.978850e-1
  let k5 : Fl R := -3.746393e-1
  let k6 : Fl R := -3.213068e-1
  k0 + k1 * alpha + k2 * beta + k3 * (powNat alpha 2) + k4 * alpha * beta + k5 * (powNat alpha 2) * beta + k6 * (powNat alpha 3)

/-- `lowlevel/morellif16.py` 110-116, 186-186 (`Cldr`) -/
def morelliCldr (alpha beta : Fl R) : Fl R :=
  let l0 : Fl R := 2.635729e-2
  let l1 : Fl R := -2.192910e-2
  let l2 : Fl R := -3.152901e-3
  let l3 : Fl R := -5.817803e-2
  let l4 : Fl R := 4.516159e-1
  let l5 : Fl R := -4.928702e-1
  let l6 : Fl R := -1.579864e-2
  l0 + l1 * alpha + l2 * beta + l3 * alpha * beta + l4 * (powNat alpha 2) * beta + l5 * (powNat alpha 3) * beta + l6 * (powNat beta 2)

/-- `lowlevel/morellif16.py` 118-125, 187-188 (`Cm0`) -/
def morelliCm0 (alpha de : Fl R) : Fl R :=
  let m0 : Fl R := -2.029370e-2
  let m1 : Fl R := 4.660702e-2
  let m2 : Fl R := -6.012308e-1
  let m3 : Fl R := -8.062977e-2
  let m4 : Fl R := 8.320429e-2
  let m5 : Fl R := 5.018538e-1
  let m6 : Fl R := 6.378864e-1
  let m7 : Fl R := 4.226356e-1
  m0 + m1 * alpha + m2 * de + m3 * alpha * de + m4 * (powNat de 2) + m5 * (powNat alpha 2) * de + m6 * (powNat de 3) + m7 * alpha * (powNat de 2)

/-- `lowlevel/morellif16.py` 127-132, 190-190 (`Cmq`) -/
def morelliCmq (alpha : Fl R) : Fl R :=
  let n0 : Fl R := -5.19153
  let n1 : Fl R := -3.554716
  let n2 : Fl R := -3.598636e1
  let n3 : Fl R := 2.247355e2
  let n4 : Fl R := -4.120991e2
  let n5 : Fl R := 2.411750e2
  n0 + n1 * alpha + n2 * (powNat alpha 2) + n3 * (powNat alpha 3) + n4 * (powNat alpha 4) + n5 * (powNat alpha 5)

/-- `lowlevel/morellif16.py` 134-140, 191-192 (`Cn0`) -/
def morelliCn0 (alpha beta : Fl R) : Fl R :=
  let o0 : Fl R := 2.993363e-1
  let o1 : Fl R := 6.594004e-2
  let o2 : Fl R := -2.003125e-1
  let o3 : Fl R := -6.233977e-2
  let o4 : Fl R := -2.107885
  let o5 : Fl R := 2.141420
  let o6 : Fl R := 8.476901e-1
  o0 * beta + o1 * alpha * beta + o2 * (powNat beta 2) + o3 * alpha * (powNat beta 2) + o4 * (powNat alpha 2) * beta + o5 * (powNat alpha 2) * (powNat beta 2) + o6 * (powNat alpha 3) * beta

/-- `lowlevel/morellif16.py` 142-146, 193-193 (`Cnp`) -/
def morelliCnp (alpha : Fl R) : Fl R :=
  let p0 : Fl R := 2.677652e-2
  let p1 : Fl R := -3.298246e-1
  let p2 : Fl R := 1.926178e-1
  let p3 : Fl R := 4.013325
  let p4 : Fl R := -4.404302
  p0 + p1 * alpha + p2 * (powNat alpha 2) + p3 * (powNat alpha 3) + p4 * (powNat alpha 4)

/-- `lowlevel/morellif16.py` 148-150, 194-194 (`Cnr`) -/
def morelliCnr (alpha : Fl R) : Fl R :=
  let q0 : Fl R := -3.698756e-1
  let q1 : Fl R := -1.167551e-1
  let q2 : Fl R := -7.641297e-1
  q0 + q1 * alpha + q2 * (powNat alpha 2)

/-- `lowlevel/morellif16.py` 152-161, 195-196 (`Cnda`) -/
def morelliCnda (alpha beta : Fl R) : Fl R :=
  let r0 : Fl R := -3.348717e-2
  let r1 : Fl R := 4.276655e-2
  let r2 : Fl R := 6.573646e-3
  let r3 : Fl R := 3.535831e-1
  let r4 : Fl R := -1.373308
  let r5 : Fl R := 1.237582
  let r6 : Fl R := 2.302543e-1
  let r7 : Fl R := -2.512876e-1
  let r8 : Fl R := 1.588105e-1
  let r9 : Fl R := -5.199526e-1
  r0 + r1 * alpha + r2 * beta + r3 * alpha * beta + r4 * (powNat alpha 2) * beta + r5 * (powNat alpha 3) * beta + r6 * (powNat alpha 2) + r7 * (powNat alpha 3) + r8 * (powNat beta 3) + r9 * alpha * (powNat beta 3)

/-- `lowlevel/morellif16.py` 163-168, 197-197 (`Cndr`) -/
def morelliCndr (alpha beta : Fl R) : Fl R :=
  let s0 : Fl R := -8.115894e-2
  let s1 : Fl R := -1.156580e-2
  let s2 : Fl R := 2.514167e-2
  let s3 : Fl R := 2.038748e-1
  let s4 : Fl R := -3.337476e-1
  let s5 : Fl R := 1.004297e-1
  s0 + s1 * alpha + s2 * beta + s3 * alpha * beta + s4 * (powNat alpha 2) * beta + s5 * (powNat alpha 2)

/-- A set of aerodynamic coefficients: three forces, three moments. -/
structure Coefs {K : Type} (R : Fmt K) where
  cx : Fl R
  cy : Fl R
  cz : Fl R
  cl : Fl R
  cm : Fl R
  cn : Fl R

/-- `max(-lim * pi / 180, min(lim' * pi / 180, x))`: `lowlevel/morellif16.py` 28-32 -/
def clampDeg (lo hi x : Fl R) : Fl R := Fl.pyMax (lo * Fl.pi / 180) (Fl.pyMin (hi * Fl.pi / 180) x)

/-- `lowlevel/morellif16.py` 22-207 (`Morellif16`). Not modelled: the debug `print()` of 173-174, which has no effect on the
result. -/
def morellif16 (alpha beta de da dr p q r cbar b V xcg xcgref : Fl R) : Coefs R :=
  let alpha := clampDeg (-10) 45 alpha
  let beta := clampDeg (-30) 30 beta
  let de := clampDeg (-25) 25 de
  let da := clampDeg (-21.5) 21.5 da
  let dr := clampDeg (-30) 30 dr
  let phat := p * b / (2 * V)
  let qhat := q * cbar / (2 * V)
  let rhat := r * b / (2 * V)
  let Cx0 := morelliCx0 alpha de
  let Cxq := morelliCxq alpha
  let Cy0 := morelliCy0 beta da dr
  let Cyp := morelliCyp alpha
  let Cyr := morelliCyr alpha
  let Cz0 := morelliCz0 alpha beta de
  let Czq := morelliCzq alpha
  let Cl0 := morelliCl0 alpha beta
  let Clp := morelliClp alpha
  let Clr := morelliClr alpha
  let Clda := morelliClda alpha beta
  let Cldr := morelliCldr alpha beta
  let Cm0 := morelliCm0 alpha de
  let Cmq := morelliCmq alpha
  let Cn0 := morelliCn0 alpha beta
  let Cnp := morelliCnp alpha
  let Cnr := morelliCnr alpha
  let Cnda := morelliCnda alpha beta
  let Cndr := morelliCndr alpha beta
  let Cx := Cx0 + Cxq * qhat
  let Cy := Cy0 + Cyp * phat + Cyr * rhat
  let Cz := Cz0 + Czq * qhat
  let Cl := Cl0 + Clp * phat + Clr * rhat + Clda * da + Cldr * dr
  let Cm := Cm0 + Cmq * qhat + Cz * (xcgref - xcg)
  let Cn := Cn0 + Cnp * phat + Cnr * rhat + Cnda * da + Cndr * dr - Cy * (xcgref - xcg) * (cbar / b)
  ⟨Cx, Cy, Cz, Cl, Cm, Cn⟩

variable [FloorRing K]

/-- the component build-up: `lowlevel/subf16_model.py` 110-127. `alpha`, `beta` and the surfaces are in degrees. -/
def buildUp (model : String) (alpha beta el ail rdr p q r vt : Fl R) : Py (Coefs R) :=
  if model = "stevens" then do
    let dail := ail / 20
    let drdr := rdr / 30
    let cxt ← cx alpha el
    let cyt := cy beta ail rdr
    let czt ← cz alpha beta el
    let cl0 ← cl alpha beta
    let la ← dlda alpha beta
    let lr ← dldr alpha beta
    let clt := cl0 + la * dail + lr * drdr
    let cmt ← cm alpha el
    let cn0 ← cn alpha beta
    let na ← dnda alpha beta
    let nr ← dndr alpha beta
    let cnt := cn0 + na * dail + nr * drdr
    .ok ⟨cxt, cyt, czt, clt, cmt, cnt⟩
  else
    .ok (morellif16 (alpha * Fl.pi / 180) (beta * Fl.pi / 180) (el * Fl.pi / 180) (ail * Fl.pi / 180)
      (rdr * Fl.pi / 180) p q r 11.32 30 vt 0.35 0.35)

/-- the damping derivatives are added: `lowlevel/subf16_model.py` 129-142 -/
def addDamping (c : Coefs R) (alpha p q r vt : Fl R) : Py (Coefs R) := do
  let tvt := (0.5 : Fl R) / vt
  let b2v := 30 * tvt
  let cq := 11.32 * q * tvt
  let d ← dampp alpha
  let d0 ← getIdx d 0
  let d1 ← getIdx d 1
  let d2 ← getIdx d 2
  let d3 ← getIdx d 3
  let d4 ← getIdx d 4
  let d5 ← getIdx d 5
  let d6 ← getIdx d 6
  let d7 ← getIdx d 7
  let d8 ← getIdx d 8
  let cxt := c.cx + cq * d0
  let cyt := c.cy + b2v * (d1 * r + d2 * p)
  let czt := c.cz + cq * d3
  let clt := c.cl + b2v * (d4 * r + d5 * p)
  let cmt := c.cm + cq * d6 + czt * ((0.35 : Fl R) - 0.35)
  let cnt := c.cn + b2v * (d7 * r + d8 * p) - cyt * ((0.35 : Fl R) - 0.35) * 11.32 / 30
  .ok ⟨cxt, cyt, czt, clt, cmt, cnt⟩

/-- what `subf16_model` returns -/
structure SubOut {K : Type} (R : Fmt K) where
  xd : Vec R
  nz : Fl R
  ny : Fl R
  az : Fl R
  ay : Fl R

/-- the state equations, navigation and outputs: `lowlevel/subf16_model.py` 143-212. `pd` is the power derivative of line 107. -/
def stateEquations (vt x1 x2 phi theta psi p q r : Fl R) (qbar t pd : Fl R) (c : Coefs R) (adjustCy : Bool) : Py (SubOut R) := do
  let g : Fl R := 32.17
  let cbta ← mathCos x2
  let ca ← mathCos x1
  let u := vt * ca * cbta
  let sb ← mathSin x2
  let v := vt * sb
  let sa ← mathSin x1
  let w := vt * sa * cbta
  let sth ← mathSin theta
  let cth ← mathCos theta
  let sph ← mathSin phi
  let cph ← mathCos phi
  let spsi ← mathSin psi
  let cpsi ← mathCos psi
  let qs := qbar * 300
  let qsb := qs * 30
  let rmqs := (1.57e-3 : Fl R) * qs
  let gcth := g * cth
  let qsph := q * sph
  let ay := rmqs * c.cy
  let az := rmqs * c.cz
  let udot := r * v - q * w - g * sth + 1.57e-3 * (qs * c.cx + t)
  let vdot := p * w - r * u + gcth * sph + ay
  let wdot := q * u - p * v + gcth * cph + az
  let dum := u * u + w * w
  let xd0 := (u * udot + v * vdot + w * wdot) / vt
  let xd1 := (u * wdot - w * udot) / dum
  let xd2 := (vt * vdot - v * xd0) * cbta / dum
  let tth ← pyDiv sth cth
  let xd3 := p + tth * (qsph + r * cph)
  let xd4 := q * cph - r * sph
  let xd5 := (qsph + r * cph) / cth
  let xd6 := (0.02755 * p + -0.770 * r + 1.642e-6 * 160) * q + qsb * (1.055e-4 * c.cl + 1.642e-6 * c.cn)
  let xd7 := (0.9604 * p - 1.792e-5 * 160) * r + 1.759e-2 * (r * r - p * p) + qs * 11.32 * 1.792e-5 * c.cm
  let xd8 := (-0.7336 * p - 0.02755 * r + 1.587e-5 * 160) * q + qsb * (1.642e-6 * c.cl + 1.587e-5 * c.cn)
  let t1 := sph * cpsi
  let t2 := cph * sth
  let t3 := sph * spsi
  let s1 := cth * cpsi
  let s2 := cth * spsi
  let s3 := t1 * sth - cph * spsi
  let s4 := t3 * sth + cph * cpsi
  let s5 := sph * cth
  let s6 := t2 * cpsi + t3
  let s7 := t2 * spsi - t1
  let s8 := cph * cth
  let xd9 := u * s1 + v * s3 + w * s6
  let xd10 := u * s2 + v * s4 + w * s7
  let xd11 := u * sth - v * s5 - w * s8
  let az' := az - 15 * xd7
  let ay' := if adjustCy then ay + 15 * xd8 else ay
  let nz := -az' / g - 1
  let ny := ay' / g
  .ok ⟨[xd0, xd1, xd2, xd3, xd4, xd5, xd6, xd7, xd8, xd9, xd10, xd11, pd], nz, ny, az', ay'⟩

/-- `lowlevel/subf16_model.py` 58-212 (`subf16_model`) -/
def subf16 (x u : Vec R) (model : String) (adjustCy : Bool := true) : Py (SubOut R) :=
  if model = "stevens" ∨ model = "morelli" then
    match x, u with
    | [vt, x1, x2, phi, theta, psi, p, q, r, _, _, alt, power], [thtlc, el, ail, rdr] => do
      let alpha := x1 * 57.29578
      let beta := x2 * 57.29578
      let (amach, qbar) ← adc vt alt
      let cpow := tgear thtlc
      let pd := pdot power cpow
      let t ← thrust power alt amach
      let c ← buildUp model alpha beta el ail rdr p q r vt
      let c ← addDamping c alpha p q r vt
      stateEquations vt x1 x2 phi theta psi p q r qbar t pd c adjustCy
    | _, _ => .error .assertionError
  else .error .assertionError

/-! ## The low-level controller -/

/-- `lowlevel/low_level_controller.py` 20-36 (`CtrlLimits`). The `Nz` limits, which nothing reads, are left out. -/
structure CtrlLimits {K : Type} (R : Fmt K) where
  throttleMax : Fl R
  throttleMin : Fl R
  elevatorMaxDeg : Fl R
  elevatorMinDeg : Fl R
  aileronMaxDeg : Fl R
  aileronMinDeg : Fl R
  rudderMaxDeg : Fl R
  rudderMinDeg : Fl R

/-- `lowlevel/low_level_controller.py` 23-36 (`CtrlLimits.__init__`) -/
def CtrlLimits.new : CtrlLimits R where
  throttleMax := 1
  throttleMin := 0
  elevatorMaxDeg := 25
  elevatorMinDeg := -25
  aileronMaxDeg := 21.5
  aileronMinDeg := -21.5
  rudderMaxDeg := 30
  rudderMinDeg := -30

/-- the attributes of a `LowLevelController` (`lowlevel/low_level_controller.py` 51-70) -/
structure Llc {K : Type} (R : Fmt K) where
  kLqr : Mat R
  xequil : Vec R
  uequil : Vec R
  ctrlLimits : CtrlLimits R

/-- `lowlevel/low_level_controller.py` 43-70 (`LowLevelController.__init__`): the longitudinal gains in the top left corner of a
3 by 8 zero matrix, the lateral ones in the bottom right. -/
def Llc.new (gainStr : String := "old") : Py (Llc R) :=
  if gainStr = "old" then .ok {
    kLqr := ⟨[
      [-156.8801506723475, -31.037008068526642, -38.72983346216317, 0, 0, 0, 0, 0],
      [0, 0, 0, 37.84483, -25.40956, -6.82876, -332.88343, -17.15997],
      [0, 0, 0, -23.91233, 5.69968, -21.63431, 64.49490, -88.36203]], 8⟩
    xequil := [502.0, 0.0389, 0.0, 0.0, 0.0389, 0.0, 0.0, 0.0, 0.0, 0.0, 0.0, 1000.0, 9.0567]
    uequil := [0.1395, -0.7496, 0.0, 0.0]
    ctrlLimits := CtrlLimits.new }
  else .error .assertionError

/-- `max(min(x, hi), lo)` with Python's `min` and `max`: `lowlevel/low_level_controller.py` 100-109 -/
def saturate (x lo hi : Fl R) : Fl R := Fl.pyMax (Fl.pyMin x hi) lo

/-- `lowlevel/low_level_controller.py` 72-111 (`get_u_deg`): the controller's state vector and the surface commands. The caller's
state is copied first, so it is not an output. -/
def Llc.getUDeg (l : Llc R) (uRef f16State : Vec R) : Py (Vec R × Vec R) := do
  let n := l.xequil.length
  let head ← if n ≤ f16State.length then vsub (f16State.take n) l.xequil else .error .valueError
  let xDelta := head ++ f16State.drop n
  let x1 ← getIdx xDelta 1
  let x7 ← getIdx xDelta 7
  let x13 ← getIdx xDelta 13
  let x2 ← getIdx xDelta 2
  let x6 ← getIdx xDelta 6
  let x8 ← getIdx xDelta 8
  let x14 ← getIdx xDelta 14
  let x15 ← getIdx xDelta 15
  let xCtrl := [x1, x7, x13, x2, x6, x8, x14, x15]
  let fb ← matVec ⟨l.kLqr.rows.map (fun row => row.map (fun k => -k)), l.kLqr.ncols⟩ xCtrl
  let u0 ← getIdx uRef 3
  let uDeg ← vadd (u0 :: fb) l.uequil
  let lim := l.ctrlLimits
  match uDeg with
  | [t, e, a, d] =>
    .ok (xCtrl, [saturate t lim.throttleMin lim.throttleMax, saturate e lim.elevatorMinDeg lim.elevatorMaxDeg,
      saturate a lim.aileronMinDeg lim.aileronMaxDeg, saturate d lim.rudderMinDeg lim.rudderMaxDeg])
  | _ => .error .valueError

/-- `lowlevel/low_level_controller.py` 113-116 -/
def numIntegrators : Nat := 3

/-- `lowlevel/low_level_controller.py` 118-121 (`get_integrator_derivatives`) -/
def integratorDerivatives (uRef : Vec R) (nz ps nyR : Fl R) : Py (Vec R) := do
  let r0 ← getIdx uRef 0
  let r1 ← getIdx uRef 1
  let r2 ← getIdx uRef 2
  .ok [nz - r0, ps - r1, nyR - r2]

/-! ## The controlled aircraft -/

/-- `numpy.deg2rad`: multiplication with the constant `pi / 180` -/
def deg2rad (x : Fl R) : Fl R := x * (Fl.pi / 180)

/-- what `controlled_f16` returns -/
structure ControlledOut {K : Type} (R : Fmt K) where
  xd : Vec R
  uRad : Vec R
  nz : Fl R
  ps : Fl R
  nyR : Fl R

/-- `controlled_f16.py` 26-71 (`controlled_f16`), for array arguments and a `LowLevelController` (the two `isinstance` assertions
hold by typing). -/
def controlledF16 (x uRef : Vec R) (llc : Llc R) (model : String := "morelli") (v2 : Bool := false) : Py (ControlledOut R) :=
  if uRef.length ≠ 4 then .error .assertionError
  else if ¬ (model = "stevens" ∨ model = "morelli") then .error .assertionError
  else do
    let (xCtrl, uDeg) ← llc.getUDeg uRef x
    let out ← subf16 (x.take 13) uDeg model
    let (ps, nyR) ← (if v2 then do
        let xd1 ← getIdx out.xd 1
        let xd6 ← getIdx out.xd 6
        let xd8 ← getIdx out.xd 8
        let c ← mathCos xd1
        let s ← mathSin xd1
        .ok (xd6 * c + xd8 * s, out.ny + xd8)
      else do
        let c0 ← getIdx xCtrl 0
        let c4 ← getIdx xCtrl 4
        let c5 ← getIdx xCtrl 5
        let c ← mathCos c0
        let s ← mathSin c0
        .ok (c4 * c + c5 * s, out.ny + c5) : Py (Fl R × Fl R))
    let intDer ← integratorDerivatives uRef out.nz ps nyR
    let xd := out.xd ++ intDer ++ List.replicate (x.length - (out.xd.length + numIntegrators)) 0
    let u0 ← getIdx uDeg 0
    let u1 ← getIdx uDeg 1
    let u2 ← getIdx uDeg 2
    let u3 ← getIdx uDeg 3
    let uRad := [u0, deg2rad u1, deg2rad u2, deg2rad u3] ++ uRef.take 3
    .ok ⟨xd, uRad, out.nz, ps, nyR⟩

/-! ## Trim -/

/-- the 12-tuple of trim constants (`lowlevel/conf16.py` 26-27) -/
structure TrimConst {K : Type} (R : Fmt K) where
  radgam : Fl R
  singam : Fl R
  rr : Fl R
  pr : Fl R
  tr : Fl R
  phi : Fl R
  cphi : Fl R
  sphi : Fl R
  thetadot : Fl R
  coord : Fl R
  stab : Fl R
  orient : Fl R

/-- `lowlevel/conf16.py` 23-70 (`conf16`): the contents of `x` afterwards; `u` is returned unchanged. Simplification: when an index
is out of range the assignments made before it are lost. -/
def conf16 (x u : Vec R) (k : TrimConst R) : Py (Vec R × Vec R) := do
  let x ← if Fl.eqb k.orient 1 then do
      let x ← setIdx x 3 k.phi
      let a ← getIdx x 1
      let x ← setIdx x 4 a
      let x ← setIdx x 6 k.rr
      let x ← setIdx x 7 k.pr
      setIdx x 8 0.0
    else pure x
  let x ← if Fl.eqb k.orient 2 then do
      let x ← setIdx x 3 k.phi
      let a ← getIdx x 1
      let x ← setIdx x 4 (a + k.radgam)
      let x ← setIdx x 6 k.rr
      let x ← setIdx x 7 k.pr
      setIdx x 8 0.0
    else pure x
  let x ← if Fl.eqb k.orient 3 then do
      let th ← getIdx x 4
      let s ← mathSin th
      let x ← setIdx x 6 (-k.tr * s)
      let c ← mathCos th
      let ph ← getIdx x 3
      let sp ← mathSin ph
      let x ← setIdx x 7 (k.tr * c * sp)
      let cp ← mathCos ph
      setIdx x 8 (k.tr * c * cp)
    else pure x
  let x ← if Fl.eqb k.orient 4 then do
      let a ← getIdx x 1
      let x ← setIdx x 4 a
      let x ← setIdx x 3 k.phi
      let x ← setIdx x 6 k.rr
      let x ← setIdx x 7 k.thetadot
      setIdx x 8 0.0
    else pure x
  let u0 ← getIdx u 0
  let x ← setIdx x 12 (tgear u0)
  pure (x, u)

/-- the optimisation variables are written into `u` and `x`: `lowlevel/clf16.py` 36-48 -/
def writeTrim (s x u : Vec R) : Py (Vec R × Vec R) :=
  if s.length = 3 then do
    let s0 ← getIdx s 0
    let u ← setIdx u 0 s0
    let s1 ← getIdx s 1
    let u ← setIdx u 1 s1
    let s2 ← getIdx s 2
    let x ← setIdx x 1 s2
    pure (x, u)
  else do
    let s0 ← getIdx s 0
    let u ← setIdx u 0 s0
    let s1 ← getIdx s 1
    let u ← setIdx u 1 s1
    let s2 ← getIdx s 2
    let u ← setIdx u 2 s2
    let s3 ← getIdx s 3
    let u ← setIdx u 3 s3
    let s4 ← getIdx s 4
    let x ← setIdx x 1 s4
    let s5 ← getIdx s 5
    let x ← setIdx x 3 s5
    let s6 ← getIdx s 6
    let x ← setIdx x 4 s6
    pure (x, u)

/-- the cost of each flight condition: `lowlevel/clf16.py` 57-83. `none`: no branch assigned `r`. -/
def trimCost (k : TrimConst R) (gamm : Fl R) (vt : Fl R) (xd : Vec R) : Py (Option (Fl R)) := do
  let d0 ← getIdx xd 0
  let d1 ← getIdx xd 1
  let d2 ← getIdx xd 2
  let d4 ← getIdx xd 4
  let d5 ← getIdx xd 5
  let d6 ← getIdx xd 6
  let d7 ← getIdx xd 7
  let d8 ← getIdx xd 8
  let d11 ← getIdx xd 11
  if Fl.eqb k.orient 1 then
    .ok (some (100.0 * (powNat d0 2 + powNat d1 2 + powNat d2 2 + powNat d6 2 + powNat d7 2 + powNat d8 2)))
  else if Fl.eqb k.orient 2 then do
    let s ← mathSin gamm
    .ok (some (500.0 * powNat (d11 - vt * s) 2 + powNat d0 2 + 100.0 * (powNat d1 2 + powNat d2 2) +
      10.0 * (powNat d6 2 + powNat d7 2 + powNat d8 2)))
  else if Fl.eqb k.orient 3 then
    .ok (some (d0 * d0 + 100.0 * (d1 * d1 + d2 * d2 + d11 * d11) + 10.0 * (d6 * d6 + d7 * d7 + d8 * d8) +
      500.0 * powNat (d5 - k.tr) 2))
  else if Fl.eqb k.orient 4 then
    .ok (some (500.0 * powNat (d4 - k.thetadot) 2 + powNat d0 2 + 100.0 * (powNat d1 2 + powNat d2 2) +
      10.0 * (powNat d6 2 + powNat d7 2 + powNat d8 2)))
  else .ok none

/-- `lowlevel/clf16.py` 25-91 (`clf16`): the cost and the contents of `x` and `u` afterwards. Simplification: the assignments made
before an exception are lost. -/
def clf16 (s x u : Vec R) (k : TrimConst R) (model : String := "stevens") (adjustCy : Bool := true) : Py (Fl R × Vec R × Vec R) := do
  let gamm ← mathAsin k.singam
  let (x, u) ← writeTrim s x u
  let u0 ← getIdx u 0
  let x ← setIdx x 12 (tgear u0)
  let (x, u) ← conf16 x u k
  let out ← subf16 x u model adjustCy
  let vt ← getIdx x 0
  let r ← trimCost k gamm vt out.xd
  match r with
  | none => .error .unboundLocalError
  | some r => .ok (if r < 1.0 then powFl r 0.5 else r, x, u)

end
end SAD.Aero
