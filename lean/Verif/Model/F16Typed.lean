import Verif.Model.AeroUtil
import Verif.Model.Attr

/-!
# The F-16 functions given an array of another dtype

A state vector made from a list of Python integers is an int64 array, and one from a reinforcement-learning library is often a float32 array. `x.copy()` has the
dtype of `x`, and whatever is stored in it is converted to that dtype.
-/

namespace SAD.Aero
open SAD

section
variable {K : Type} {R : Fmt K} [Field K] [LinearOrder K]

/-- an arithmetic operation between two elements of an array (`lowlevel/subf16_model.py` 179): float32 elements give a float32 number. (The product of two float32
numbers is a float64 number, and rounding the sum of two first to float64 and then to float32 is rounding it to float32.) For int64 see `subf16Typed`. -/
def _root_.SAD.DType.between (d : DType) (v : Fl R) : Fl R :=
  match d with
  | .f32 => v.cast32
  | _ => v

/-- `a op= b` for an array `a` of dtype `d` and a float64 array `b` of one dimension (`lowlevel/low_level_controller.py` 77, `util.py` 104): computed in float64, then
converted to the dtype of `a`, which NumPy does only within a kind: for an int64 array it raises `UFuncTypeError`, a `TypeError`, before it looks at the
shapes. `b` is broadcast to the shape of `a`. -/
def _root_.SAD.DType.inPlace (d : DType) (a b : Vec R) (op : Fl R → Fl R → Fl R) : Py (Vec R) :=
  match d with
  | .i64 => .error .typeError
  | .f64 => broadcast op
  | .f32 => (broadcast op).map fun v => v.map Fl.cast32
where
  /-- the float64 result -/
  broadcast (op : Fl R → Fl R → Fl R) : Py (Vec R) :=
    if b.length = a.length then .ok (List.zipWith op a b)
    else match b with
      | [c] => .ok (a.map fun x => op x c)
      | _ => .error .valueError

end

section
variable {K : Type} {R : Fmt K} [Field K] [LinearOrder K] [FloorRing K]

/-- `lowlevel/subf16_model.py` 143-212, with the stores in `xd` (an array of dtype `d`) in the order of the code; lines 169 (`xd[2]`), 201 (`az`) and 206 (`ay`) read
back what was stored. -/
def stateEquationsTyped (d : DType) (vt x1 x2 phi theta psi p q r : Fl R) (qbar t pd : Fl R) (c : Coefs R) (adjustCy : Bool) : Py (SubOut R) := do
  let g : Fl R := 32.17
  let cbta ← mathCos x2
  let ca ← mathCos x1
  let u := vt * ca * cbta
  let sb ← mathSin x2
  let v := vt * sb
  let sa ← mathSin x1
  let w := vt * sa * cbta
  let sth ← mathSin theta
  let cth ← mathCos theta
  let sph ← mathSin phi
  let cph ← mathCos phi
  let spsi ← mathSin psi
  let cpsi ← mathCos psi
  let qs := qbar * 300
  let qsb := qs * 30
  let rmqs := (1.57e-3 : Fl R) * qs
  let gcth := g * cth
  let qsph := q * sph
  let ay := rmqs * c.cy
  let az := rmqs * c.cz
  let udot := r * v - q * w - g * sth + 1.57e-3 * (qs * c.cx + t)
  let vdot := p * w - r * u + gcth * sph + ay
  let wdot := q * u - p * v + gcth * cph + az
  let dum := u * u + w * w
  let xd0 ← d.store ((u * udot + v * vdot + w * wdot) / vt)
  let xd1 ← d.store ((u * wdot - w * udot) / dum)
  let xd2 ← d.store ((vt * vdot - v * xd0) * cbta / dum)
  let tth ← pyDiv sth cth
  let xd3 ← d.store (p + tth * (qsph + r * cph))
  let xd4 ← d.store (q * cph - r * sph)
  let xd5 ← d.store ((qsph + r * cph) / cth)
  let xd6 ← d.store ((0.02755 * p + -0.770 * r + 1.642e-6 * 160) * q + qsb * (1.055e-4 * c.cl + 1.642e-6 * c.cn))
  let xd7 ← d.store ((0.9604 * p - 1.792e-5 * 160) * r + 1.759e-2 * (d.between (d.between (r * r) - d.between (p * p))) + qs * 11.32 * 1.792e-5 * c.cm)
  let xd8 ← d.store ((-0.7336 * p - 0.02755 * r + 1.587e-5 * 160) * q + qsb * (1.642e-6 * c.cl + 1.587e-5 * c.cn))
  let t1 := sph * cpsi
  let t2 := cph * sth
  let t3 := sph * spsi
  let s1 := cth * cpsi
  let s2 := cth * spsi
  let s3 := t1 * sth - cph * spsi
  let s4 := t3 * sth + cph * cpsi
  let s5 := sph * cth
  let s6 := t2 * cpsi + t3
  let s7 := t2 * spsi - t1
  let s8 := cph * cth
  let xd9 ← d.store (u * s1 + v * s3 + w * s6)
  let xd10 ← d.store (u * s2 + v * s4 + w * s7)
  let xd11 ← d.store (u * sth - v * s5 - w * s8)
  let az' := az - 15 * xd7
  let ay' := if adjustCy then ay + 15 * xd8 else ay
  let nz := -az' / g - 1
  let ny := ay' / g
  .ok ⟨[xd0, xd1, xd2, xd3, xd4, xd5, xd6, xd7, xd8, xd9, xd10, xd11, pd], nz, ny, az', ay'⟩

/-- `lowlevel/subf16_model.py` 58-212 (`subf16_model`) for an array `x` of dtype `d`: `xd = x.copy()` (line 90) has that dtype. The code combines elements of `x` mostly
with Python floats and the results of `math` functions, which gives float64 numbers. Simplifications for int64: the elements are small enough (say
below 2^25) for what the code computes in integer arithmetic (`r * r - p * p`, `p * b`, `2 * V`) to be exact also in float64; storing a derivative that is
not finite or does not fit in 64 bits is storing a Python float (a NumPy float gives some integer instead of the error), and nothing is claimed about
that case. -/
def subf16Typed (d : DType) (x u : Vec R) (model : String) (adjustCy : Bool := true) : Py (SubOut R) :=
  if model = "stevens" ∨ model = "morelli" then
    match x, u with
    | [vt, x1, x2, phi, theta, psi, p, q, r, _, _, alt, power], [thtlc, el, ail, rdr] => do
      let alpha := x1 * 57.29578
      let beta := x2 * 57.29578
      let (amach, qbar) ← adc vt alt
      let cpow := tgear thtlc
      let pd ← d.store (pdot power cpow)
      let t ← thrust power alt amach
      let c ← buildUp model alpha beta el ail rdr p q r vt
      let c ← addDamping c alpha p q r vt
      stateEquationsTyped d vt x1 x2 phi theta psi p q r qbar t pd c adjustCy
    | _, _ => .error .assertionError
  else .error .assertionError

/-- `lowlevel/low_level_controller.py` 72-111 (`get_u_deg`) for a state of dtype `d`: `x_delta` has that dtype and line 77 works in place -/
def Llc.getUDegTyped (d : DType) (l : Llc R) (uRef f16State : Vec R) : Py (Vec R × Vec R) := do
  let n := l.xequil.length
  let head ← d.inPlace (f16State.take n) l.xequil (· - ·)
  let xDelta := head ++ f16State.drop n
  let x1 ← getIdx xDelta 1
  let x7 ← getIdx xDelta 7
  let x13 ← getIdx xDelta 13
  let x2 ← getIdx xDelta 2
  let x6 ← getIdx xDelta 6
  let x8 ← getIdx xDelta 8
  let x14 ← getIdx xDelta 14
  let x15 ← getIdx xDelta 15
  let xCtrl := [x1, x7, x13, x2, x6, x8, x14, x15]
  let fb ← matVec ⟨l.kLqr.rows.map (fun row => row.map (fun k => -k)), l.kLqr.ncols⟩ xCtrl
  let u0 ← getIdx uRef 3
  let uDeg ← vadd (u0 :: fb) l.uequil
  let lim := l.ctrlLimits
  match uDeg with
  | [t, e, a, d] =>
    .ok (xCtrl, [saturate t lim.throttleMin lim.throttleMax, saturate e lim.elevatorMinDeg lim.elevatorMaxDeg,
      saturate a lim.aileronMinDeg lim.aileronMaxDeg, saturate d lim.rudderMinDeg lim.rudderMaxDeg])
  | _ => .error .valueError

/-- `controlled_f16.py` 26-71 (`controlled_f16`) for a state of dtype `d` -/
def controlledF16Typed (d : DType) (x uRef : Vec R) (llc : Llc R) (model : String := "morelli") (v2 : Bool := false) : Py (ControlledOut R) :=
  if uRef.length ≠ 4 then .error .assertionError
  else if ¬ (model = "stevens" ∨ model = "morelli") then .error .assertionError
  else do
    let (xCtrl, uDeg) ← llc.getUDegTyped d uRef x
    let out ← subf16Typed d (x.take 13) uDeg model
    let (ps, nyR) ← (if v2 then do
        let xd1 ← getIdx out.xd 1
        let xd6 ← getIdx out.xd 6
        let xd8 ← getIdx out.xd 8
        let c ← mathCos xd1
        let s ← mathSin xd1
        .ok (xd6 * c + xd8 * s, out.ny + xd8)
      else do
        let c0 ← getIdx xCtrl 0
        let c4 ← getIdx xCtrl 4
        let c5 ← getIdx xCtrl 5
        let c ← mathCos c0
        let s ← mathSin c0
        .ok (c4 * c + c5 * s, out.ny + c5) : Py (Fl R × Fl R))
    let intDer ← integratorDerivatives uRef out.nz ps nyR
    let xd := out.xd ++ intDer ++ List.replicate (x.length - (out.xd.length + numIntegrators)) 0
    let u0 ← getIdx uDeg 0
    let u1 ← getIdx uDeg 1
    let u2 ← getIdx uDeg 2
    let u3 ← getIdx uDeg 3
    let uRad := [u0, deg2rad u1, deg2rad u2, deg2rad u3] ++ uRef.take 3
    .ok ⟨xd, uRad, out.nz, ps, nyR⟩

end

section
variable {K : Type} {R : Fmt K} [Field K] [LinearOrder K]

/-- `util.py` 90-107 (`Euler.step`) when `y` is an array of dtype `d` (`ystart.copy()`, line 79) and the times are floats or the derivative is an array of floats: line 104
works in place -/
def Euler.stepTyped (d : DType) (e : Euler R) : Option PyErr × Euler R :=
  match e.status with
  | .finished => (none, e)
  | .running =>
    let e := { e with yprev := some e.y, tprev := some e.t }
    match e.derFunc e.t e.y with
    | .error err => (some err, e)
    | .ok yd =>
      let told := e.t
      let t := e.t + e.tstep
      let t := if e.tend ≤ t + e.timeTol then e.tend else t
      let e := { e with t := t }
      let dt := e.t - told
      match d.inPlace e.y (vscale dt yd) (· + ·) with
      | .error err => (some err, e)
      | .ok y =>
        let e := { e with y := y }
        (none, if Fl.eqb e.t e.tend then { e with status := .finished } else e)

/-- calling `step` again and again, whatever it raises (`util.py` 90) -/
def Euler.runTyped (d : DType) : ℕ → Euler R → Euler R
  | 0, e => e
  | n + 1, e => Euler.runTyped d n (e.stepTyped d).2

end

end SAD.Aero
