import Verif.Model.Cwh
import Verif.Model.Utils

/-!
# `safe_autonomy_dynamics/cwh/sixdof_model.py`

Spacecraft with Clohessy-Wiltshire translation and three-dimensional rotation.
-/

namespace SAD

section
variable {K : Type} {R : Fmt K} [Field K] [LinearOrder K]

/-- `hamilton_product` (cwh/sixdof_model.py:598-607) -/
def hamiltonProduct (r q : Vec R) : Py (Vec R) :=
  match r, q with
  | [r0, r1, r2, r3], [q0, q1, q2, q3] => .ok [
      r0 * q0 - r1 * q1 - r2 * q2 - r3 * q3,
      r0 * q1 + r1 * q0 + r2 * q3 - r3 * q2,
      r0 * q2 - r1 * q3 + r2 * q0 + r3 * q1,
      r0 * q3 + r1 * q2 - r2 * q1 + r3 * q0]
  | _, _ => .error .indexError

/-- `apply_quat` (cwh/sixdof_model.py:576-596). Simplification: arguments longer than 3 and 4 are rejected. -/
def applyQuat (x quat : Vec R) : Py (Vec R) :=
  match quat with
  | [q1, q2, q3, q4] => do
    let p := 0 :: x
    let r := [q4, q1, q2, q3]
    let rp := [q4, -q1, -q2, -q3]
    let rotated ← hamiltonProduct (← hamiltonProduct r p) rp
    pure (rotated.drop 1)
  | _ => .error .indexError

/-- `SixDOFDynamics.state_transition_system` (cwh/sixdof_model.py:510-548); `I i j` is `inertia_matrix[i, j]` -/
def sixDofF (A : Mat R) (I : Fin 3 → Fin 3 → Fl R) (state : Vec R) : Py (Vec R) :=
  match state with
  | [x, y, z, q1, q2, q3, q4, xDot, yDot, zDot, wx, wy, wz] => do
    let pv ← matVec A [x, y, z, xDot, yDot, zDot]
    let qd0 := 0.5 * (q4 * wx - q3 * wy + q2 * wz)
    let qd1 := 0.5 * (q3 * wx + q4 * wy - q1 * wz)
    let qd2 := 0.5 * (-q2 * wx + q1 * wy + q4 * wz)
    let qd3 := 0.5 * (-q1 * wx - q2 * wy - q3 * wz)
    let wd0 := 1 / I 0 0 * ((I 1 1 - I 2 2) * wy * wz)
    let wd1 := 1 / I 1 1 * ((I 2 2 - I 0 0) * wx * wz)
    let wd2 := 1 / I 2 2 * ((I 0 0 - I 1 1) * wx * wy)
    match pv with
    | [d0, d1, d2, d3, d4, d5] =>
      pure ([d0, d1, d2, qd0, qd1, qd2, qd3, d3, d4, d5, wd0, wd1, wd2].map Fl.cast32)
    | _ => .error .indexError
  | _ => .error .valueError

/-- `SixDOFDynamics.state_transition_input` (cwh/sixdof_model.py:550-574) -/
def sixDofG (m : Fl R) (I : Fin 3 → Fin 3 → Fl R) (B : Mat R) (bodyFrame : Bool) (state : Vec R) : Py (Mat R) := do
  let quat := (state.drop 3).take 4
  let vel ← if bodyFrame then do
      let k ← pyDiv 1 m
      let r1 := vscale k (← applyQuat [1, 0, 0] quat)
      let r2 := vscale k (← applyQuat [0, 1, 0] quat)
      let r3 := vscale k (← applyQuat [0, 0, 1] quat)
      match r1, r2, r3 with
      | [a0, a1, a2], [b0, b1, b2], [c0, c1, c2] => pure [[a0, b0, c0], [a1, b1, c1], [a2, b2, c2]]
      | _, _, _ => .error .indexError
    else pure ((B.rows.drop 3).take 3)
  pure ⟨List.replicate 7 [0, 0, 0, 0, 0, 0] ++ vel.map (· ++ [0, 0, 0]) ++
    [[0, 0, 0, 1 / I 0 0, 0, 0], [0, 0, 0, 0, 1 / I 1 1, 0], [0, 0, 0, 0, 0, 1 / I 2 2]], 6⟩

/-- constructor arguments of `SixDOFDynamics` (cwh/sixdof_model.py:436-448); `dyn` holds the remaining keyword arguments -/
structure SixDofDynArgs {K : Type} (R : Fmt K) [Field K] [LinearOrder K] where
  m : Fl R
  inertiaMatrix : Fin 3 → Fin 3 → Fl R
  angAccLimit : NumInput R
  angVelLimit : NumInput R
  n : Fl R
  bodyFrameThrust : Bool := true
  stateMin : Option (Arr R) := none
  stateMax : Option (Arr R) := none
  angleWrapCenters : Option (Vec R) := none
  dyn : DynArgs R := {}

/-- `SixDOFDynamics.__init__` (cwh/sixdof_model.py:436-508). The shape assertions on the generated matrices always hold and
are not repeated. -/
def mkSixDofDynamics (env : Env R) (uninit : List Nat → Vec R) (p : SixDofDynArgs R) : Py (Dyn R) := do
  let _acc ← numberListToNp uninit p.angAccLimit [3]
  let vel ← numberListToNp uninit p.angVelLimit [3]
  let (A, B) ← generateCwhMatrices p.m p.n "3d"
  let v0 ← getIdx vel.data 0
  let v1 ← getIdx vel.data 1
  let v2 ← getIdx vel.data 2
  let stateMin := p.stateMin.getD (.vec (List.replicate 10 .ninf ++ [-v0, -v1, -v2]))
  let stateMax := p.stateMax.getD (.vec (List.replicate 10 .pinf ++ [v0, v1, v2]))
  mkOdeDyn env { p.dyn with stateMin := stateMin, stateMax := stateMax, angleWrapCenters := p.angleWrapCenters }
    (affineRhs (sixDofF A p.inertiaMatrix) (sixDofG p.m p.inertiaMatrix B p.bodyFrameThrust))

/-- `INERTIA_MATRIX_DEFAULT` (cwh/sixdof_model.py:35) -/
def inertiaMatrixDefault : Fin 3 → Fin 3 → Fl R :=
  fun i j => if i = j then 0.0573 else 0

/-- constructor arguments of `SixDOFSpacecraft` (cwh/sixdof_model.py:158-174) with the defaults of lines 34-42 -/
structure SixDofArgs {K : Type} (R : Fmt K) [Field K] [LinearOrder K] where
  m : Fl R := 12
  inertiaMatrix : Fin 3 → Fin 3 → Fl R := inertiaMatrixDefault
  angAccLimit : NumInput R := .num 0.017453
  angVelLimit : NumInput R := .num 0.034907
  inertiaWheel : Fl R := 4.1e-5
  accLimitWheel : Fl R := 181.3
  velLimitWheel : Fl R := 576
  thrustControlLimit : Fl R := 1
  bodyFrameThrust : Bool := true
  n : Fl R := 0.001027
  trajectorySamples : Option Int := some 0
  integrationMethod : String := "RK45"
  kwargs : List (String × CfgVal R)

/-- `SixDOFSpacecraftValidator` (cwh/sixdof_model.py:84-96): quaternion elements are plain floats, default 0 -/
def sixDofFields : List (CfgField R) :=
  [⟨"x", .inUnit .meters, 0⟩, ⟨"y", .inUnit .meters, 0⟩, ⟨"z", .inUnit .meters, 0⟩,
   ⟨"x_dot", .inUnit (PUnit.meters.div .seconds), 0⟩, ⟨"y_dot", .inUnit (PUnit.meters.div .seconds), 0⟩,
   ⟨"z_dot", .inUnit (PUnit.meters.div .seconds), 0⟩,
   ⟨"q1", .plain, 0⟩, ⟨"q2", .plain, 0⟩, ⟨"q3", .plain, 0⟩, ⟨"q4", .plain, 0⟩,
   ⟨"wx", .inUnit (PUnit.radians.div .seconds), 0⟩, ⟨"wy", .inUnit (PUnit.radians.div .seconds), 0⟩,
   ⟨"wz", .inUnit (PUnit.radians.div .seconds), 0⟩]

/-- one pass of the loop of `SixDOFSpacecraft.__init__` (cwh/sixdof_model.py:185-189) for axis `i`: combined acceleration limit,
combined velocity limit, moment limit. `inertia_matrix[i, i]` is a NumPy scalar: no exception on division by zero. -/
def sixDofAxis (a : SixDofArgs R) (acc vel : Vec R) (i : Fin 3) : Py (Fl R × Fl R × Fl R) := do
  let accI ← getIdx acc i
  let velI ← getIdx vel i
  let accC := Fl.pyMin accI (a.inertiaWheel * a.accLimitWheel / a.inertiaMatrix i i)
  let velC := Fl.pyMin velI (a.inertiaWheel * a.velLimitWheel / a.inertiaMatrix i i)
  pure (accC, velC, accC * a.inertiaMatrix i i)

/-- `SixDOFSpacecraft.__init__` (cwh/sixdof_model.py:158-217) with `_build_state` (247-255) -/
def initSixDof (env : Env R) (uninit : List Nat → Vec R) (a : SixDofArgs R) : Py (Entity R) := do
  let acc ← numberListToNp uninit a.angAccLimit [3]
  let vel ← numberListToNp uninit a.angVelLimit [3]
  let (a0, v0, c0) ← sixDofAxis a acc.data vel.data 0
  let (a1, v1, c1) ← sixDofAxis a acc.data vel.data 1
  let (a2, v2, c2) ← sixDofAxis a acc.data vel.data 2
  let controlLimit := [a.thrustControlLimit, a.thrustControlLimit, a.thrustControlLimit, c0, c1, c2]
  let d ← mkSixDofDynamics env uninit {
    m := a.m, inertiaMatrix := a.inertiaMatrix
    angAccLimit := .array ⟨[3], "float64", [a0, a1, a2]⟩, angVelLimit := .array ⟨[3], "float64", [v0, v1, v2]⟩
    n := a.n, bodyFrameThrust := a.bodyFrameThrust
    dyn := { trajectorySamples := a.trajectorySamples, integrationMethod := a.integrationMethod } }
  baseInit sixDofFields ["x", "y", "z", "q1", "q2", "q3", "q4", "x_dot", "y_dot", "z_dot", "wx", "wy", "wz"] d
    [0, 0, 0, 0, 0, 0] (.vec (controlLimit.map (fun x => -1 * x))) (.vec controlLimit)
    (some [("thrust_x", 0), ("thrust_y", 1), ("thrust_z", 2), ("moment_x", 3), ("moment_y", 4), ("moment_z", 5)]) a.kwargs

/-- `SixDOFSpacecraft(...)` -/
def newSixDof (env : Env R) (uninit : List Nat → Vec R) (a : SixDofArgs R) : Py (Entity R) :=
  instantiate mroSixDOF (initSixDof env uninit a)

/-- `position` (cwh/sixdof_model.py:332-335) -/
def sixDofPosition (e : Entity R) : Vec R := e.state.take 3
/-- `velocity` (cwh/sixdof_model.py:359-361) -/
def sixDofVelocity (e : Entity R) : Vec R := (e.state.drop 7).take 3
/-- `angular_velocity` (cwh/sixdof_model.py:364-366) -/
def sixDofAngularVelocity (e : Entity R) : Vec R := (e.state.drop 10).take 3

/-- `orientation` and `quaternion` (cwh/sixdof_model.py:338-356): `Rotation.from_quat([q1, q2, q3, q4]).as_quat()`. SciPy divides by
the norm and raises `ValueError` for a zero norm. -/
def sixDofQuaternion (e : Entity R) : Py (Vec R) :=
  match (e.state.drop 3).take 4 with
  | [q1, q2, q3, q4] =>
    let norm := Fl.sqrt (q1 * q1 + q2 * q2 + q3 * q3 + q4 * q4)
    if Fl.eqb norm 0 then .error .valueError
    else .ok [q1 / norm, q2 / norm, q3 / norm, q4 / norm]
  | _ => .error .indexError

/-- `SixDOFSpacecraft.__eq__` (cwh/sixdof_model.py:223-230); `other` is `none` for an object of another class -/
def sixDofEq (self : Entity R) (other : Option (Entity R)) : Py Bool :=
  match other with
  | none => .ok false
  | some other => do
    if ← allEq (sixDofVelocity self) (sixDofVelocity other) then
      if ← allEq (sixDofPosition self) (sixDofPosition other) then
        if ← allEq (← sixDofQuaternion self) (← sixDofQuaternion other) then
          allEq (sixDofAngularVelocity self) (sixDofAngularVelocity other)
        else pure false
      else pure false
    else pure false

end
end SAD
