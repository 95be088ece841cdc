import Verif.Model.Config
import Verif.Model.Integrators

/-!
# `safe_autonomy_dynamics/cwh`: point-mass spacecraft and sun
-/

namespace SAD

section
variable {K : Type} {R : Fmt K} [Field K] [LinearOrder K]

/-- `generate_cwh_matrices(m, n, mode)` (cwh/point_model.py:271-327). Simplification: where `n**2` overflows Python raises `OverflowError`; here it
is infinite. -/
def generateCwhMatrices (m n : Fl R) (mode : String) : Py (Mat R × Mat R) :=
  if mode = "2d" then do
    let k ← pyDiv 1 m
    pure (⟨[[0, 0, 1, 0], [0, 0, 0, 1], [3 * (n * n), 0, 0, 2 * n], [0, 0, -2 * n, 0]], 4⟩,
      ⟨[[0, 0], [0, 0], [k, 0], [0, k]], 2⟩)
  else if mode = "3d" then do
    let k ← pyDiv 1 m
    pure (⟨[[0, 0, 0, 1, 0, 0], [0, 0, 0, 0, 1, 0], [0, 0, 0, 0, 0, 1], [3 * (n * n), 0, 0, 0, 2 * n, 0],
        [0, 0, 0, -2 * n, 0, 0], [0, 0, -(n * n), 0, 0, 0]], 6⟩,
      ⟨[[0, 0, 0], [0, 0, 0], [0, 0, 0], [k, 0, 0], [0, k, 0], [0, 0, k]], 3⟩)
  else .error .assertionError

/-- `CWHDynamics.__init__` (cwh/point_model.py:262-268) -/
def mkCwhDynamics (env : Env R) (m n : Fl R) (args : DynArgs R) : Py (Dyn R) := do
  let (A, B) ← generateCwhMatrices m n "3d"
  mkLinearDyn env args A B

/-- constructor arguments of `CWHSpacecraft`; `m` and `n` default to 12 and 0.001027 -/
structure CwhArgs {K : Type} (R : Fmt K) [Field K] [LinearOrder K] where
  m : Fl R := 12
  n : Fl R := 0.001027
  trajectorySamples : Option Int := some 0
  integrationMethod : String := "RK45"
  kwargs : List (String × CfgVal R)

/-- `CWHSpacecraftValidator` (cwh/point_model.py:60-65) -/
def cwhFields : List (CfgField R) :=
  [⟨"x", .inUnit .meters, 0⟩, ⟨"y", .inUnit .meters, 0⟩, ⟨"z", .inUnit .meters, 0⟩,
   ⟨"x_dot", .inUnit (PUnit.meters.div .seconds), 0⟩, ⟨"y_dot", .inUnit (PUnit.meters.div .seconds), 0⟩,
   ⟨"z_dot", .inUnit (PUnit.meters.div .seconds), 0⟩]

/-- `CWHSpacecraft.__init__` (cwh/point_model.py:104-115) with `_build_state` (129-134) -/
def initCwhSpacecraft (env : Env R) (a : CwhArgs R) : Py (Entity R) := do
  let d ← mkCwhDynamics env a.m a.n { trajectorySamples := a.trajectorySamples, integrationMethod := a.integrationMethod }
  baseInit cwhFields ["x", "y", "z", "x_dot", "y_dot", "z_dot"] d [0, 0, 0] (.scalar (-1)) (.scalar 1)
    (some [("thrust_x", 0), ("thrust_y", 1), ("thrust_z", 2)]) a.kwargs

/-- `CWHSpacecraft(...)` -/
def newCwhSpacecraft (env : Env R) (a : CwhArgs R) : Py (Entity R) := instantiate mroCWHSpacecraft (initCwhSpacecraft env a)

/-- `CWHSpacecraft.position` (cwh/point_model.py:181-184), also `SixDOFSpacecraft.position` -/
def cwhPosition (e : Entity R) : Vec R := e.state.take 3
/-- `CWHSpacecraft.velocity` (cwh/point_model.py:200-203) -/
def cwhVelocity (e : Entity R) : Vec R := (e.state.drop 3).take 3

/-- `CWHSpacecraft.__eq__` (cwh/point_model.py:121-127); `other` is `none` for an object of another class. `identityEuler` is
SciPy's `Rotation.from_quat([0, 0, 0, 1]).as_euler("ZYX")`, the same external constant for both objects. -/
def cwhEq (identityEuler : Vec R) (self : Entity R) (other : Option (Entity R)) : Py Bool :=
  match other with
  | none => .ok false
  | some other => do
    if ← allEq (cwhVelocity self) (cwhVelocity other) then
      if ← allEq (cwhPosition self) (cwhPosition other) then allEq identityEuler identityEuler
      else pure false
    else pure false

/-- The simulator object: `none` when no simulator is set; otherwise the dict `sim.sim_entities`, with the position and
velocity of each entity. -/
abbrev SimEntities {K : Type} (R : Fmt K) := Option (List (String × (Vec R × Vec R)))

/-- `entity_relative_position` (cwh/point_model.py:215-229; the same code in rotational_model.py and sixdof_model.py) for an
entity at `position` -/
def relativePosition (sim : SimEntities R) (position : Vec R) (name : String) : Py (Vec R) :=
  match sim with
  | none => .error .attributeError
  | some m => match lookup m name with
    | none => .error .keyError
    | some (p, _) => vsub p position

/-- `entity_relative_velocity` (cwh/point_model.py:231-245) -/
def relativeVelocity (sim : SimEntities R) (velocity : Vec R) (name : String) : Py (Vec R) :=
  match sim with
  | none => .error .attributeError
  | some m => match lookup m name with
    | none => .error .keyError
    | some (_, v) => vsub v velocity

/-- constructor arguments of `SunEntity` -/
structure SunArgs {K : Type} (R : Fmt K) [Field K] [LinearOrder K] where
  n : Fl R := 0.001027
  integrationMethod : String := "RK45"
  useJax : Bool := false
  kwargs : List (String × CfgVal R)

/-- `SunEntityValidator` (cwh/sun_model.py:47) -/
def sunFields : List (CfgField R) := [⟨"theta", .inUnit .radians, 0⟩]

/-- `SunDynamics` (cwh/sun_model.py:134-143): the derivative is `[n]` whatever the state and control -/
def mkSunDynamics (env : Env R) (n : Fl R) (args : DynArgs R) : Py (Dyn R) := mkOdeDyn env args (fun _ _ _ => .ok [n])

/-- `SunEntity.__init__` (cwh/sun_model.py:72-79) with `_build_state` (90-94) -/
def initSun (env : Env R) (a : SunArgs R) : Py (Entity R) := do
  let d ← mkSunDynamics env a.n { integrationMethod := a.integrationMethod, useJax := a.useJax }
  baseInit sunFields ["theta"] d [] (.scalar .ninf) (.scalar .pinf) none a.kwargs

/-- `SunEntity(...)` -/
def newSun (env : Env R) (a : SunArgs R) : Py (Entity R) := instantiate mroSun (initSun env a)

/-- `SunEntity.__eq__` (cwh/sun_model.py:85-88); `other` is `none` for an object of another class -/
def sunEq (_self : Entity R) (other : Option (Entity R)) : Bool :=
  match other with
  | some _ => true
  | none => false

end
end SAD
