import Verif.Model.Base

/-!
# Units, configuration validators and the entity constructor of `base_models.py`
-/

namespace SAD

/-- Physical dimension: exponents of the SI base dimensions. Angles are dimensionless (as in pint). -/
structure Dim where
  length : Int := 0
  time : Int := 0
  mass : Int := 0
  temperature : Int := 0
  current : Int := 0
  deriving DecidableEq

/-- A pint unit: its dimension and its factor to the coherent SI unit. Offset units (degC, degF) are represented without
their offset; they have no dimension in common with any unit of the code, so they can only fail to convert. -/
structure PUnit (K : Type) where
  dim : Dim
  scale : K
  deriving DecidableEq

section
variable {K : Type} [Field K]

/-- `u / v` on `pint.Unit` -/
def PUnit.div (u v : PUnit K) : PUnit K :=
  ⟨⟨u.dim.length - v.dim.length, u.dim.time - v.dim.time, u.dim.mass - v.dim.mass, u.dim.temperature - v.dim.temperature,
    u.dim.current - v.dim.current⟩, u.scale / v.scale⟩

/-- `u ** 2` on `pint.Unit` -/
def PUnit.sq (u : PUnit K) : PUnit K :=
  ⟨⟨2 * u.dim.length, 2 * u.dim.time, 2 * u.dim.mass, 2 * u.dim.temperature, 2 * u.dim.current⟩, u.scale ^ 2⟩

/-- pint's `meter`, `foot`, `second`, `radian` -/
def PUnit.meters : PUnit K := ⟨{ length := 1 }, 1⟩
def PUnit.feet : PUnit K := ⟨{ length := 1 }, 3048 / 10000⟩
def PUnit.seconds : PUnit K := ⟨{ time := 1 }, 1⟩
def PUnit.radians : PUnit K := ⟨{}, 1⟩

/-- `BaseUnits.__init__` (base_models.py:84-94) -/
structure BaseUnits (K : Type) where
  length : PUnit K
  time : PUnit K
  angle : PUnit K
  velocity : PUnit K
  angularVelocity : PUnit K
  acceleration : PUnit K
  angularAcceleration : PUnit K

def mkBaseUnits (length time angle : PUnit K) : BaseUnits K where
  length := length
  time := time
  angle := angle
  velocity := length.div time
  angularVelocity := angle.div time
  acceleration := length.div time.sq
  angularAcceleration := angle.div time.sq

end

/-- A keyword argument value: a number (an int, a float, a bool), a `pint.Quantity`, a string that spells no number, a string
that spells one (`"2.5"`, `"inf"`; which strings do, and what number they spell, is pydantic's business), or anything else. -/
inductive CfgVal {K : Type} (R : Fmt K) where
  | num (x : Fl R)
  | quantity (mag : Fl R) (unit : PUnit K)
  | str (s : String)
  | numeral (s : String) (x : Fl R)
  | other

/-- How a validator field is declared: `float`, or a float or quantity in a unit. -/
inductive FieldKind (K : Type) where
  | plain
  | inUnit (u : PUnit K)

/-- a field of a validator class, with its default -/
structure CfgField {K : Type} (R : Fmt K) where
  name : String
  kind : FieldKind K
  default : Fl R

/-- a validated configuration: the name and the field values -/
structure Config {K : Type} (R : Fmt K) where
  name : String
  values : List (String × Fl R)

section
variable {K : Type} {R : Fmt K} [Field K] [LinearOrder K]

/-- the function built by `build_unit_conversion_validator_fn(unit)` (base_models.py:70-80). pint's conversion is a
multiplication by the ratio of the unit factors, skipped when the units are the same; a `DimensionalityError` is re-raised as
`ValueError`. Before this function runs pydantic has turned a string that spells a number into the number. -/
def convertUnit (unit : PUnit K) : CfgVal R → Py (Fl R)
  | .num x => .ok x
  | .quantity mag u => if u = unit then .ok mag
    else if u.dim = unit.dim then .ok (mag * .fin (u.scale / unit.scale)) else .error .valueError
  | .str _ => .error .valueError
  | .numeral _ x => .ok x
  | .other => .error .valueError

/-- a field declared as plain `float`. pydantic accepts a number and a string that spells one; a quantity is accepted only when
it is dimensionless (through `__float__`). -/
def convertPlain : CfgVal R → Py (Fl R)
  | .num x => .ok x
  | .quantity mag u => if u = ⟨{}, 1⟩ then .ok mag
    else if u.dim = {} then .ok (mag * .fin u.scale) else .error .valueError
  | .str _ => .error .valueError
  | .numeral _ x => .ok x
  | .other => .error .valueError

def convertField (f : CfgField R) (v : CfgVal R) : Py (Fl R) :=
  match f.kind with
  | .plain => convertPlain v
  | .inUnit u => convertUnit u v

/-- the values of the fields, defaults where no keyword is given -/
def fieldValues (kwargs : List (String × CfgVal R)) : List (CfgField R) → Py (List (String × Fl R))
  | [] => .ok []
  | f :: fs => do
    let v ← match lookup kwargs f.name with
      | none => .ok f.default
      | some v => convertField f v
    let rest ← fieldValues kwargs fs
    pure ((f.name, v) :: rest)

/-- `Validator(**kwargs)` for a subclass of `BaseEntityValidator` (base_models.py:43-53): `name` is a required string, keys
outside the fields are forbidden, defaults are not validated. A pydantic `ValidationError` is a `ValueError`. -/
def validate (fields : List (CfgField R)) (kwargs : List (String × CfgVal R)) : Py (Config R) :=
  if kwargs.any (fun kv => kv.1 ≠ "name" && !(fields.map CfgField.name).contains kv.1) then .error .valueError
  else match lookup kwargs "name" with
    | some (.str name) => do
      let values ← fieldValues kwargs fields
      pure ⟨name, values⟩
    | some (.numeral name _) => do
      let values ← fieldValues kwargs fields
      pure ⟨name, values⟩
    | _ => .error .valueError

/-- `self.config.<field>` -/
def Config.get (c : Config R) (f : String) : Py (Fl R) :=
  match lookup c.values f with
  | some x => .ok x
  | none => .error .attributeError

/-- `np.array([self.config.a, self.config.b, ...], dtype=np.float32)`, the shape of every `_build_state` -/
def buildState (c : Config R) : List String → Py (Vec R)
  | [] => .ok []
  | f :: fs => do
    let x ← c.get f
    let rest ← buildState c fs
    pure (x.cast32 :: rest)

/-- `BaseEntity.__init__` (base_models.py:124-137) with the validator fields and the state layout of the class -/
def baseInit (fields : List (CfgField R)) (layout : List String) (dynamics : Dyn R) (controlDefault : Vec R)
    (controlMin controlMax : Arr R) (controlMap : Option (List (String × Nat))) (kwargs : List (String × CfgVal R)) :
    Py (Entity R) := do
  let config ← validate fields kwargs
  let state ← buildState config layout
  pure { name := config.name, dynamics := dynamics, controlDefault := controlDefault, controlMin := controlMin
         controlMax := controlMax, controlMap := controlMap, state := state, stateDot := state.map (fun _ => 0) }

end

/-! ### classes and abstract members -/

/-- A class body, as far as instantiation is concerned: the names it defines, each with its `__isabstractmethod__`. -/
structure PyClass where
  name : String
  members : List (String × Bool)

/-- Is the attribute abstract, looked up along the method resolution order (most derived first)? -/
def isAbstractIn (mro : List PyClass) (attr : String) : Bool :=
  match mro with
  | [] => false
  | c :: rest => match lookup c.members attr with
    | some b => b
    | none => isAbstractIn rest attr

/-- `cls.__abstractmethods__` (single inheritance) -/
def abstractMethods (mro : List PyClass) : List String :=
  ((mro.flatMap (fun c => c.members.map Prod.fst)).filter (isAbstractIn mro)).dedup

/-- `cls(...)`: `TypeError` when the class still has abstract members, otherwise `__init__` -/
def instantiate {α : Type} (mro : List PyClass) (init : Py α) : Py α :=
  if abstractMethods mro = [] then init else .error .typeError

/-- `BaseEntity` (base_models.py:103-282), the members that matter here -/
def clsBaseEntity : PyClass := ⟨"BaseEntity",
  [("_get_config_validator", false), ("_build_state", true), ("step", false), ("state", false), ("x", true), ("y", true),
   ("z", true), ("position", true), ("orientation", true), ("velocity", true)]⟩

/-- `BaseRotationEntity` (base_models.py:285-386) -/
def clsBaseRotationEntity : PyClass := ⟨"BaseRotationEntity",
  [("q1", true), ("q2", true), ("q3", true), ("q4", true), ("quaternion", true), ("wx", true), ("wy", true), ("wz", true),
   ("angular_velocity", true)]⟩

/-- `BaseIntegrator` (integrators.py:50-86) -/
def clsBaseIntegrator : PyClass := ⟨"BaseIntegrator", [("_get_config_validator", false), ("__eq__", false), ("position", true), ("velocity", true)]⟩

/-- the members of `Integrator1d` (integrators.py:89-175), `Integrator2d` (178-269), `Integrator3d` (272-370); the three
classes define the same names -/
def clsIntegrator (name : String) : PyClass := ⟨name,
  [("__eq__", false), ("_build_state", false), ("x", false), ("y", false), ("z", false), ("x_dot", false), ("y_dot", false),
   ("z_dot", false), ("position", false), ("velocity", false)]⟩

def mroIntegrator (name : String) : List PyClass := [clsIntegrator name, clsBaseIntegrator, clsBaseEntity]

/-- `CWHSpacecraft` (cwh/point_model.py:68-245) -/
def mroCWHSpacecraft : List PyClass := [⟨"CWHSpacecraft",
  [("_get_config_validator", false), ("__eq__", false), ("_build_state", false), ("x", false), ("y", false), ("z", false),
   ("x_dot", false), ("y_dot", false), ("z_dot", false), ("position", false), ("orientation", false), ("velocity", false),
   ("set_sim", false), ("entity_relative_position", false), ("entity_relative_velocity", false)]⟩, clsBaseEntity]

/-- `CWHRotation2dSpacecraft` (cwh/rotational_model.py:74-361) -/
def mroCWHRotation2d : List PyClass := [⟨"CWHRotation2dSpacecraft",
  [("_get_config_validator", false), ("__eq__", false), ("_build_state", false), ("x", false), ("y", false), ("z", false),
   ("q1", false), ("q2", false), ("q3", false), ("q4", false), ("theta", false), ("x_dot", false), ("y_dot", false),
   ("z_dot", false), ("wx", false), ("wy", false), ("wz", false), ("position", false), ("orientation", false),
   ("quaternion", false), ("velocity", false), ("angular_velocity", false)]⟩, clsBaseRotationEntity, clsBaseEntity]

/-- `SixDOFSpacecraft` (cwh/sixdof_model.py:99-408) -/
def mroSixDOF : List PyClass := [⟨"SixDOFSpacecraft",
  [("_get_config_validator", false), ("__eq__", false), ("register_lead", false), ("_build_state", false), ("x", false),
   ("y", false), ("z", false), ("q1", false), ("q2", false), ("q3", false), ("q4", false), ("x_dot", false),
   ("y_dot", false), ("z_dot", false), ("wx", false), ("wy", false), ("wz", false), ("position", false),
   ("orientation", false), ("quaternion", false), ("velocity", false), ("angular_velocity", false)]⟩,
  clsBaseRotationEntity, clsBaseEntity]

/-- `SunEntity` (cwh/sun_model.py:50-131) -/
def mroSun : List PyClass := [⟨"SunEntity",
  [("_get_config_validator", false), ("__eq__", false), ("_build_state", false), ("theta", false), ("x", false),
   ("y", false), ("z", false), ("position", false), ("orientation", false), ("velocity", false)]⟩, clsBaseEntity]

/-- `BaseDubinsAircraft` (dubins.py:63-227) -/
def clsBaseDubins : PyClass := ⟨"BaseDubinsAircraft",
  [("_get_config_validator", false), ("__eq__", false), ("register_partner", false), ("v", true), ("yaw", false),
   ("pitch", false), ("roll", true), ("heading", true), ("gamma", true), ("acceleration", true), ("velocity", false),
   ("orientation", false)]⟩

/-- `Dubins2dAircraft` (dubins.py:235-395) -/
def mroDubins2d : List PyClass := [⟨"Dubins2dAircraft",
  [("__eq__", false), ("_build_state", false), ("x", false), ("y", false), ("z", false), ("heading", false), ("v", false),
   ("position", false), ("gamma", false), ("roll", false), ("acceleration", false)]⟩, clsBaseDubins, clsBaseEntity]

/-- `Dubins3dAircraft` (dubins.py:438-645) -/
def mroDubins3d : List PyClass := [⟨"Dubins3dAircraft",
  [("__eq__", false), ("_get_config_validator", false), ("_build_state", false), ("x", false), ("y", false), ("z", false),
   ("heading", false), ("gamma", false), ("roll", false), ("v", false), ("position", false), ("acceleration", false)]⟩,
  clsBaseDubins, clsBaseEntity]

end SAD
