import Verif.Model.First

/-!
# Attributes of the entities

Reading and assigning the properties of the entity classes, and hashing an entity. A property found along the method resolution order is a data
descriptor: `entity.name = v` calls its setter, or raises `AttributeError` when it has none. A class that redefines a property replaces getter
and setter together.
-/

namespace SAD

/-- the body of a getter -/
inductive Getter where
  /-- `return self._state[i]` -/
  | elem (i : Nat)
  /-- `return 0` -/
  | zero
  /-- `return self.<name>` -/
  | alias (name : String)
  /-- `raise NotImplementedError` -/
  | raises
  /-- an array, a rotation or a quantity computed from other attributes; these values are modelled in the files of the classes -/
  | computed
  deriving DecidableEq

/-- the body of a setter -/
inductive Setter where
  /-- the property has none -/
  | none
  /-- `self._state[i] = value` -/
  | elem (i : Nat)
  /-- `self._state = value.copy()` -/
  | state
  deriving DecidableEq

/-- a property of a class -/
structure PyProperty where
  getter : Getter
  setter : Setter := .none

/-- the properties a class body defines -/
abbrev PropTable := List (String × PyProperty)

/-- attribute lookup along the method resolution order, most derived class first -/
def findProperty (mro : List PropTable) (name : String) : Option PyProperty :=
  match mro with
  | [] => none
  | c :: rest => match lookup c name with
    | some p => some p
    | none => findProperty rest name

/-- the getter that computes an attribute; `return self.<name>` (dubins.py:121-142) looks the other attribute up on the entity. Aliases of aliases
do not occur. -/
def findGetter (mro : List PropTable) (name : String) : Option Getter :=
  match findProperty mro name with
  | some ⟨.alias target, _⟩ => (findProperty mro target).map PyProperty.getter
  | some p => some p.getter
  | none => none

/-- `BaseEntity` (base_models.py:199-282). The abstract getters raise `NotImplementedError`. -/
def propsBaseEntity : PropTable :=
  [("state", ⟨.computed, .state⟩), ("x", ⟨.raises, .none⟩), ("x_with_units", ⟨.computed, .none⟩), ("y", ⟨.raises, .none⟩),
   ("y_with_units", ⟨.computed, .none⟩), ("z", ⟨.raises, .none⟩), ("z_with_units", ⟨.computed, .none⟩), ("position", ⟨.raises, .none⟩),
   ("position_with_units", ⟨.computed, .none⟩), ("orientation", ⟨.raises, .none⟩), ("velocity", ⟨.raises, .none⟩),
   ("velocity_with_units", ⟨.computed, .none⟩)]

/-- `BaseRotationEntity` (base_models.py:314-386) -/
def propsBaseRotationEntity : PropTable :=
  [("q1", ⟨.raises, .none⟩), ("q2", ⟨.raises, .none⟩), ("q3", ⟨.raises, .none⟩), ("q4", ⟨.raises, .none⟩), ("quaternion", ⟨.raises, .none⟩),
   ("wx", ⟨.raises, .none⟩), ("wx_with_unit", ⟨.computed, .none⟩), ("wy", ⟨.raises, .none⟩), ("wy_with_unit", ⟨.computed, .none⟩),
   ("wz", ⟨.raises, .none⟩), ("wz_with_unit", ⟨.computed, .none⟩), ("angular_velocity", ⟨.raises, .none⟩),
   ("angular_velocity_with_units", ⟨.computed, .none⟩)]

/-- `BaseIntegrator` (integrators.py:76-86) -/
def propsBaseIntegrator : PropTable := [("position", ⟨.raises, .none⟩), ("velocity", ⟨.raises, .none⟩)]

/-- `Integrator1d` (integrators.py:137-175) -/
def propsIntegrator1d : List PropTable :=
  [[("x", ⟨.elem 0, .none⟩), ("y", ⟨.zero, .none⟩), ("z", ⟨.zero, .none⟩), ("x_dot", ⟨.elem 1, .none⟩), ("y_dot", ⟨.zero, .none⟩),
    ("z_dot", ⟨.zero, .none⟩), ("position", ⟨.computed, .none⟩), ("velocity", ⟨.computed, .none⟩)], propsBaseIntegrator, propsBaseEntity]

/-- `Integrator2d` (integrators.py:231-269) -/
def propsIntegrator2d : List PropTable :=
  [[("x", ⟨.elem 0, .none⟩), ("y", ⟨.elem 1, .none⟩), ("z", ⟨.zero, .none⟩), ("x_dot", ⟨.elem 2, .none⟩), ("y_dot", ⟨.elem 3, .none⟩),
    ("z_dot", ⟨.zero, .none⟩), ("position", ⟨.computed, .none⟩), ("velocity", ⟨.computed, .none⟩)], propsBaseIntegrator, propsBaseEntity]

/-- `Integrator3d` (integrators.py:332-370) -/
def propsIntegrator3d : List PropTable :=
  [[("x", ⟨.elem 0, .none⟩), ("y", ⟨.elem 1, .none⟩), ("z", ⟨.elem 2, .none⟩), ("x_dot", ⟨.elem 3, .none⟩), ("y_dot", ⟨.elem 4, .none⟩),
    ("z_dot", ⟨.elem 5, .none⟩), ("position", ⟨.computed, .none⟩), ("velocity", ⟨.computed, .none⟩)], propsBaseIntegrator, propsBaseEntity]

/-- `CWHSpacecraft` (cwh/point_model.py:136-203) -/
def propsCWHSpacecraft : List PropTable :=
  [[("x", ⟨.elem 0, .none⟩), ("y", ⟨.elem 1, .none⟩), ("z", ⟨.elem 2, .none⟩), ("x_dot", ⟨.elem 3, .none⟩),
    ("x_dot_with_units", ⟨.computed, .none⟩), ("y_dot", ⟨.elem 4, .none⟩), ("y_dot_with_units", ⟨.computed, .none⟩), ("z_dot", ⟨.elem 5, .none⟩),
    ("z_dot_with_units", ⟨.computed, .none⟩), ("position", ⟨.computed, .none⟩), ("orientation", ⟨.computed, .none⟩),
    ("velocity", ⟨.computed, .none⟩)], propsBaseEntity]

/-- `CWHRotation2dSpacecraft` (cwh/rotational_model.py:203-319) -/
def propsCWHRotation2d : List PropTable :=
  [[("x", ⟨.elem 0, .none⟩), ("y", ⟨.elem 1, .none⟩), ("z", ⟨.zero, .none⟩), ("q1", ⟨.computed, .none⟩), ("q2", ⟨.computed, .none⟩),
    ("q3", ⟨.computed, .none⟩), ("q4", ⟨.computed, .none⟩), ("theta", ⟨.elem 2, .none⟩), ("x_dot", ⟨.elem 3, .none⟩),
    ("x_dot_with_units", ⟨.computed, .none⟩), ("y_dot", ⟨.elem 4, .none⟩), ("y_dot_with_units", ⟨.computed, .none⟩), ("z_dot", ⟨.zero, .none⟩),
    ("z_dot_with_units", ⟨.computed, .none⟩), ("wx", ⟨.zero, .none⟩), ("wy", ⟨.zero, .none⟩), ("wz", ⟨.elem 5, .none⟩),
    ("position", ⟨.computed, .none⟩), ("orientation", ⟨.computed, .none⟩), ("quaternion", ⟨.computed, .none⟩), ("velocity", ⟨.computed, .none⟩),
    ("angular_velocity", ⟨.computed, .none⟩)], propsBaseRotationEntity, propsBaseEntity]

/-- `SixDOFSpacecraft` (cwh/sixdof_model.py:257-366) -/
def propsSixDOF : List PropTable :=
  [[("x", ⟨.elem 0, .none⟩), ("y", ⟨.elem 1, .none⟩), ("z", ⟨.elem 2, .none⟩), ("q1", ⟨.elem 3, .none⟩), ("q2", ⟨.elem 4, .none⟩),
    ("q3", ⟨.elem 5, .none⟩), ("q4", ⟨.elem 6, .none⟩), ("x_dot", ⟨.elem 7, .none⟩), ("x_dot_with_units", ⟨.computed, .none⟩),
    ("y_dot", ⟨.elem 8, .none⟩), ("y_dot_with_units", ⟨.computed, .none⟩), ("z_dot", ⟨.elem 9, .none⟩), ("z_dot_with_units", ⟨.computed, .none⟩),
    ("wx", ⟨.elem 10, .none⟩), ("wy", ⟨.elem 11, .none⟩), ("wz", ⟨.elem 12, .none⟩), ("position", ⟨.computed, .none⟩),
    ("orientation", ⟨.computed, .none⟩), ("quaternion", ⟨.computed, .none⟩), ("velocity", ⟨.computed, .none⟩),
    ("angular_velocity", ⟨.computed, .none⟩)], propsBaseRotationEntity, propsBaseEntity]

/-- `SunEntity` (cwh/sun_model.py:96-131): every property but `theta` raises `NotImplementedError` -/
def propsSun : List PropTable :=
  [[("theta", ⟨.elem 0, .none⟩), ("x", ⟨.raises, .none⟩), ("y", ⟨.raises, .none⟩), ("z", ⟨.raises, .none⟩), ("position", ⟨.raises, .none⟩),
    ("orientation", ⟨.raises, .none⟩), ("velocity", ⟨.raises, .none⟩)], propsBaseEntity]

/-- `BaseDubinsAircraft` (dubins.py:109-227) -/
def propsBaseDubins : PropTable :=
  [("v", ⟨.raises, .none⟩), ("v_with_units", ⟨.computed, .none⟩), ("yaw", ⟨.alias "heading", .none⟩), ("yaw_with_units", ⟨.computed, .none⟩),
   ("pitch", ⟨.alias "gamma", .none⟩), ("pitch_with_units", ⟨.computed, .none⟩), ("roll", ⟨.raises, .none⟩), ("roll_with_units", ⟨.computed, .none⟩),
   ("heading", ⟨.raises, .none⟩), ("heading_with_units", ⟨.computed, .none⟩), ("gamma", ⟨.raises, .none⟩), ("gamma_with_units", ⟨.computed, .none⟩),
   ("acceleration", ⟨.raises, .none⟩), ("acceleration_with_units", ⟨.computed, .none⟩), ("velocity", ⟨.computed, .none⟩),
   ("orientation", ⟨.computed, .none⟩)]

/-- `Dubins2dAircraft` (dubins.py:333-395) -/
def propsDubins2d : List PropTable :=
  [[("x", ⟨.elem 0, .elem 0⟩), ("y", ⟨.elem 1, .elem 1⟩), ("z", ⟨.zero, .none⟩), ("heading", ⟨.elem 2, .elem 2⟩), ("v", ⟨.elem 3, .elem 3⟩),
    ("position", ⟨.computed, .none⟩), ("gamma", ⟨.zero, .none⟩), ("roll", ⟨.zero, .none⟩), ("acceleration", ⟨.computed, .none⟩)],
   propsBaseDubins, propsBaseEntity]

/-- `Dubins3dAircraft` (dubins.py:580-645) -/
def propsDubins3d : List PropTable :=
  [[("x", ⟨.elem 0, .elem 0⟩), ("y", ⟨.elem 1, .elem 1⟩), ("z", ⟨.elem 2, .elem 2⟩), ("heading", ⟨.elem 3, .elem 3⟩), ("gamma", ⟨.elem 4, .elem 4⟩),
    ("roll", ⟨.elem 5, .elem 5⟩), ("v", ⟨.elem 6, .elem 6⟩), ("position", ⟨.computed, .none⟩), ("acceleration", ⟨.computed, .none⟩)],
   propsBaseDubins, propsBaseEntity]

/-- `hash(entity)`: a class body with `__eq__` and without `__hash__` sets `__hash__` to `None`; without both, `hash` is inherited (in the end
from `object`). No class of the code defines `__hash__` (base_models.py, integrators.py, cwh/, dubins.py). -/
def hashEntity (mro : List PyClass) : Py Unit :=
  match mro with
  | [] => .ok ()
  | c :: rest =>
    if (lookup c.members "__hash__").isSome then .ok ()
    else if (lookup c.members "__eq__").isSome then .error .typeError
    else hashEntity rest

section
variable {K : Type} {R : Fmt K} [Field K] [LinearOrder K]

/-- an entity with the dtype of the array in `_state` (base_models.py:134). Simplification: float32, float64 and
int64 only. -/
structure TypedEntity {K : Type} (R : Fmt K) [Field K] [LinearOrder K] where
  entity : Entity R
  dtype : DType

/-- an entity as constructed: `_build_state` returns a float32 array (cwh/point_model.py:129-133, rotational_model.py:195-201,
sixdof_model.py:247-255, sun_model.py:90-94, integrators.py:132-135, 226-229, 325-330, dubins.py:330-331, 574-578) -/
def TypedEntity.built (e : Entity R) : TypedEntity R := ⟨e, .f32⟩

variable [FloorRing K]

/-- storing a Python float in an array (dubins.py:339): a float32 array rounds it, an int64 array takes `int(v)`, which raises for NaN, for an
infinity and for what does not fit in 64 bits -/
def DType.store (d : DType) (v : Fl R) : Py (Fl R) :=
  match d, v with
  | .f32, v => .ok v.cast32
  | .f64, v => .ok v
  | .i64, .fin x =>
    let n : ℤ := if 0 ≤ x then ⌊x⌋ else ⌈x⌉
    if -(2 ^ 63) ≤ n ∧ n < 2 ^ 63 then .ok (.fin n) else .error .overflowError
  | .i64, .nan => .error .valueError
  | .i64, _ => .error .overflowError

/-- the result of a getter that returns a number; `none` for one that returns something else (base_models.py:215-246, dubins.py:121-142) -/
def Entity.readNumber (mro : List PropTable) (e : Entity R) (name : String) : Option (Py (Fl R)) :=
  match findGetter mro name with
  | some (.elem i) => some (getIdx e.state i)
  | some .zero => some (.ok 0)
  | some .raises => some (.error .notImplementedError)
  | _ => none

/-- the value on the right of an assignment to an attribute (dubins.py:337-367, base_models.py:211-213): a number or an array -/
inductive AttrVal {K : Type} (R : Fmt K) where
  | num (x : Fl R)
  | array (d : DType) (v : Vec R)

/-- `entity.name = value` for a property of the class (base_models.py:211-213, dubins.py:337-367, 584-634). A number has no `copy`: assigning it
to `state` raises `AttributeError`. An element takes a number or an array of one element, which is used as the number. Simplification: a number is a
Python float (a NumPy scalar that does not fit in an integer array does not raise). A name that is not a property is an ordinary attribute,
which is stored on the object (no effect here). -/
def TypedEntity.setAttr (mro : List PropTable) (t : TypedEntity R) (name : String) (value : AttrVal R) : TypedEntity R × Py Unit :=
  match findProperty mro name with
  | none => (t, .ok ())
  | some p =>
    match p.setter, value with
    | .none, _ => (t, .error .attributeError)
    | .elem i, .num x | .elem i, .array _ [x] =>
      if i < t.entity.state.length then
        match t.dtype.store x with
        | .ok y => ({ t with entity := { t.entity with state := t.entity.state.set i y } }, .ok ())
        | .error er => (t, .error er)
      else (t, .error .indexError)
    | .elem _, .array _ _ => (t, .error .valueError)
    | .state, .array d v => (⟨{ t.entity with state := v }, d⟩, .ok ())
    | .state, .num _ => (t, .error .attributeError)

/-- an operation on an entity: a step or an assignment to an attribute (base_models.py:147-213, dubins.py:337-367) -/
inductive AttrOp {K : Type} (R : Fmt K) where
  | step (dt : Fl R) (a : Action R)
  | set (name : String) (value : AttrVal R)

/-- `step` with the dtype (base_models.py:147-197, 565-598): under Euler's method a float32 state is advanced as Model/First describes, with the
derivative `rhs32`; an int64 state is advanced like a float64 one (simplification: products of integer elements are not reduced modulo `2^64`). A
completed step stores a float64 array, a failed one stores nothing. `use_jax` is off. -/
def TypedEntity.step (env : Env R) (rhs32 : Fl R → Vec R → Vec R → Py (Vec R)) (t : TypedEntity R) (dt : Fl R) (a : Action R) : TypedEntity R × Py Unit :=
  let r := match t.dtype with
    | .f32 => t.entity.firstStep env rhs32 dt a
    | .f64 | .i64 => t.entity.step env dt a
  match r.outcome with
  | .ok () => (⟨r.entity, .f64⟩, .ok ())
  | .error er => (⟨r.entity, t.dtype⟩, .error er)

/-- one operation -/
def TypedEntity.op (env : Env R) (rhs32 : Fl R → Vec R → Vec R → Py (Vec R)) (mro : List PropTable) (t : TypedEntity R) : AttrOp R → TypedEntity R
  | .step dt a => (t.step env rhs32 dt a).1
  | .set name v => (t.setAttr mro name v).1

/-- a history of operations -/
def TypedEntity.run (env : Env R) (rhs32 : Fl R → Vec R → Vec R → Py (Vec R)) (mro : List PropTable) (t : TypedEntity R) (ops : List (AttrOp R)) :
    TypedEntity R := ops.foldl (TypedEntity.op env rhs32 mro) t

end

end SAD
