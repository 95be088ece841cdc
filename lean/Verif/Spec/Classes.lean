import Verif.Model.Integrators
import Verif.Model.Rotational
import Verif.Model.SixDof
import Verif.Model.Dubins

/-!
# The public entity classes, their keywords and their state vectors

Everything here is written from the documentation of the classes, independently of the constructors in the model.
-/

namespace SAD.Spec
open SAD
variable {K : Type} {R : Fmt K} [Field K] [LinearOrder K]

/-- A class with the values of its named constructor parameters (mass, limits, solver, …). The three integrator classes cannot
be instantiated themselves (they do not define `orientation`); here they stand for concrete subclasses. -/
inductive EntityClass {K : Type} (R : Fmt K) [Field K] [LinearOrder K]
  | integrator1d (a : IntegratorArgs R)
  | integrator2d (a : IntegratorArgs R)
  | integrator3d (a : IntegratorArgs R)
  | cwh (a : CwhArgs R)
  | sun (a : SunArgs R)
  | rot2d (a : Rot2dArgs R)
  | sixDof (uninit : List Nat → Vec R) (a : SixDofArgs R)
  | dubins2d (a : Dubins2dArgs R)
  | dubins3d (a : Dubins3dArgs R)

/-- `Class(<parameters>, **kwargs)` -/
def EntityClass.new (env : Env R) (kwargs : List (String × CfgVal R)) : EntityClass R → Py (Entity R)
  | .integrator1d a => initIntegrator1d env { a with kwargs := kwargs }
  | .integrator2d a => initIntegrator2d env { a with kwargs := kwargs }
  | .integrator3d a => initIntegrator3d env { a with kwargs := kwargs }
  | .cwh a => newCwhSpacecraft env { a with kwargs := kwargs }
  | .sun a => newSun env { a with kwargs := kwargs }
  | .rot2d a => newRot2d env { a with kwargs := kwargs }
  | .sixDof uninit a => newSixDof env uninit { a with kwargs := kwargs }
  | .dubins2d a => newDubins2d env { a with kwargs := kwargs }
  | .dubins3d a => newDubins3d env { a with kwargs := kwargs }

/-- the units of the documentation, with their factors to SI -/
def metre : PUnit K := ⟨{ length := 1 }, 1⟩
def foot : PUnit K := ⟨{ length := 1 }, 3048 / 10000⟩
def radian : PUnit K := ⟨{}, 1⟩
def metrePerSecond : PUnit K := ⟨{ length := 1, time := -1 }, 1⟩
def footPerSecond : PUnit K := ⟨{ length := 1, time := -1 }, 3048 / 10000⟩
def radianPerSecond : PUnit K := ⟨{ time := -1 }, 1⟩

/-- the documented keywords of each class besides `name`: keyword, unit (none: a bare number), default -/
def EntityClass.keywords : EntityClass R → List (String × Option (PUnit K) × Fl R)
  | .integrator1d _ | .integrator2d _ | .integrator3d _ =>
    [("x", none, 0), ("y", none, 0), ("z", none, 0), ("xdot", none, 0), ("ydot", none, 0), ("zdot", none, 0)]
  | .cwh _ =>
    [("x", some metre, 0), ("y", some metre, 0), ("z", some metre, 0),
     ("x_dot", some metrePerSecond, 0), ("y_dot", some metrePerSecond, 0), ("z_dot", some metrePerSecond, 0)]
  | .sun _ => [("theta", some radian, 0)]
  | .rot2d _ =>
    [("x", some metre, 0), ("y", some metre, 0), ("theta", some radian, 0),
     ("x_dot", some metrePerSecond, 0), ("y_dot", some metrePerSecond, 0), ("wz", some radianPerSecond, 0)]
  | .sixDof _ _ =>
    [("x", some metre, 0), ("y", some metre, 0), ("z", some metre, 0),
     ("x_dot", some metrePerSecond, 0), ("y_dot", some metrePerSecond, 0), ("z_dot", some metrePerSecond, 0),
     ("q1", none, 0), ("q2", none, 0), ("q3", none, 0), ("q4", none, 0),
     ("wx", some radianPerSecond, 0), ("wy", some radianPerSecond, 0), ("wz", some radianPerSecond, 0)]
  | .dubins2d _ =>
    [("x", some foot, 0), ("y", some foot, 0), ("z", some foot, 0), ("heading", some radian, 0), ("v", some footPerSecond, 200)]
  | .dubins3d _ =>
    [("x", some foot, 0), ("y", some foot, 0), ("z", some foot, 0), ("heading", some radian, 0), ("v", some footPerSecond, 200),
     ("gamma", some radian, 0), ("roll", some radian, 0)]

/-- the documented order of the state vector -/
def EntityClass.stateOrder : EntityClass R → List String
  | .integrator1d _ => ["x", "xdot"]
  | .integrator2d _ => ["x", "y", "xdot", "ydot"]
  | .integrator3d _ => ["x", "y", "z", "xdot", "ydot", "zdot"]
  | .cwh _ => ["x", "y", "z", "x_dot", "y_dot", "z_dot"]
  | .sun _ => ["theta"]
  | .rot2d _ => ["x", "y", "theta", "x_dot", "y_dot", "wz"]
  | .sixDof _ _ => ["x", "y", "z", "q1", "q2", "q3", "q4", "x_dot", "y_dot", "z_dot", "wx", "wy", "wz"]
  | .dubins2d _ => ["x", "y", "heading", "v"]
  | .dubins3d _ => ["x", "y", "z", "heading", "gamma", "roll", "v"]

/-- the physical magnitude of a keyword value for a field in `unit`, in SI: a bare number is in `unit` already. A field
without unit takes dimensionless quantities. `none`: the value has no meaning for the field. -/
def magnitudeSI (unit : Option (PUnit K)) : CfgVal R → Option K
  | .num (.fin x) => some (x * (unit.getD ⟨{}, 1⟩).scale)
  | .numeral _ (.fin x) => some (x * (unit.getD ⟨{}, 1⟩).scale)
  | .quantity (.fin x) u => if u.dim = (unit.getD ⟨{}, 1⟩).dim then some (x * u.scale) else none
  | _ => none

/-- a value that is acceptable for a field in `unit`: a number, a string that spells one, or a quantity of the
field's dimension -/
def Acceptable (unit : Option (PUnit K)) : CfgVal R → Prop
  | .num _ => True
  | .numeral _ _ => True
  | .quantity _ u => u.dim = (unit.getD ⟨{}, 1⟩).dim
  | _ => False

/-- `name` is given, and it is this string -/
def Named (kw : List (String × CfgVal R)) (nm : String) : Prop :=
  lookup kw "name" = some (.str nm) ∨ ∃ x, lookup kw "name" = some (.numeral nm x)

end SAD.Spec
