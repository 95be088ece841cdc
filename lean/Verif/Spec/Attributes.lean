import Verif.Model.Attr

/-!
# The public properties of the entity classes

Written from the documentation of the classes: the names a user reads, what they mean, and which of them can be assigned.
-/

namespace SAD.Spec
open SAD

/-- the entity classes -/
inductive Kind
  | integrator1d
  | integrator2d
  | integrator3d
  | cwh
  | sun
  | rot2d
  | sixDof
  | dubins2d
  | dubins3d
  deriving DecidableEq

/-- the class object of each kind: its properties along the method resolution order -/
def Kind.props : Kind → List PropTable
  | .integrator1d => propsIntegrator1d
  | .integrator2d => propsIntegrator2d
  | .integrator3d => propsIntegrator3d
  | .cwh => propsCWHSpacecraft
  | .sun => propsSun
  | .rot2d => propsCWHRotation2d
  | .sixDof => propsSixDOF
  | .dubins2d => propsDubins2d
  | .dubins3d => propsDubins3d

/-- the class object of each kind: its members along the method resolution order -/
def Kind.members : Kind → List PyClass
  | .integrator1d => mroIntegrator "Integrator1d"
  | .integrator2d => mroIntegrator "Integrator2d"
  | .integrator3d => mroIntegrator "Integrator3d"
  | .cwh => mroCWHSpacecraft
  | .sun => mroSun
  | .rot2d => mroCWHRotation2d
  | .sixDof => mroSixDOF
  | .dubins2d => mroDubins2d
  | .dubins3d => mroDubins3d

/-- what a number-valued property shows: an entry of the state vector, or the constant 0 -/
inductive Shows
  | entry (i : Nat)
  | zero
  deriving DecidableEq

/-- the number-valued properties of each class -/
def Kind.numbers : Kind → List (String × Shows)
  | .integrator1d => [("x", .entry 0), ("y", .zero), ("z", .zero), ("x_dot", .entry 1), ("y_dot", .zero), ("z_dot", .zero)]
  | .integrator2d => [("x", .entry 0), ("y", .entry 1), ("z", .zero), ("x_dot", .entry 2), ("y_dot", .entry 3), ("z_dot", .zero)]
  | .integrator3d | .cwh =>
    [("x", .entry 0), ("y", .entry 1), ("z", .entry 2), ("x_dot", .entry 3), ("y_dot", .entry 4), ("z_dot", .entry 5)]
  | .sun => [("theta", .entry 0)]
  | .rot2d =>
    [("x", .entry 0), ("y", .entry 1), ("z", .zero), ("theta", .entry 2), ("x_dot", .entry 3), ("y_dot", .entry 4), ("z_dot", .zero),
     ("wx", .zero), ("wy", .zero), ("wz", .entry 5)]
  | .sixDof =>
    [("x", .entry 0), ("y", .entry 1), ("z", .entry 2), ("q1", .entry 3), ("q2", .entry 4), ("q3", .entry 5), ("q4", .entry 6),
     ("x_dot", .entry 7), ("y_dot", .entry 8), ("z_dot", .entry 9), ("wx", .entry 10), ("wy", .entry 11), ("wz", .entry 12)]
  | .dubins2d =>
    [("x", .entry 0), ("y", .entry 1), ("z", .zero), ("heading", .entry 2), ("yaw", .entry 2), ("v", .entry 3), ("gamma", .zero),
     ("pitch", .zero), ("roll", .zero)]
  | .dubins3d =>
    [("x", .entry 0), ("y", .entry 1), ("z", .entry 2), ("heading", .entry 3), ("yaw", .entry 3), ("gamma", .entry 4), ("pitch", .entry 4),
     ("roll", .entry 5), ("v", .entry 6)]

/-- the other properties of each class besides `state`: vectors, rotations and quantities -/
def Kind.derived : Kind → List String
  | .integrator1d | .integrator2d | .integrator3d =>
    ["position", "velocity", "x_with_units", "y_with_units", "z_with_units", "position_with_units", "velocity_with_units"]
  | .cwh =>
    ["position", "velocity", "orientation", "x_with_units", "y_with_units", "z_with_units", "position_with_units", "velocity_with_units",
     "x_dot_with_units", "y_dot_with_units", "z_dot_with_units"]
  | .sun =>
    ["x", "y", "z", "position", "velocity", "orientation", "x_with_units", "y_with_units", "z_with_units", "position_with_units",
     "velocity_with_units"]
  | .rot2d =>
    ["position", "velocity", "orientation", "x_with_units", "y_with_units", "z_with_units", "position_with_units", "velocity_with_units",
     "x_dot_with_units", "y_dot_with_units", "z_dot_with_units", "quaternion", "q1", "q2", "q3", "q4", "angular_velocity",
     "wx_with_unit", "wy_with_unit", "wz_with_unit", "angular_velocity_with_units"]
  | .sixDof =>
    ["position", "velocity", "orientation", "x_with_units", "y_with_units", "z_with_units", "position_with_units", "velocity_with_units",
     "x_dot_with_units", "y_dot_with_units", "z_dot_with_units", "quaternion", "angular_velocity",
     "wx_with_unit", "wy_with_unit", "wz_with_unit", "angular_velocity_with_units"]
  | .dubins2d | .dubins3d =>
    ["position", "velocity", "orientation", "acceleration", "x_with_units", "y_with_units", "z_with_units", "position_with_units",
     "velocity_with_units", "v_with_units", "yaw_with_units", "pitch_with_units", "roll_with_units", "heading_with_units", "gamma_with_units",
     "acceleration_with_units"]

/-- the properties that can be assigned, besides `state`, and the entry of the state vector they set -/
def Kind.assignable : Kind → List (String × Nat)
  | .dubins2d => [("x", 0), ("y", 1), ("heading", 2), ("v", 3)]
  | .dubins3d => [("x", 0), ("y", 1), ("z", 2), ("heading", 3), ("gamma", 4), ("roll", 5), ("v", 6)]
  | _ => []

/-- the length of the state vector -/
def Kind.size : Kind → Nat
  | .integrator1d => 2
  | .integrator2d => 4
  | .integrator3d | .cwh | .rot2d => 6
  | .sun => 1
  | .sixDof => 13
  | .dubins2d => 4
  | .dubins3d => 7

end SAD.Spec
