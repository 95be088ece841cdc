import Verif.Model.Config

/-!
# The abstract base classes as bases of a user's classes

`Model/Config` has the entity classes; here are the dynamics classes. Classes are those of single inheritance.
-/

namespace SAD

/-- `BaseDynamics` (base_models.py:389-471) -/
def clsBaseDynamics : PyClass := ⟨"BaseDynamics", [("__init__", false), ("step", false), ("_wrap_angles", false), ("_step", true)]⟩

/-- `BaseODESolverDynamics` (base_models.py:474-603) -/
def clsBaseODESolverDynamics : PyClass := ⟨"BaseODESolverDynamics",
  [("__init__", false), ("compute_state_dot", false), ("_compute_state_dot", true), ("_clip_state_dot_direct", false),
   ("_clip_state_dot_by_state_limits", false), ("_step", false), ("compute_state_dot_jax", false)]⟩

/-- `BaseControlAffineODESolverDynamics` (base_models.py:606-662) -/
def clsBaseControlAffine : PyClass := ⟨"BaseControlAffineODESolverDynamics",
  [("__init__", false), ("_compute_state_dot", false), ("state_transition_system", true), ("state_transition_input", true)]⟩

/-- `BaseLinearODESolverDynamics` (base_models.py:665-698) -/
def clsBaseLinear : PyClass := ⟨"BaseLinearODESolverDynamics",
  [("__init__", false), ("state_transition_system", false), ("state_transition_input", false)]⟩

/-- method resolution orders of the base classes (base_models.py:103, 285, 389, 474, 606, 665; dubins.py:63; integrators.py:50) -/
def mroBaseEntity : List PyClass := [clsBaseEntity]
/-- see `mroBaseEntity` -/
def mroBaseRotationEntity : List PyClass := [clsBaseRotationEntity, clsBaseEntity]
/-- see `mroBaseEntity` -/
def mroBaseDubins : List PyClass := [clsBaseDubins, clsBaseEntity]
/-- see `mroBaseEntity` -/
def mroBaseIntegrator : List PyClass := [clsBaseIntegrator, clsBaseEntity]
/-- see `mroBaseEntity` -/
def mroBaseDynamics : List PyClass := [clsBaseDynamics]
/-- see `mroBaseEntity` -/
def mroBaseODESolver : List PyClass := [clsBaseODESolverDynamics, clsBaseDynamics]
/-- see `mroBaseEntity` -/
def mroBaseControlAffine : List PyClass := [clsBaseControlAffine, clsBaseODESolverDynamics, clsBaseDynamics]
/-- see `mroBaseEntity` -/
def mroBaseLinear : List PyClass := [clsBaseLinear, clsBaseControlAffine, clsBaseODESolverDynamics, clsBaseDynamics]

end SAD
