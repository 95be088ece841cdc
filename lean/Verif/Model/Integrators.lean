import Verif.Model.Config

/-!
# `safe_autonomy_dynamics/integrators.py`
-/

namespace SAD

section
variable {K : Type} {R : Fmt K} [Field K] [LinearOrder K]

/-- `generate_dynamics_matrices(m, damping, mode)` (integrators.py:398-464). `A` is built before `B`, so `1 / m` with
`m = 0` raises after the mode assertion. -/
def generateDynamicsMatrices (m damping : Fl R) (mode : String) : Py (Mat R × Mat R) :=
  if mode = "1d" then do
    let k ← pyDiv 1 m
    pure (⟨[[0, 1], [0, -damping]], 2⟩, ⟨[[0], [k]], 1⟩)
  else if mode = "2d" then do
    let k ← pyDiv 1 m
    pure (⟨[[0, 0, 1, 0], [0, 0, 0, 1], [0, 0, -damping, 0], [0, 0, 0, -damping]], 4⟩,
      ⟨[[0, 0], [0, 0], [k, 0], [0, k]], 2⟩)
  else if mode = "3d" then do
    let k ← pyDiv 1 m
    pure (⟨[[0, 0, 0, 1, 0, 0], [0, 0, 0, 0, 1, 0], [0, 0, 0, 0, 0, 1], [0, 0, 0, -damping, 0, 0],
        [0, 0, 0, 0, -damping, 0], [0, 0, 0, 0, 0, -damping]], 6⟩,
      ⟨[[0, 0, 0], [0, 0, 0], [0, 0, 0], [k, 0, 0], [0, k, 0], [0, 0, k]], 3⟩)
  else .error .assertionError

/-- `IntegratorDynamics.__init__` (integrators.py:389-395) -/
def mkIntegratorDynamics (env : Env R) (m damping : Fl R) (mode : String) (args : DynArgs R) : Py (Dyn R) := do
  let (A, B) ← generateDynamicsMatrices m damping mode
  mkLinearDyn env args A B

/-- constructor arguments of the three integrator entities (integrators.py:113, 206, 304), with the defaults of lines 22-23 -/
structure IntegratorArgs {K : Type} (R : Fmt K) [Field K] [LinearOrder K] where
  m : Fl R := 1
  damping : Fl R := 0
  trajectorySamples : Option Int := some 0
  integrationMethod : String := "RK45"
  kwargs : List (String × CfgVal R)

/-- `BaseIntegratorValidator` (integrators.py:26-47): plain floats -/
def integratorFields : List (CfgField R) :=
  ["x", "y", "z", "xdot", "ydot", "zdot"].map (fun s => ⟨s, .plain, 0⟩)

def IntegratorArgs.dyn (a : IntegratorArgs R) : DynArgs R :=
  { trajectorySamples := a.trajectorySamples, integrationMethod := a.integrationMethod }

/-- `Integrator1d.__init__` (integrators.py:113-123) with `_build_state` (132-135) -/
def initIntegrator1d (env : Env R) (a : IntegratorArgs R) : Py (Entity R) := do
  let d ← mkIntegratorDynamics env a.m a.damping "1d" a.dyn
  baseInit integratorFields ["x", "xdot"] d [0] (.scalar (-1)) (.scalar 1) (some [("thrust_x", 0)]) a.kwargs

/-- `Integrator2d.__init__` (integrators.py:206-217) with `_build_state` (226-229): every actuator maps to index 0 -/
def initIntegrator2d (env : Env R) (a : IntegratorArgs R) : Py (Entity R) := do
  let d ← mkIntegratorDynamics env a.m a.damping "2d" a.dyn
  baseInit integratorFields ["x", "y", "xdot", "ydot"] d [0, 0] (.scalar (-1)) (.scalar 1)
    (some [("thrust_x", 0), ("thrust_y", 0)]) a.kwargs

/-- `Integrator3d.__init__` (integrators.py:304-316) with `_build_state` (325-330): every actuator maps to index 0 -/
def initIntegrator3d (env : Env R) (a : IntegratorArgs R) : Py (Entity R) := do
  let d ← mkIntegratorDynamics env a.m a.damping "3d" a.dyn
  baseInit integratorFields ["x", "y", "z", "xdot", "ydot", "zdot"] d [0, 0, 0] (.scalar (-1)) (.scalar 1)
    (some [("thrust_x", 0), ("thrust_y", 0), ("thrust_z", 0)]) a.kwargs

/-- the `__init__` of the integrator class with `k` axes (integrators.py:113-123, 206-217, 304-316) -/
def initIntegrator (env : Env R) (a : IntegratorArgs R) : Nat → Py (Entity R)
  | 1 => initIntegrator1d env a
  | 2 => initIntegrator2d env a
  | 3 => initIntegrator3d env a
  | _ => .error .typeError

/-- `Integrator1d(...)`, `Integrator2d(...)`, `Integrator3d(...)` (integrators.py:113-123, 206-217, 304-316), which the abstract `orientation` stops -/
def newIntegrator1d (env : Env R) (a : IntegratorArgs R) : Py (Entity R) :=
  instantiate (mroIntegrator "Integrator1d") (initIntegrator1d env a)
def newIntegrator2d (env : Env R) (a : IntegratorArgs R) : Py (Entity R) :=
  instantiate (mroIntegrator "Integrator2d") (initIntegrator2d env a)
def newIntegrator3d (env : Env R) (a : IntegratorArgs R) : Py (Entity R) :=
  instantiate (mroIntegrator "Integrator3d") (initIntegrator3d env a)

/-- which of the three classes an object belongs to -/
inductive IntegratorClass where
  | one
  | two
  | three
  deriving DecidableEq

/-- An object of one of the integrator classes (of a concrete subclass): class and state. -/
structure IntegratorObj {K : Type} (R : Fmt K) where
  cls : IntegratorClass
  state : Vec R

/-- `position` (integrators.py:168-170, 262-264, 363-365): a scalar, or a slice -/
def IntegratorObj.position (o : IntegratorObj R) : Vec R :=
  match o.cls with
  | .one => o.state.take 1
  | .two => o.state.take 2
  | .three => o.state.take 3
/-- `velocity` (integrators.py:172-175, 266-269, 367-370) -/
def IntegratorObj.velocity (o : IntegratorObj R) : Vec R :=
  match o.cls with
  | .one => (o.state.drop 1).take 1
  | .two => (o.state.drop 2).take 2
  | .three => (o.state.drop 3).take 3

/-- `(a == b).all()` on 1-d arrays. Comparing arrays whose lengths do not broadcast raises `ValueError` (NumPy 1.25 and
later). A scalar is a length-1 operand. -/
def allEq (a b : Vec R) : Py Bool :=
  match bcast2 Fl.eqb a b with
  | .ok l => .ok (l.all id)
  | .error _ => .error .valueError

/-- `Integrator*.__eq__` (integrators.py:125-130, 219-224, 318-323): all three test `isinstance(other, Integrator1d)` -/
def IntegratorObj.eq (self other : IntegratorObj R) : Py Bool :=
  if other.cls = .one then do
    let a ← allEq self.velocity other.velocity
    if a then allEq self.position other.position else pure false
  else .ok false

end
end SAD
