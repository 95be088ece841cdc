import Verif.Model.Np

/-!
# `safe_autonomy_dynamics/base_models.py`

Entities, dynamics, ODE dynamics, control-affine and linear dynamics.
Arrays are 1-d; `dtype` of the control array is tracked because it decides how scalar limits are compared.
-/

namespace SAD

/-- A right hand side `fun(t, y)` handed to an ODE solver. -/
abbrev Rhs {K : Type} (R : Fmt K) := Fl R → Vec R → Py (Vec R)

/-- The fields of SciPy's `OdeResult` the code uses (`sol.t`, the rows of `sol.y.T`), and `sol.success`, which the code
ignores. -/
structure Sol {K : Type} (R : Fmt K) where
  t : Vec R
  y : List (Vec R)
  success : Bool

/-- External code. `solveIvp fun t1 y0 t_eval` is `scipy.integrate.solve_ivp(fun, (0, t1), y0, t_eval=t_eval)`;
`odeint f y0 t1` is jax's `odeint(f, y0, linspace(0, t1, 11))` (rows of the result); `jaxInstalled` says whether
`import jax` succeeds (base_models.py:31-39). -/
structure Env {K : Type} (R : Fmt K) where
  jaxInstalled : Bool
  solveIvp : Rhs R → Fl R → Vec R → Option (Vec R) → Py (Sol R)
  odeint : Rhs R → Vec R → Fl R → Py (List (Vec R))

/-- An instance of `BaseDynamics` (base_models.py:415-432) / `BaseODESolverDynamics` (base_models.py:498-520).
`rhs` is the abstract `_compute_state_dot(t, state, control)`. `custom` is `some f` for a direct subclass of `BaseDynamics`
that overrides `_step` with `f`, and `none` for ODE dynamics. `trajectory`, `trajectoryT` are the two mutable attributes. -/
structure Dyn {K : Type} (R : Fmt K) where
  stateMin : Arr R
  stateMax : Arr R
  angleWrapCenters : Option (Vec R)
  useJax : Bool
  trajectorySamples : Int
  stateDotMin : Arr R
  stateDotMax : Arr R
  integrationMethod : String
  rhs : Fl R → Vec R → Vec R → Py (Vec R)
  custom : Option (Fl R → Vec R → Vec R → Py (Vec R × Vec R))
  trajectory : Option (List (Vec R))
  trajectoryT : Option (Vec R)

/-- An instance of `BaseEntity` (base_models.py:124-137). `controlMap` is the dict from actuator names to indices
(indices are non-negative in all shipped entities). -/
structure Entity {K : Type} (R : Fmt K) where
  name : String
  dynamics : Dyn R
  controlDefault : Vec R
  controlMin : Arr R
  controlMax : Arr R
  controlMap : Option (List (String × Nat))
  state : Vec R
  stateDot : Vec R

/-- The `action` argument of `step` (base_models.py:147): `None`, a dict (entries in insertion order), a list of numbers,
an ndarray, a jax array, or anything else. -/
inductive Action {K : Type} (R : Fmt K) where
  | none
  | dict (items : List (String × Fl R))
  | list (xs : Vec R)
  | ndarray (ty : DType) (xs : Vec R)
  | jaxArray (xs : Vec R)
  | other

/-- What a call of `step` leaves behind: the entity, whether the limit warning was emitted, and the outcome. -/
structure StepResult {K : Type} (R : Fmt K) where
  entity : Entity R
  warned : Bool
  outcome : Py Unit

section
variable {K : Type} {R : Fmt K}

/-- dict look-up -/
def lookup {β : Type} (m : List (String × β)) (k : String) : Option β :=
  match m with
  | [] => none
  | (k', v) :: m => if k' = k then some v else lookup m k

/-- The loop over `action.items()` (base_models.py:175-182): `control` starts as a copy of the default. -/
def applyDict (map : List (String × Nat)) : List (String × Fl R) → Vec R → Py (Vec R)
  | [], control => .ok control
  | (name, value) :: rest, control =>
    match lookup map name with
    | none => .error .keyError
    | some i => do
      let control ← setIdx control i value
      applyDict map rest control

variable [Field K] [LinearOrder K]

/-- How a limit takes part in a comparison with a control array of dtype `ty` (NumPy 1.26 value-based casting): a Python
scalar is converted to a float32 array's dtype if it is not too large for it, an array limit and an integer array are compared in `float64`.
Simplifications: integers beyond `2^53` in magnitude are not rounded; a jax array is treated like a float32 array (jax converts large scalars, too). -/
def Arr.forDType (ty : DType) : Arr R → Arr R
  | .scalar x => .scalar (match ty with | .f32 => if x.fits32 then x.cast32 else x | .f64 | .i64 => x)
  | .vec xs => .vec xs

/-- The control vector requested by an action, with its dtype (base_models.py:168-191). `control_default` is a float64
array in all shipped entities. -/
def Entity.resolve (env : Env R) (e : Entity R) : Action R → Py (DType × Vec R)
  | .none => .ok (.f64, e.controlDefault)
  | .dict items =>
    match e.controlMap with
    | none => .error .assertionError
    | some m => do
      let c ← applyDict m items e.controlDefault
      pure (.f64, c)
  | .list xs => .ok (.f32, xs.map Fl.cast32)
  | .ndarray ty xs => .ok (ty, xs)
  | .jaxArray xs => if env.jaxInstalled then .ok (.f32, xs) else .error .valueError
  | .other => .error .valueError

/-- `np.any(control < control_min) or np.any(control > control_max)` (base_models.py:192) -/
def exceeds (control : Vec R) (lo hi : Arr R) : Py Bool := do
  let a ← bcast2 (fun c l => decide (c < l)) control lo.toVec
  if a.any id then pure true
  else do
    let b ← bcast2 (fun c h => decide (h < c)) control hi.toVec
    pure (b.any id)

/-- `_clip_state_dot_direct` (base_models.py:550-551) -/
def Dyn.clipStateDotDirect (d : Dyn R) (stateDot : Vec R) : Py (Vec R) :=
  npClip stateDot d.stateDotMin d.stateDotMax

/-- `_clip_state_dot_by_state_limits` (base_models.py:553-563) -/
def Dyn.clipStateDotByStateLimits (d : Dyn R) (state stateDot : Vec R) : Py (Vec R) := do
  let lowerBounded ← bcast2 (fun s l => decide (s ≤ l)) state d.stateMin.toVec
  let upperBounded ← bcast2 (fun s h => decide (h ≤ s)) state d.stateMax.toVec
  let lowerClipped := stateDot.map (fun v => Fl.clip v 0 .pinf)
  let upperClipped := stateDot.map (fun v => Fl.clip v .ninf 0)
  let sd ← npWhere lowerBounded lowerClipped stateDot
  npWhere upperBounded upperClipped sd

/-- `compute_state_dot` (base_models.py:522-544) -/
def Dyn.computeStateDot (d : Dyn R) (t : Fl R) (state control : Vec R) : Py (Vec R) := do
  let sd ← d.rhs t state control
  let sd ← d.clipStateDotDirect sd
  d.clipStateDotByStateLimits state sd

/-- `compute_state_dot_jax` (base_models.py:600-603): the raw derivative, with `state` and `t` swapped for `odeint` -/
def Dyn.computeStateDotJax (d : Dyn R) (t : Fl R) (state control : Vec R) : Py (Vec R) :=
  d.rhs t state control

/-- `a[-1]` of a list of rows, raising on an empty one -/
def lastRow (rows : List (Vec R)) : Py (Vec R) :=
  match rows.getLast? with
  | some r => .ok r
  | none => .error .indexError

/-- `t_eval` (base_models.py:569-571): `None`, or `np.linspace(0, step_size, n + 1)[1:]` -/
def Dyn.tEval (d : Dyn R) (dt : Fl R) : Option (Vec R) :=
  if 0 < d.trajectorySamples then some (linspaceTail dt d.trajectorySamples.toNat) else none

/-- `BaseODESolverDynamics._step` (base_models.py:565-598). Returns the dynamics object after the call (its `trajectory`
attributes are assigned before anything after the solver can fail) and the outcome. -/
def Dyn.odeStep (env : Env R) (d : Dyn R) (dt : Fl R) (state control : Vec R) : Dyn R × Py (Vec R × Vec R) :=
  if d.integrationMethod = "RK45" then
    match env.solveIvp (fun t y => d.computeStateDot t y control) dt state (d.tEval dt) with
    | .error x => (d, .error x)
    | .ok sol =>
      ({ d with trajectory := some sol.y, trajectoryT := some sol.t }, do
        let next ← lastRow sol.y
        let sd ← d.computeStateDot dt next control
        pure (next, sd))
  else if d.integrationMethod = "RK45_JAX" then
    if d.useJax = false then (d, .error .valueError)
    else if 0 < d.trajectorySamples then (d, .error .assertionError)
    else
      (d, do
        let rows ← env.odeint (fun t y => d.computeStateDotJax t y control) state dt
        let next ← lastRow rows
        let sd ← d.computeStateDot dt next control
        pure (next, sd))
  else if d.integrationMethod = "Euler" then
    if 0 < d.trajectorySamples then (d, .error .assertionError)
    else
      (d, do
        let sd ← d.computeStateDot 0 state control
        let next ← vadd state (vscale dt sd)
        pure (next, sd))
  else (d, .error .valueError)

/-- `_step`: overridden directly, or the ODE solver one. -/
def Dyn.rawStep (env : Env R) (d : Dyn R) (dt : Fl R) (state control : Vec R) : Dyn R × Py (Vec R × Vec R) :=
  match d.custom with
  | some f => (d, f dt state control)
  | none => d.odeStep env dt state control

variable [FloorRing K]

/-- the wrapped value of one element, `((state + np.pi) % (2 * np.pi)) - np.pi + center` (base_models.py:461) -/
def wrapElem (s c : Fl R) : Fl R := Fl.pyMod (s + Fl.pi) (2 * Fl.pi) - Fl.pi + c

/-- `_wrap_angles` (base_models.py:457-467): wrap where the centre is not NaN -/
def Dyn.wrapAngles (d : Dyn R) (state : Vec R) : Py (Vec R) :=
  match d.angleWrapCenters with
  | none => .ok state
  | some centers => bcast2 (fun s c => if c.isNan then s else wrapElem s c) state centers

/-- `BaseDynamics.step` (base_models.py:434-455) -/
def Dyn.step (env : Env R) (d : Dyn R) (dt : Fl R) (state control : Vec R) : Dyn R × Py (Vec R × Vec R) :=
  match d.rawStep env dt state control with
  | (d', r) => (d', do
      let (next, sd) ← r
      let next ← npClip next d.stateMin d.stateMax
      let next ← d.wrapAngles next
      pure (next, sd))

/-- `BaseEntity.step` (base_models.py:147-197) -/
def Entity.step (env : Env R) (e : Entity R) (dt : Fl R) (a : Action R) : StepResult R :=
  match e.resolve env a with
  | .error x => ⟨e, false, .error x⟩
  | .ok (ty, u) =>
    let lo := e.controlMin.forDType ty
    let hi := e.controlMax.forDType ty
    match exceeds u lo hi with
    | .error x => ⟨e, false, .error x⟩
    | .ok w =>
      match npClip u lo hi with
      | .error x => ⟨e, w, .error x⟩
      | .ok v =>
        match e.dynamics.step env dt e.state v with
        | (d, .error x) => ⟨{ e with dynamics := d }, w, .error x⟩
        | (d, .ok (s, sd)) => ⟨{ e with dynamics := d, state := s, stateDot := sd }, w, .ok ()⟩

/-- A user-visible operation on an entity: a step, an assignment `entity.state = v` (base_models.py:211-213), or an
element setter such as `aircraft.heading = v` (dubins.py), which raises `IndexError` for a bad index. -/
inductive Op {K : Type} (R : Fmt K) where
  | step (dt : Fl R) (a : Action R)
  | setState (v : Vec R)
  | setElem (i : Nat) (v : Fl R)

/-- one operation; a raising operation leaves what `step` left -/
def Entity.op (env : Env R) (e : Entity R) : Op R → Entity R
  | .step dt a => (e.step env dt a).entity
  | .setState v => { e with state := v }
  | .setElem i v => { e with state := e.state.set i v }

/-- a finite history of operations -/
def Entity.run (env : Env R) (e : Entity R) (ops : List (Op R)) : Entity R := ops.foldl (Entity.op env) e

end

section constructors
variable {K : Type} {R : Fmt K} [Field K] [LinearOrder K]

/-- Keyword arguments of `BaseODESolverDynamics.__init__` / `BaseDynamics.__init__` (base_models.py:415-432, 498-520).
`trajectorySamples = none` stands for a value that is not an `int`. -/
structure DynArgs {K : Type} (R : Fmt K) where
  trajectorySamples : Option Int := some 0
  stateDotMin : Arr R := .scalar .ninf
  stateDotMax : Arr R := .scalar .pinf
  integrationMethod : String := "RK45"
  stateMin : Arr R := .scalar .ninf
  stateMax : Arr R := .scalar .pinf
  angleWrapCenters : Option (Vec R) := none
  useJax : Bool := false

/-- `BaseODESolverDynamics.__init__`: the `int` assertion comes before the jax check of the parent constructor. -/
def mkOdeDyn (env : Env R) (a : DynArgs R) (rhs : Fl R → Vec R → Vec R → Py (Vec R)) : Py (Dyn R) :=
  match a.trajectorySamples with
  | none => .error .assertionError
  | some n =>
    if a.useJax = true ∧ env.jaxInstalled = false then .error .importError
    else .ok {
      stateMin := a.stateMin, stateMax := a.stateMax, angleWrapCenters := a.angleWrapCenters, useJax := a.useJax
      trajectorySamples := n, stateDotMin := a.stateDotMin, stateDotMax := a.stateDotMax
      integrationMethod := a.integrationMethod, rhs := rhs, custom := none, trajectory := none, trajectoryT := none }

/-- `BaseControlAffineODESolverDynamics._compute_state_dot` (base_models.py:624-626): `f(x) + g(x) @ u` -/
def affineRhs (f : Vec R → Py (Vec R)) (g : Vec R → Py (Mat R)) (_t : Fl R) (state control : Vec R) : Py (Vec R) := do
  let a ← f state
  let G ← g state
  let b ← matVec G control
  vadd a b

/-- The shape assertions of `BaseLinearODESolverDynamics.__init__` (base_models.py:683-689) -/
def linearShapeCheck (aShape bShape : List Nat) : Py Unit :=
  if aShape.length = 2 then
    if bShape.length = 2 then
      if aShape[0]? = aShape[1]? then
        if aShape[1]? = bShape[0]? then .ok ()
        else .error .assertionError
      else .error .assertionError
    else .error .assertionError
  else .error .assertionError

/-- `BaseLinearODESolverDynamics` (base_models.py:680-698): the parent constructor runs before the shape assertions -/
def mkLinearDyn (env : Env R) (a : DynArgs R) (A B : Mat R) : Py (Dyn R) := do
  let d ← mkOdeDyn env a (affineRhs (fun x => matVec A x) (fun _ => .ok B))
  linearShapeCheck [A.rows.length, A.ncols] [B.rows.length, B.ncols]
  pure d

end constructors
end SAD
