import Verif.Model.Rotational
import Verif.Model.SixDof
import Verif.Model.Dubins

/-!
# Steps from a float32 state

`_build_state` returns a float32 array (cwh/point_model.py:129-133, rotational_model.py:195-201, sixdof_model.py:233-255, integrators.py,
dubins.py:330-331, 574-578). Under Euler's method the derivative of the first step after construction is computed from this array: where all
operands of an operation are float32, NumPy 1.26 computes in float32. Each function below is the one of the model of its file with these
operations in the float32 format `S`. The state after an Euler step is float64 (a float32 array plus a float64 one); SciPy converts the
initial state to float64. The linear models compute `A @ state` with a float64 `A`, in float64.
-/

namespace SAD

section
variable {K : Type}

/-- float32 arithmetic: every operation rounds like the float32 casts of `R`; sine, cosine and tangent are those of `libm` -/
def Fmt.single (R libm : Fmt K) : Fmt K := { libm with rnd := R.rnd32, rnd32 := R.rnd32 }

/-- the same number in another format: a float32 operand of a float64 operation, or an element of a float32 array as a float32 scalar -/
def Fl.conv {R S : Fmt K} : Fl R → Fl S
  | .nan => .nan
  | .ninf => .ninf
  | .pinf => .pinf
  | .fin x => .fin x

variable {R : Fmt K} [Field K] [LinearOrder K]

/-- `Dubins2dDynamics.state_transition_system` (dubins.py:403-411) of a float32 state: sines, cosines and products of float32 scalars.
The array `np.array([x_dot, y_dot, 0, 0])` is float64 (it contains Python integers). -/
def dubins2dF32 (S : Fmt K) (state : Vec R) : Py (Vec R) := do
  let d ← dubins2dF (R := S) (state.map Fl.conv)
  pure (d.map Fl.conv)

/-- `Dubins3dDynamics.state_transition_system` (dubins.py:664-674) of a float32 state. A Python number times or divided by a float32 scalar
is float64, hence so are `-1 * v` and `g / v`, and the products with them. -/
def dubins3dF32 (S : Fmt K) (g : Fl R) (state : Vec R) : Py (Vec R) :=
  match state with
  | [_, _, _, heading, gamma, roll, v] =>
    let h : Fl S := heading.conv
    let p : Fl S := gamma.conv
    let s : Fl S := v.conv
    let r : Fl S := roll.conv
    .ok [(s * Fl.cos h * Fl.cos p).conv, (s * Fl.sin h * Fl.cos p).conv, -1 * v * (Fl.sin p).conv, (g / v) * (Fl.tan r).conv, 0, 0, 0]
  | _ => .error .valueError

/-- `CWHRotation2dDynamics.state_transition_input` (cwh/rotational_model.py:452-465) of a float32 state: sine and cosine are float32, their
quotients by the Python float `m` are float64 -/
def rot2dG32 (S : Fmt K) (m inertia : Fl R) (state : Vec R) : Py (Mat R) := do
  let theta ← getIdx state 2
  let k ← pyDiv 1 inertia
  let c : Fl R := (Fl.cos (theta.conv : Fl S)).conv
  let s : Fl R := (Fl.sin (theta.conv : Fl S)).conv
  pure ⟨[[0, 0, 0], [0, 0, 0], [0, 0, 0], [c / m, -s / m, 0], [s / m, c / m, 0], [0, 0, k]], 3⟩

/-- `SixDOFDynamics.state_transition_system` (cwh/sixdof_model.py:510-548) of a float32 state: the brackets of the quaternion derivative are
float32. The products with elements of the float64 inertia matrix and the translation (a float64 copy) are float64. `apply_quat`
multiplies with integer arrays first, hence in float64. -/
def sixDofF32 (S : Fmt K) (A : Mat R) (I : Fin 3 → Fin 3 → Fl R) (state : Vec R) : Py (Vec R) :=
  match state with
  | [x, y, z, q1, q2, q3, q4, xDot, yDot, zDot, wx, wy, wz] => do
    let pv ← matVec A [x, y, z, xDot, yDot, zDot]
    let a1 : Fl S := q1.conv
    let a2 : Fl S := q2.conv
    let a3 : Fl S := q3.conv
    let a4 : Fl S := q4.conv
    let bx : Fl S := wx.conv
    let byy : Fl S := wy.conv
    let bz : Fl S := wz.conv
    let qd0 : Fl R := 0.5 * (a4 * bx - a3 * byy + a2 * bz).conv
    let qd1 : Fl R := 0.5 * (a3 * bx + a4 * byy - a1 * bz).conv
    let qd2 : Fl R := 0.5 * (-a2 * bx + a1 * byy + a4 * bz).conv
    let qd3 : Fl R := 0.5 * (-a1 * bx - a2 * byy - a3 * bz).conv
    let wd0 := 1 / I 0 0 * ((I 1 1 - I 2 2) * wy * wz)
    let wd1 := 1 / I 1 1 * ((I 2 2 - I 0 0) * wx * wz)
    let wd2 := 1 / I 2 2 * ((I 0 0 - I 1 1) * wx * wy)
    match pv with
    | [d0, d1, d2, d3, d4, d5] =>
      pure ([d0, d1, d2, qd0, qd1, qd2, qd3, d3, d4, d5, wd0, wd1, wd2].map Fl.cast32)
    | _ => .error .indexError
  | _ => .error .valueError

variable [FloorRing K]

/-- `step` (base_models.py:147-197) of an entity whose state is still the float32 array of `_build_state`, or a float32 array assigned to
`entity.state`: Euler's method evaluates the derivative as `rhs32` does, the solvers of SciPy as usual. -/
def Entity.firstStep (env : Env R) (e : Entity R) (rhs32 : Fl R → Vec R → Vec R → Py (Vec R)) (dt : Fl R) (a : Action R) : StepResult R :=
  if e.dynamics.integrationMethod = "Euler" then
    let r := { e with dynamics := { e.dynamics with rhs := rhs32 } }.step env dt a
    { r with entity := { r.entity with dynamics := { r.entity.dynamics with rhs := e.dynamics.rhs } } }
  else e.step env dt a

end

end SAD
