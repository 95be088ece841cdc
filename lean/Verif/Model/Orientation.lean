import Verif.Model.SixDof
import Verif.Model.Dubins

/-!
# `orientation` of the entities

`scipy.spatial.transform.Rotation` as used by the `orientation` properties: a rotation is its quaternion, scalar last.
-/

namespace SAD

section
variable {K : Type} {R : Fmt K} [Field K] [LinearOrder K]

/-- product of two quaternions, scalar last, as SciPy computes it (external to the code, used by dubins.py:216-227) -/
def quatCompose (p q : Vec R) : Py (Vec R) :=
  match p, q with
  | [p0, p1, p2, p3], [q0, q1, q2, q3] =>
    .ok [p3 * q0 + q3 * p0 + (p1 * q2 - p2 * q1), p3 * q1 + q3 * p1 + (p2 * q0 - p0 * q2), p3 * q2 + q3 * p2 + (p0 * q1 - p1 * q0),
      p3 * q3 - p0 * q0 - p1 * q1 - p2 * q2]
  | _, _ => .error .valueError

/-- `Rotation.from_euler("ZYX", [z, y, x])` of SciPy (external; dubins.py:227, cwh/rotational_model.py:303): upper case letters mean
intrinsic rotations, first about z, then about the new y axis, then about the new x axis, so the elementary quaternions are
multiplied from left to right. -/
def fromEulerZYX (z y x : Fl R) : Py (Vec R) := do
  quatCompose (← quatCompose [0, 0, Fl.sin (z / 2), Fl.cos (z / 2)] [0, Fl.sin (y / 2), 0, Fl.cos (y / 2)])
    [Fl.sin (x / 2), 0, 0, Fl.cos (x / 2)]

/-- `Rotation.apply` of SciPy (external): multiplication with the rotation matrix of the quaternion -/
def rotApply (q v : Vec R) : Py (Vec R) :=
  match q, v with
  | [x, y, z, w], [a, b, c] =>
    .ok [(x * x - y * y - z * z + w * w) * a + 2 * (x * y - z * w) * b + 2 * (x * z + y * w) * c,
      2 * (x * y + z * w) * a + (-(x * x) + y * y - z * z + w * w) * b + 2 * (y * z - x * w) * c,
      2 * (x * z - y * w) * a + 2 * (y * z + x * w) * b + (-(x * x) - y * y + z * z + w * w) * c]
  | _, _ => .error .valueError

/-- `CWHSpacecraft.orientation` (cwh/point_model.py:186-198): always `Rotation.from_quat([0, 0, 0, 1])` -/
def cwhOrientation (_e : Entity R) : Py (Vec R) := .ok [0, 0, 0, 1]

/-- `CWHRotation2dSpacecraft.orientation` (cwh/rotational_model.py:291-303) -/
def rot2dOrientation (e : Entity R) : Py (Vec R) := do fromEulerZYX (← getIdx e.state 2) 0 0

/-- `SixDOFSpacecraft.orientation` (cwh/sixdof_model.py:337-351): SciPy keeps the normalised quaternion, which is what `quaternion`
returns -/
def sixDofOrientation (e : Entity R) : Py (Vec R) := sixDofQuaternion e

/-- `orientation` of a `Dubins2dAircraft` (dubins.py:216-227): yaw is the heading (119-126), pitch is gamma (133-140); gamma and
roll are 0 (374-390) -/
def dubins2dOrientation (e : Entity R) : Py (Vec R) := do fromEulerZYX (← getIdx e.state 2) 0 0

/-- `orientation` of a `Dubins3dAircraft` (dubins.py:216-227, 604-626) -/
def dubins3dOrientation (e : Entity R) : Py (Vec R) := do
  fromEulerZYX (← getIdx e.state 3) (← getIdx e.state 4) (← getIdx e.state 5)

/-- `orientation` of a `SunEntity` (cwh/sun_model.py:121-126) raises -/
def sunOrientation (_e : Entity R) : Py (Vec R) := .error .notImplementedError

end
end SAD
