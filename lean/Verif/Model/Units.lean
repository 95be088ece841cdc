import Verif.Model.Integrators
import Verif.Model.Rotational
import Verif.Model.SixDof
import Verif.Model.Dubins

/-!
# The `*_with_units` properties

Each property is `self.ureg.Quantity(self.<attribute>, self.base_units.<unit>)`.
-/

namespace SAD
variable {K : Type} {R : Fmt K} [Field K] [LinearOrder K]

/-- `CWHSpacecraft.base_units` (cwh/point_model.py:102), the same in rotational_model.py:125, sixdof_model.py:156, sun_model.py:70
and, inherited from `BaseEntity.base_units` (base_models.py:122), in integrators.py -/
def siBaseUnits : BaseUnits K := mkBaseUnits .meters .seconds .radians

/-- `BaseDubinsAircraft.base_units` (dubins.py:68) -/
def dubinsBaseUnits : BaseUnits K := mkBaseUnits .feet .seconds .radians

/-- `self.ureg.Quantity(self._state[i], unit)` -/
def quantityAt (e : Entity R) (i : Nat) (unit : PUnit K) : Py (CfgVal R) := do
  let x ← getIdx e.state i
  pure (.quantity x unit)

/-- `x_with_units`, `y_with_units`, `z_with_units` (base_models.py:221-246), `x_dot_with_units`, `y_dot_with_units` and
`z_dot_with_units` (cwh/point_model.py:156-179) of a `CWHSpacecraft`, each under the keyword of the attribute -/
def cwhWithUnits (e : Entity R) : Py (List (String × CfgVal R)) := do
  let x ← quantityAt e 0 siBaseUnits.length
  let y ← quantityAt e 1 siBaseUnits.length
  let z ← quantityAt e 2 siBaseUnits.length
  let xd ← quantityAt e 3 siBaseUnits.velocity
  let yd ← quantityAt e 4 siBaseUnits.velocity
  let zd ← quantityAt e 5 siBaseUnits.velocity
  pure [("x", x), ("y", y), ("z", z), ("x_dot", xd), ("y_dot", yd), ("z_dot", zd)]

/-- the same for a `CWHRotation2dSpacecraft` (base_models.py:221-235, 372-375, cwh/rotational_model.py:248-261); there is no
`theta_with_units`, so `theta` (rotational_model.py:238-241) itself is given -/
def rot2dWithUnits (e : Entity R) : Py (List (String × CfgVal R)) := do
  let x ← quantityAt e 0 siBaseUnits.length
  let y ← quantityAt e 1 siBaseUnits.length
  let theta ← getIdx e.state 2
  let xd ← quantityAt e 3 siBaseUnits.velocity
  let yd ← quantityAt e 4 siBaseUnits.velocity
  let wz ← quantityAt e 5 siBaseUnits.angularVelocity
  pure [("x", x), ("y", y), ("theta", .num theta), ("x_dot", xd), ("y_dot", yd), ("wz", wz)]

/-- the same for a `SixDOFSpacecraft` (base_models.py:221-246, 350-375, cwh/sixdof_model.py:294-317), with the bare `q1` … `q4`
(sixdof_model.py:269-287) -/
def sixDofWithUnits (e : Entity R) : Py (List (String × CfgVal R)) := do
  let x ← quantityAt e 0 siBaseUnits.length
  let y ← quantityAt e 1 siBaseUnits.length
  let z ← quantityAt e 2 siBaseUnits.length
  let q1 ← getIdx e.state 3
  let q2 ← getIdx e.state 4
  let q3 ← getIdx e.state 5
  let q4 ← getIdx e.state 6
  let xd ← quantityAt e 7 siBaseUnits.velocity
  let yd ← quantityAt e 8 siBaseUnits.velocity
  let zd ← quantityAt e 9 siBaseUnits.velocity
  let wx ← quantityAt e 10 siBaseUnits.angularVelocity
  let wy ← quantityAt e 11 siBaseUnits.angularVelocity
  let wz ← quantityAt e 12 siBaseUnits.angularVelocity
  pure [("x", x), ("y", y), ("z", z), ("q1", .num q1), ("q2", .num q2), ("q3", .num q3), ("q4", .num q4),
    ("x_dot", xd), ("y_dot", yd), ("z_dot", zd), ("wx", wx), ("wy", wy), ("wz", wz)]

/-- the same for a `Dubins2dAircraft` (base_models.py:221-246, dubins.py:115-118, 172-175); `z` is the constant 0
(dubins.py:350-351) -/
def dubins2dWithUnits (e : Entity R) : Py (List (String × CfgVal R)) := do
  let x ← quantityAt e 0 dubinsBaseUnits.length
  let y ← quantityAt e 1 dubinsBaseUnits.length
  let heading ← quantityAt e 2 dubinsBaseUnits.angle
  let v ← quantityAt e 3 dubinsBaseUnits.velocity
  pure [("x", x), ("y", y), ("z", .quantity 0 dubinsBaseUnits.length), ("heading", heading), ("v", v)]

/-- the same for a `Dubins3dAircraft` (base_models.py:221-246, dubins.py:115-118, 158-161, 172-189) -/
def dubins3dWithUnits (e : Entity R) : Py (List (String × CfgVal R)) := do
  let x ← quantityAt e 0 dubinsBaseUnits.length
  let y ← quantityAt e 1 dubinsBaseUnits.length
  let z ← quantityAt e 2 dubinsBaseUnits.length
  let heading ← quantityAt e 3 dubinsBaseUnits.angle
  let gamma ← quantityAt e 4 dubinsBaseUnits.angle
  let roll ← quantityAt e 5 dubinsBaseUnits.angle
  let v ← quantityAt e 6 dubinsBaseUnits.velocity
  pure [("x", x), ("y", y), ("z", z), ("heading", heading), ("gamma", gamma), ("roll", roll), ("v", v)]

/-- the same for an integrator (base_models.py:221-224): the position along x -/
def integratorXWithUnits (e : Entity R) : Py (List (String × CfgVal R)) := do
  let x ← quantityAt e 0 siBaseUnits.length
  pure [("x", x)]

end SAD
