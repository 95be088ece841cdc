import Verif.Model.Rotational
import Verif.Model.SixDof
import Verif.Model.Dubins

/-!
# Physical parameters of the spacecraft, as numbers of the field
-/

namespace SAD.Spec
open SAD
variable {K : Type} {R : Fmt K} [Field K] [LinearOrder K]

/-- parameters of the planar rotating spacecraft -/
structure Rot2dParams (K : Type) where
  m : K
  inertia : K
  angAcc : K
  angVel : K
  wheelInertia : K
  wheelAcc : K
  wheelVel : K
  n : K

/-- the constructor arguments hold the finite parameters `p` -/
structure Rot2dParams.Of (p : Rot2dParams K) (a : Rot2dArgs R) : Prop where
  m : a.m = .fin p.m
  inertia : a.inertia = .fin p.inertia
  angAcc : a.angAccLimit = .fin p.angAcc
  angVel : a.angVelLimit = .fin p.angVel
  wheelInertia : a.inertiaWheel = .fin p.wheelInertia
  wheelAcc : a.accLimitWheel = .fin p.wheelAcc
  wheelVel : a.velLimitWheel = .fin p.wheelVel
  n : a.n = .fin p.n

/-- the smaller of the spacecraft limit and the limit induced by the reaction wheel -/
def Rot2dParams.accLimit (p : Rot2dParams K) : K := min p.angAcc (p.wheelInertia * p.wheelAcc / p.inertia)
def Rot2dParams.velLimit (p : Rot2dParams K) : K := min p.angVel (p.wheelInertia * p.wheelVel / p.inertia)

/-- parameters of the six-degrees-of-freedom spacecraft -/
structure SixDofParams (K : Type) where
  m : K
  inertia : Fin 3 → Fin 3 → K
  angAcc : Fin 3 → K
  angVel : Fin 3 → K
  wheelInertia : K
  wheelAcc : K
  wheelVel : K
  thrust : K
  n : K

/-- a limit argument holding the numbers `v`: one number for all axes, or a float64 array of three -/
def LimitIs (x : NumInput R) (v : Fin 3 → K) : Prop :=
  (∃ c, x = .num (.fin c) ∧ ∀ i, v i = c) ∨ x = .array ⟨[3], "float64", [.fin (v 0), .fin (v 1), .fin (v 2)]⟩

/-- the constructor arguments hold the finite parameters `p` -/
structure SixDofParams.Of (p : SixDofParams K) (a : SixDofArgs R) : Prop where
  m : a.m = .fin p.m
  inertia : ∀ i j, a.inertiaMatrix i j = .fin (p.inertia i j)
  angAcc : LimitIs a.angAccLimit p.angAcc
  angVel : LimitIs a.angVelLimit p.angVel
  wheelInertia : a.inertiaWheel = .fin p.wheelInertia
  wheelAcc : a.accLimitWheel = .fin p.wheelAcc
  wheelVel : a.velLimitWheel = .fin p.wheelVel
  thrust : a.thrustControlLimit = .fin p.thrust
  n : a.n = .fin p.n

/-- per axis, the smaller of the spacecraft limit and the limit induced by the reaction wheel -/
def SixDofParams.accLimit (p : SixDofParams K) (i : Fin 3) : K := min (p.angAcc i) (p.wheelInertia * p.wheelAcc / p.inertia i i)
def SixDofParams.velLimit (p : SixDofParams K) (i : Fin 3) : K := min (p.angVel i) (p.wheelInertia * p.wheelVel / p.inertia i i)

/-- parameters of the two-dimensional Dubins aircraft -/
structure Dubins2dParams (K : Type) where
  vMin : K
  vMax : K
  headingRateMin : K
  headingRateMax : K
  accMin : K
  accMax : K

/-- the constructor arguments hold the finite parameters `p` -/
structure Dubins2dParams.Of (p : Dubins2dParams K) (a : Dubins2dArgs R) : Prop where
  vMin : a.vMin = .fin p.vMin
  vMax : a.vMax = .fin p.vMax
  headingRateMin : a.headingRateMin = .fin p.headingRateMin
  headingRateMax : a.headingRateMax = .fin p.headingRateMax
  accMin : a.accMin = .fin p.accMin
  accMax : a.accMax = .fin p.accMax

/-- parameters of the three-dimensional Dubins aircraft -/
structure Dubins3dParams (K : Type) where
  vMin : K
  vMax : K
  gammaMin : K
  gammaMax : K
  rollMin : K
  rollMax : K
  gammaRateMin : K
  gammaRateMax : K
  rollRateMin : K
  rollRateMax : K
  accMin : K
  accMax : K

/-- the constructor arguments hold the finite parameters `p` -/
structure Dubins3dParams.Of (p : Dubins3dParams K) (a : Dubins3dArgs R) : Prop where
  vMin : a.vMin = .fin p.vMin
  vMax : a.vMax = .fin p.vMax
  gammaMin : a.gammaMin = .fin p.gammaMin
  gammaMax : a.gammaMax = .fin p.gammaMax
  rollMin : a.rollMin = .fin p.rollMin
  rollMax : a.rollMax = .fin p.rollMax
  gammaRateMin : a.gammaRateMin = .fin p.gammaRateMin
  gammaRateMax : a.gammaRateMax = .fin p.gammaRateMax
  rollRateMin : a.rollRateMin = .fin p.rollRateMin
  rollRateMax : a.rollRateMax = .fin p.rollRateMax
  accMin : a.accMin = .fin p.accMin
  accMax : a.accMax = .fin p.accMax

end SAD.Spec

namespace SAD.Spec
open SAD
variable {K : Type} {R : Fmt K} [Field K] [LinearOrder K]

/-- the entity classes with an equality on states -/
inductive CraftKind
  | cwh | rot2d | sixDof | dubins2d | dubins3d
  deriving DecidableEq

/-- `self == other` in each class; `other` is `none` for an object of another class. `ident` and `euler` are SciPy's Euler
angles of the identity, and of a rotation given by Euler angles. -/
def CraftKind.eq (k : CraftKind) (ident : Vec R) (euler : EulerRoundTrip R) (self : Entity R) (other : Option (Entity R)) : Py Bool :=
  match k with
  | .cwh => cwhEq ident self other
  | .rot2d => rot2dEq self other
  | .sixDof => sixDofEq self other
  | .dubins2d => dubins2dEq euler self other
  | .dubins3d => dubins3dEq euler self other

/-- `entity.position` -/
def CraftKind.position (k : CraftKind) (e : Entity R) : Py (Vec R) :=
  match k with
  | .cwh => .ok (cwhPosition e)
  | .rot2d => rot2dPosition e
  | .sixDof => .ok (sixDofPosition e)
  | .dubins2d => dubins2dPosition e
  | .dubins3d => .ok (dubins3dPosition e)

/-- `entity.velocity` -/
def CraftKind.velocity (k : CraftKind) (e : Entity R) : Py (Vec R) :=
  match k with
  | .cwh => .ok (cwhVelocity e)
  | .rot2d => rot2dVelocity e
  | .sixDof => .ok (sixDofVelocity e)
  | .dubins2d => dubins2dVelocity e
  | .dubins3d => dubins3dVelocity e

end SAD.Spec
