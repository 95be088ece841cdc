import Verif.Model.Cwh

/-!
# `safe_autonomy_dynamics/dubins.py`

Two- and three-dimensional Dubins aircraft.
-/

namespace SAD

section
variable {K : Type} {R : Fmt K} [Field K] [LinearOrder K]

/-- The conversion `Rotation.from_euler("ZYX", [yaw, pitch, roll]).as_euler("ZYX")` of SciPy, external to the code: an arbitrary
function of the three angles. -/
abbrev EulerRoundTrip {K : Type} (R : Fmt K) := Fl R → Fl R → Fl R → Vec R

/-! ### Dubins2dAircraft -/

/-- `Dubins2dDynamics.state_transition_system` (dubins.py:403-411) -/
def dubins2dF (state : Vec R) : Py (Vec R) :=
  match state with
  | [_, _, heading, v] => .ok [v * Fl.cos heading, v * Fl.sin heading, 0, 0]
  | _ => .error .valueError

/-- `Dubins2dDynamics.state_transition_input` (dubins.py:413-415) -/
def dubins2dG (_state : Vec R) : Py (Mat R) := .ok ⟨[[0, 0], [0, 0], [1, 0], [0, 1]], 2⟩

/-- constructor arguments of `Dubins2dAircraft` (dubins.py:281-292) -/
structure Dubins2dArgs {K : Type} (R : Fmt K) [Field K] [LinearOrder K] where
  trajectorySamples : Option Int := some 0
  integrationMethod : String := "RK45"
  vMin : Fl R := 200
  vMax : Fl R := 400
  headingRateMin : Fl R := -0.174533
  headingRateMax : Fl R := 0.174533
  accMin : Fl R := -96.5
  accMax : Fl R := 96.5
  kwargs : List (String × CfgVal R)

/-- `BaseDubinsAircraftValidator` (dubins.py:56-60) -/
def dubins2dFields : List (CfgField R) :=
  [⟨"x", .inUnit .feet, 0⟩, ⟨"y", .inUnit .feet, 0⟩, ⟨"z", .inUnit .feet, 0⟩, ⟨"heading", .inUnit .radians, 0⟩,
   ⟨"v", .inUnit (PUnit.feet.div .seconds), 200⟩]

/-- `Dubins2dAircraft.__init__` (dubins.py:281-316), `BaseDubinsAircraft.__init__` (70-79) and `_build_state` (330-331). `None`
becomes NaN in the float32 array of wrap centres. -/
def initDubins2d (env : Env R) (a : Dubins2dArgs R) : Py (Entity R) := do
  let d ← mkOdeDyn env {
      trajectorySamples := a.trajectorySamples, integrationMethod := a.integrationMethod
      stateMin := .vec [.ninf, .ninf, .ninf, a.vMin.cast32], stateMax := .vec [.pinf, .pinf, .pinf, a.vMax.cast32]
      angleWrapCenters := some [.nan, .nan, Fl.cast32 0, .nan] } (affineRhs dubins2dF dubins2dG)
  baseInit dubins2dFields ["x", "y", "heading", "v"] d [0, 0] (.vec [a.headingRateMin, a.accMin]) (.vec [a.headingRateMax, a.accMax])
    (some [("heading_rate", 0), ("acceleration", 1)]) a.kwargs

/-- `Dubins2dAircraft(...)` -/
def newDubins2d (env : Env R) (a : Dubins2dArgs R) : Py (Entity R) := instantiate mroDubins2d (initDubins2d env a)

/-- `BaseDubinsAircraft.velocity` (dubins.py:202-213) for given speed, heading and gamma -/
def dubinsVelocity (v heading gamma : Fl R) : Vec R :=
  [v * Fl.cos heading * Fl.cos gamma, v * Fl.sin heading * Fl.cos gamma, -1 * v * Fl.sin gamma].map Fl.cast32

/-- `velocity` of a `Dubins2dAircraft`: heading is `_state[2]`, `v` is `_state[3]`, `gamma` is 0 (dubins.py:353-363, 375-382) -/
def dubins2dVelocity (e : Entity R) : Py (Vec R) := do
  let heading ← getIdx e.state 2
  let v ← getIdx e.state 3
  pure (dubinsVelocity v heading 0)

/-- `Dubins2dAircraft.position` (dubins.py:369-373); `z` is 0. Simplification: states shorter than 2 raise `IndexError`. -/
def dubins2dPosition (e : Entity R) : Py (Vec R) := do pure [← getIdx e.state 0, ← getIdx e.state 1, 0]

/-- `acc * (velocity / v)` (dubins.py:394, 644): `velocity` is a float32 array, `acc` and `v` are scalars. NumPy division: no exception. -/
def dubinsAcceleration (acc v : Fl R) (velocity : Vec R) : Vec R :=
  let q := scalarOp (· / ·) .f32 velocity v
  (scalarOp (fun x s => s * x) q.1 q.2 acc).2

/-- `Dubins2dAircraft.acceleration` (dubins.py:391-395) -/
def dubins2dAcceleration (e : Entity R) : Py (Vec R) := do
  let acc ← getIdx e.stateDot 3
  let v ← getIdx e.state 3
  let vel ← dubins2dVelocity e
  pure (dubinsAcceleration acc v vel)

/-- `Dubins2dAircraft.__eq__` (dubins.py:318-328); `other` is `none` for an object of another class. Roll and gamma are the
constant 0. -/
def dubins2dEq (euler : EulerRoundTrip R) (self : Entity R) (other : Option (Entity R)) : Py Bool :=
  match other with
  | none => .ok false
  | some other => do
    if ← allEq (← dubins2dVelocity self) (← dubins2dVelocity other) then
      if ← allEq (← dubins2dPosition self) (← dubins2dPosition other) then
        if ← allEq (← dubins2dAcceleration self) (← dubins2dAcceleration other) then
          if ← allEq (euler (← getIdx self.state 2) 0 0) (euler (← getIdx other.state 2) 0 0) then
            pure (Fl.eqb (← getIdx self.state 2) (← getIdx other.state 2))
          else pure false
        else pure false
      else pure false
    else pure false

/-! ### Dubins3dAircraft -/

/-- `Dubins3dDynamics.state_transition_system` (dubins.py:664-674); `g / v` is a NumPy division -/
def dubins3dF (g : Fl R) (state : Vec R) : Py (Vec R) :=
  match state with
  | [_, _, _, heading, gamma, roll, v] => .ok [v * Fl.cos heading * Fl.cos gamma, v * Fl.sin heading * Fl.cos gamma,
      -1 * v * Fl.sin gamma, (g / v) * Fl.tan roll, 0, 0, 0]
  | _ => .error .valueError

/-- `Dubins3dDynamics.state_transition_input` (dubins.py:676-678) -/
def dubins3dG (_state : Vec R) : Py (Mat R) :=
  .ok ⟨[[0, 0, 0], [0, 0, 0], [0, 0, 0], [0, 0, 0], [1, 0, 0], [0, 1, 0], [0, 0, 1]], 3⟩

/-- constructor arguments of `Dubins3dAircraft` (dubins.py:513-530) -/
structure Dubins3dArgs {K : Type} (R : Fmt K) [Field K] [LinearOrder K] where
  trajectorySamples : Option Int := some 0
  integrationMethod : String := "RK45"
  vMin : Fl R := 200
  vMax : Fl R := 400
  gammaMin : Fl R := -0.349066
  gammaMax : Fl R := 0.349066
  rollMin : Fl R := -1.047198
  rollMax : Fl R := 1.047198
  gammaRateMin : Fl R := -0.174533
  gammaRateMax : Fl R := 0.174533
  rollRateMin : Fl R := -0.087266
  rollRateMax : Fl R := 0.087266
  accMin : Fl R := -96.5
  accMax : Fl R := 96.5
  kwargs : List (String × CfgVal R)

/-- `Dubins3dAircraftValidator` (dubins.py:434-435), after the base fields -/
def dubins3dFields : List (CfgField R) := dubins2dFields ++ [⟨"gamma", .inUnit .radians, 0⟩, ⟨"roll", .inUnit .radians, 0⟩]

/-- `Dubins3dDynamics.g` (dubins.py:660): the aircraft always uses the default -/
def dubinsGravity : Fl R := 32.17

/-- `Dubins3dAircraft.__init__` (dubins.py:513-555), `BaseDubinsAircraft.__init__` (70-79) and `_build_state` (574-578) -/
def initDubins3d (env : Env R) (a : Dubins3dArgs R) : Py (Entity R) := do
  let d ← mkOdeDyn env {
      trajectorySamples := a.trajectorySamples, integrationMethod := a.integrationMethod
      stateMin := .vec [.ninf, .ninf, .ninf, .ninf, a.gammaMin.cast32, a.rollMin.cast32, a.vMin.cast32]
      stateMax := .vec [.pinf, .pinf, .pinf, .pinf, a.gammaMax.cast32, a.rollMax.cast32, a.vMax.cast32]
      angleWrapCenters := some [.nan, .nan, .nan, Fl.cast32 0, Fl.cast32 0, Fl.cast32 0, .nan] } (affineRhs (dubins3dF dubinsGravity) dubins3dG)
  baseInit dubins3dFields ["x", "y", "z", "heading", "gamma", "roll", "v"] d [0, 0, 0]
    (.vec [a.gammaRateMin, a.rollRateMin, a.accMin]) (.vec [a.gammaRateMax, a.rollRateMax, a.accMax])
    (some [("gamma_rate", 0), ("roll_rate", 1), ("acceleration", 2)]) a.kwargs

/-- `Dubins3dAircraft(...)` -/
def newDubins3d (env : Env R) (a : Dubins3dArgs R) : Py (Entity R) := instantiate mroDubins3d (initDubins3d env a)

/-- `velocity` of a `Dubins3dAircraft` (dubins.py:202-213, 604-630) -/
def dubins3dVelocity (e : Entity R) : Py (Vec R) := do
  let heading ← getIdx e.state 3
  let gamma ← getIdx e.state 4
  let v ← getIdx e.state 6
  pure (dubinsVelocity v heading gamma)

/-- `Dubins3dAircraft.position` (dubins.py:636-639) -/
def dubins3dPosition (e : Entity R) : Vec R := e.state.take 3

/-- `Dubins3dAircraft.acceleration` (dubins.py:641-645) -/
def dubins3dAcceleration (e : Entity R) : Py (Vec R) := do
  let acc ← getIdx e.stateDot 6
  let v ← getIdx e.state 6
  let vel ← dubins3dVelocity e
  pure (dubinsAcceleration acc v vel)

/-- `Dubins3dAircraft.__eq__` (dubins.py:557-568) -/
def dubins3dEq (euler : EulerRoundTrip R) (self : Entity R) (other : Option (Entity R)) : Py Bool :=
  match other with
  | none => .ok false
  | some other => do
    if ← allEq (← dubins3dVelocity self) (← dubins3dVelocity other) then
      if ← allEq (dubins3dPosition self) (dubins3dPosition other) then
        if ← allEq (← dubins3dAcceleration self) (← dubins3dAcceleration other) then
          if ← allEq (euler (← getIdx self.state 3) (← getIdx self.state 4) (← getIdx self.state 5))
              (euler (← getIdx other.state 3) (← getIdx other.state 4) (← getIdx other.state 5)) then
            if Fl.eqb (← getIdx self.state 3) (← getIdx other.state 3) then
              if Fl.eqb (← getIdx self.state 5) (← getIdx other.state 5) then
                if Fl.eqb (← getIdx self.state 4) (← getIdx other.state 4) then
                  pure (Fl.eqb (← getIdx self.state 6) (← getIdx other.state 6))
                else pure false
              else pure false
            else pure false
          else pure false
        else pure false
      else pure false
    else pure false

end
end SAD
