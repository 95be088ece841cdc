import Verif.Model.Base

/-!
# Specification vocabulary for the framework properties

Small, self-contained notions, stated with the order on floats (`≤`, `<` are false on NaN) and not with the model's helpers.
-/

namespace SAD.Spec
open SAD

variable {K : Type} {R : Fmt K} [Field K] [LinearOrder K]

/-- `u` is the point of `[lo, hi]` nearest to `r`. -/
def Saturated (lo hi r u : Fl R) : Prop :=
  (r < lo → u = lo) ∧ (hi < r → u = hi) ∧ (lo ≤ r → r ≤ hi → u = r)

/-- `x` lies in `[lo, hi]`. -/
def Within (lo hi x : Fl R) : Prop := lo ≤ x ∧ x ≤ hi

/-- The limits `lo`, `hi` (scalars or arrays) are ordered element by element. -/
def Ordered (lo hi : Arr R) : Prop := ∀ i l h, lo.at i = some l → hi.at i = some h → l ≤ h

/-- state element `i` is not subject to angle wrapping: no centres, or centre NaN -/
def NotWrapped (d : Dyn R) (i : Nat) : Prop := ∀ cs, d.angleWrapCenters = some cs → bget cs i = some .nan

/-- state element `i` is wrapped with centre `c` -/
def WrappedAt (d : Dyn R) (i : Nat) (c : Fl R) : Prop :=
  ∃ cs, d.angleWrapCenters = some cs ∧ bget cs i = some c ∧ c ≠ .nan

/-- Two angles differ by a whole number of turns (`π` is the format's `pi`). -/
def SameAngle (pi a b : K) : Prop := ∃ k : ℤ, b = a + 2 * pi * k

/-- A format whose rounding is monotone and idempotent, and whose `pi`, `2*pi` and 0 are representable: what IEEE-754
guarantees of binary64 with `np.pi`. -/
structure Sound (R : Fmt K) : Prop where
  mono : ∀ x y : K, x ≤ y → (Fl.round x : Fl R) ≤ Fl.round y
  idem : ∀ x y : K, (Fl.round x : Fl R) = .fin y → (Fl.round y : Fl R) = .fin y
  pi_pos : 0 < R.pi
  rnd_pi : (Fl.round R.pi : Fl R) = .fin R.pi
  rnd_neg_pi : (Fl.round (-R.pi) : Fl R) = .fin (-R.pi)
  rnd_two_pi : (Fl.round (2 * R.pi) : Fl R) = .fin (2 * R.pi)
  rnd_zero : (Fl.round 0 : Fl R) = .fin 0
  rnd32_zero : (Fl.cast32 0 : Fl R) = 0

/-- An actuator dict entry list names every actuator at most once (as Python dicts do). -/
def Keys {β : Type} (items : List (String × β)) : Prop := (items.map Prod.fst).Nodup

/-- What a dict action asks for: named channels get their values, every other channel its default. -/
def DictRequest (map : List (String × Nat)) (dflt : Vec R) (items : List (String × Fl R)) (u : Vec R) : Prop :=
  u.length = dflt.length ∧
  (∀ name v i, (name, v) ∈ items → (name, i) ∈ map → u[i]? = some v) ∧
  (∀ i, (∀ name v, (name, v) ∈ items → (name, i) ∉ map) → u[i]? = dflt[i]?)

/-- What a dict action asks for when nothing is assumed of the map: every name is a channel of the control vector; a channel
named by the dict has the value of the last entry naming it, every other channel its default. -/
def NamedRequest (map : List (String × Nat)) (dflt : Vec R) (items : List (String × Fl R)) (u : Vec R) : Prop :=
  u.length = dflt.length ∧ (∀ p ∈ items, ∃ i, map.lookup p.1 = some i ∧ i < dflt.length) ∧
  ∀ i, (∃ before name v after, items = before ++ (name, v) :: after ∧ map.lookup name = some i ∧
          (∀ p ∈ after, map.lookup p.1 ≠ some i) ∧ u[i]? = some v) ∨
       ((∀ p ∈ items, map.lookup p.1 ≠ some i) ∧ u[i]? = dflt[i]?)

/-- The control vector an action asks for, and the dtype it is held in: nothing means the default, an array is taken as it is, a
list is converted to float32, a dict names channels, a jax array counts only where jax is installed. -/
inductive Requests (env : Env R) (e : Entity R) : Action R → DType → Vec R → Prop
  | default : Requests env e .none .f64 e.controlDefault
  | array (ty : DType) (xs : Vec R) : Requests env e (.ndarray ty xs) ty xs
  | list (xs : Vec R) : Requests env e (.list xs) .f32 (xs.map Fl.cast32)
  | jax (xs : Vec R) (h : env.jaxInstalled = true) : Requests env e (.jaxArray xs) .f32 xs
  | dict (items : List (String × Fl R)) (map : List (String × Nat)) (u : Vec R) (h : e.controlMap = some map)
      (hu : NamedRequest map e.controlDefault items u) : Requests env e (.dict items) .f64 u

/-- `x` is `r` limited to `[lo, hi]`: saturated if the limits are in order, `hi` if they are not, NaN if anything is NaN. -/
def ClipsTo (lo hi r x : Fl R) : Prop :=
  (r = .nan ∨ lo = .nan ∨ hi = .nan → x = .nan) ∧ (r ≠ .nan → lo ≤ hi → Saturated lo hi r x) ∧
  (r ≠ .nan → hi < lo → x = hi)

/-- `v` is the array `u` limited element by element, after broadcasting `u` and the limits to a common length. -/
def ClippedTo (lo hi : Arr R) (u v : Vec R) : Prop :=
  (u.length = 1 ∨ u.length = v.length) ∧ (lo.toVec.length = 1 ∨ lo.toVec.length = v.length) ∧
  (hi.toVec.length = 1 ∨ hi.toVec.length = v.length) ∧
  (v.length = u.length ∨ v.length = lo.toVec.length ∨ v.length = hi.toVec.length) ∧
  ∀ i x, v[i]? = some x → ∃ l h r, lo.at i = some l ∧ hi.at i = some h ∧ bget u i = some r ∧ ClipsTo l h r x

/-- A limit as it takes part in an operation with an array of dtype `ty`: a Python scalar is converted to that dtype, except that a finite
scalar of magnitude at least 3.4e38 makes NumPy compute in float64. -/
def limitAs (ty : DType) : Arr R → Arr R
  | .scalar x => .scalar (match ty, x with
    | .f32, .fin y => if -(34 * 10 ^ 37) < y ∧ y < 34 * 10 ^ 37 then (Fl.fin y).cast32 else .fin y
    | _, x => x)
  | .vec xs => .vec xs

/-- `v` is the control applied to the dynamics when entity `e` is given action `a`: the requested control, limited. -/
def Applied (env : Env R) (e : Entity R) (a : Action R) (v : Vec R) : Prop :=
  ∃ ty u, Requests env e a ty u ∧ ClippedTo (limitAs ty e.controlMin) (limitAs ty e.controlMax) u v

/-- Everything of an entity except its state, state derivative and stored trajectory. -/
def SameConfig (e e' : Entity R) : Prop :=
  e'.name = e.name ∧ e'.controlDefault = e.controlDefault ∧ e'.controlMin = e.controlMin ∧
  e'.controlMax = e.controlMax ∧ e'.controlMap = e.controlMap ∧
  { e'.dynamics with trajectory := e.dynamics.trajectory, trajectoryT := e.dynamics.trajectoryT } = e.dynamics

end SAD.Spec

namespace SAD.Spec
open SAD
variable {K : Type} {R : Fmt K}

/-- A limit that is a scalar, or has one entry, or has one entry per element of a length-`n` array. -/
def Fits (lim : Arr R) (n : Nat) : Prop := lim.toVec.length = 1 ∨ lim.toVec.length = n

/-- `control_map` only names channels of the default control vector. -/
def MapInRange (map : List (String × Nat)) (n : Nat) : Prop := ∀ name i, (name, i) ∈ map → i < n

/-- different actuators drive different channels -/
def MapInjective (map : List (String × Nat)) : Prop :=
  ∀ a b i, (a, i) ∈ map → (b, i) ∈ map → a = b

end SAD.Spec

namespace SAD.Spec
open SAD
variable {K : Type} {R : Fmt K}

/-- ODE dynamics without state limits, derivative limits or angle wrapping (the constructor defaults). -/
structure Unlimited (d : Dyn R) : Prop where
  custom : d.custom = none
  stateMin : d.stateMin = .scalar .ninf
  stateMax : d.stateMax = .scalar .pinf
  stateDotMin : d.stateDotMin = .scalar .ninf
  stateDotMax : d.stateDotMax = .scalar .pinf
  wrap : d.angleWrapCenters = none

/-- a method the step accepts without jax -/
def PlainMethod (d : Dyn R) : Prop :=
  d.integrationMethod = "RK45" ∨ (d.integrationMethod = "Euler" ∧ d.trajectorySamples ≤ 0)

end SAD.Spec

namespace SAD.Spec
open SAD
variable {K : Type} {R : Fmt K} [Field K] [LinearOrder K] [FloorRing K]

/-- total duration of the steps of a history that returned normally -/
def elapsed (env : Env R) : Entity R → List (K × Action R) → K
  | _, [] => 0
  | e, (T, a) :: hist => (match (e.step env (.fin T) a).outcome with | .ok () => T | .error _ => 0) +
      elapsed env (e.step env (.fin T) a).entity hist

end SAD.Spec
