import Verif.Model.F16

/-!
# `safe_autonomy_dynamics/external/aerobench/util.py`

Freezable objects, the fixed-step Euler integrator, extraction of one aircraft from a multi-aircraft result, and the safety
verifier. (`fix` and `sign` are in `Model/Aero.lean`, `printmat` in `Model/Print.lean`.)
-/

namespace SAD.Aero

/-! ## Freezable -/

/-- An instance of a subclass of `Freezable`: its own attributes and those of its class (which include `_frozen = False`,
`util.py` 53), by name. Values are of any type with a notion of truth. Simplification: attributes are plain values; data descriptors
such as `__class__` and properties are not modelled. -/
structure Obj (V : Type) where
  dict : List (String × V)
  cls : List (String × V)

namespace Obj
variable {V : Type}

/-- attribute lookup: the instance, then its class -/
def getattr (o : Obj V) (key : String) : Option V :=
  match o.dict.lookup key with
  | some v => some v
  | none => o.cls.lookup key

/-- `hasattr(self, key)` -/
def hasattr (o : Obj V) (key : String) : Bool := (o.getattr key).isSome

/-- `object.__setattr__`: replaces the entry of the instance or appends one -/
def store (key : String) (v : V) : List (String × V) → List (String × V)
  | [] => [(key, v)]
  | (k, w) :: rest => if k = key then (key, v) :: rest else (k, w) :: store key v rest

/-- the truth of `self._frozen` -/
def locked (truthy : V → Bool) (o : Obj V) : Bool :=
  match o.getattr "_frozen" with
  | some f => truthy f
  | none => false

/-- `util.py` 59-63 (`Freezable.__setattr__`). `truthy` is the truth value of an attribute. The outcome is the exception, if any, and
the object afterwards. -/
def setattr (truthy : V → Bool) (o : Obj V) (key : String) (v : V) : Option PyErr × Obj V :=
  if o.locked truthy && !o.hasattr key then (some .typeError, o)
  else (none, { o with dict := store key v o.dict })

/-- `util.py` 55-57 (`Freezable.freeze_attrs`); `tt` is `True` -/
def freezeAttrs (truthy : V → Bool) (tt : V) (o : Obj V) : Option PyErr × Obj V := setattr truthy o "_frozen" tt

/-- `del o.key`: `Freezable` does not override `__delattr__`, so an attribute of the instance is removed and anything else raises
`AttributeError`. -/
def delattr (o : Obj V) (key : String) : Option PyErr × Obj V :=
  if (o.dict.lookup key).isSome then (none, { o with dict := o.dict.filter (fun kv => kv.1 ≠ key) }) else (some .attributeError, o)

end Obj

/-! ## The Euler integrator -/

section
variable {K : Type} {R : Fmt K} [Field K] [LinearOrder K]

/-- the attribute `status` -/
inductive Status where
  | running
  | finished
  deriving DecidableEq

/-- an instance of `Euler` (`util.py` 66-88) -/
structure Euler {K : Type} (R : Fmt K) where
  derFunc : Fl R → Vec R → Py (Vec R)
  tstep : Fl R
  t : Fl R
  y : Vec R
  yprev : Option (Vec R)
  tprev : Option (Fl R)
  tend : Fl R
  status : Status
  timeTol : Fl R

/-- `util.py` 72-88 (`Euler.__init__`). Simplification: `ystart` is a 1-d float array and the times are floats; `der_func` does not
mutate its argument. -/
def Euler.new (derFunc : Fl R → Vec R → Py (Vec R)) (tstart : Fl R) (ystart : Vec R) (tend : Fl R) (step : Fl R := 0)
    (timeTol : Fl R := 1e-9) : Py (Euler R) :=
  if ¬ (0 < step) then .error .assertionError
  else if ¬ (tstart < tend) then .error .assertionError
  else .ok ⟨derFunc, step, tstart, ystart, none, none, tend, .running, timeTol⟩

/-- `y += v` on 1-d arrays, in place: `v` is broadcast to the shape of `y` -/
def iadd (y v : Vec R) : Py (Vec R) :=
  if v.length = y.length then .ok (List.zipWith (· + ·) y v)
  else match v with
    | [a] => .ok (y.map (· + a))
    | _ => .error .valueError

/-- `util.py` 90-107 (`Euler.step`): the exception, if any, and the object afterwards. An exception of `der_func` leaves `yprev` and
`tprev` assigned; a shape mismatch in `self.y += dt * yd` leaves the time advanced as well. -/
def Euler.step (e : Euler R) : Option PyErr × Euler R :=
  match e.status with
  | .finished => (none, e)
  | .running =>
    let e := { e with yprev := some e.y, tprev := some e.t }
    match e.derFunc e.t e.y with
    | .error err => (some err, e)
    | .ok yd =>
      let told := e.t
      let t := e.t + e.tstep
      let t := if e.tend ≤ t + e.timeTol then e.tend else t
      let e := { e with t := t }
      let dt := e.t - told
      match iadd e.y (vscale dt yd) with
      | .error err => (some err, e)
      | .ok y =>
        let e := { e with y := y }
        (none, if Fl.eqb e.t e.tend then { e with status := .finished } else e)

/-- `util.py` 109-117 (`Euler.dense_output`): the slope captured by the returned function. The function also refers to the integrator
itself. -/
def Euler.denseOutput (e : Euler R) : Py (Vec R) :=
  match e.tprev, e.yprev with
  | some tp, some yp => do
    let dy ← vsub e.y yp
    let dt := e.t - tp
    .ok (dy.map (· / dt))
  | _, _ => .error .assertionError

/-- `util.py` 119-124: the function returned by `dense_output`, with captured slope `dydt`, called when the integrator is `e`
(`self.tprev` and `self.yprev` are read at the time of the call) -/
def Euler.denseCall (dydt : Vec R) (e : Euler R) (t : Fl R) : Py (Vec R) :=
  match e.tprev, e.yprev with
  | some tp, some yp =>
    let deltat := t - tp
    vadd yp (dydt.map (· * deltat))
  | _, _ => .error .typeError

/-! ## One aircraft of a multi-aircraft result -/

/-- the number of names `util.py` 129-132 (`get_state_names`) returns -/
def stateNames : List String := ["vt", "alpha", "beta", "phi", "theta", "psi", "P", "Q", "R", "pos_n", "pos_e", "alt", "pow"]

/-- the position a slice bound denotes in a sequence of length `n` -/
def sliceBound (n : ℕ) (i : ℤ) : ℕ := if i < 0 then (i + n).toNat else min i.toNat n

/-- `xs[a:b]` -/
def pySlice {α : Type} (xs : List α) (a b : ℤ) : List α :=
  (xs.drop (sliceBound xs.length a)).take (sliceBound xs.length b - sliceBound xs.length a)

/-- `xs[i]`, counting from the end when `i` is negative -/
def pyIndex {α : Type} (xs : List α) (i : ℤ) : Py α :=
  if 0 ≤ i then getIdx xs i.toNat else if 0 ≤ i + xs.length then getIdx xs (i + xs.length).toNat else .error .indexError

/-- A simulation result: a dict with `status`, `times`, `modes` (of any types), the table `states` (one row per tick) and possibly
lists with, for every tick, one entry for every aircraft. -/
structure Res (S T M V : Type) {K : Type} (R : Fmt K) where
  status : S
  times : T
  modes : M
  states : Mat R
  lists : List (String × List (List V))

/-- what `extract_single_result` returns: the given dict, or a new one in which the lists have one entry for every tick -/
inductive Single (S T M V : Type) {K : Type} (R : Fmt K) where
  | same (res : Res S T M V R)
  | new (status : S) (times : T) (modes : M) (states : Mat R) (lists : List (String × List V))

/-- `util.py` 245 -/
def extendedKeys : List String := ["xd_list", "ps_list", "Nz_list", "Ny_r_list", "u_list"]

/-- `util.py` 224-250 (`extract_single_result`) with a `LowLevelController` as `llc`; `Single.same` when the code returns the object `res` itself. Simplification: `states` is a 2-d array. -/
def extractSingle {S T M V : Type} (res : Res S T M V R) (index : ℤ) : Py (Single S T M V R) := do
  let numVars := stateNames.length + numIntegrators
  let _ ← getIdx res.states.rows 0
  let numAircraft := res.states.ncols / numVars
  if numAircraft = 1 then
    if index = 0 then .ok (.same res) else .error .assertionError
  else do
    let lo : ℤ := numVars * index
    let hi : ℤ := numVars * (index + 1)
    let states : Mat R := ⟨res.states.rows.map (fun r => pySlice r lo hi), sliceBound res.states.ncols hi - sliceBound res.states.ncols lo⟩
    let lists ← if (res.lists.lookup "xd_list").isSome then
        extendedKeys.mapM (fun key =>
          match res.lists.lookup key with
          | none => .error .keyError
          | some ticks => do
            let col ← ticks.mapM (fun tup => pyIndex tup index)
            .ok (key, col))
      else .ok []
    .ok (.new res.status res.times res.modes states lists)

/-! ## The safety verifier -/

/-- an instance of `SafetyLimits` (`util.py` 253-265): `None` or a pair of limits, or one upper limit -/
structure SafetyLimits {K : Type} (R : Fmt K) where
  altitude : Option (Fl R × Fl R) := none
  nz : Option (Fl R × Fl R) := none
  v : Option (Fl R × Fl R) := none
  alpha : Option (Fl R × Fl R) := none
  psMaxAccelDeg : Option (Fl R) := none
  betaMaxDeg : Option (Fl R) := none

/-- the entries of `results` that `verify` reads; the two lists may be missing from the dict -/
structure Results {K : Type} (R : Fmt K) where
  states : Mat R
  nzList : Option (List (Fl R))
  psList : Option (List (Fl R))

/-- `assert limits[0] <= x <= limits[1]` if there are limits -/
def assertPair (lim : Option (Fl R × Fl R)) (x : Fl R) : Py Unit :=
  match lim with
  | none => .ok ()
  | some (lo, hi) => if lo ≤ x ∧ x ≤ hi then .ok () else .error .assertionError

/-- `assert x <= limit` if there is a limit -/
def assertMax (lim : Option (Fl R)) (x : Fl R) : Py Unit :=
  match lim with
  | none => .ok ()
  | some hi => if x ≤ hi then .ok () else .error .assertionError

/-- `results[key]` for a key that may be missing -/
def getKey {α : Type} : Option α → Py α
  | some a => .ok a
  | none => .error .keyError

/-- one tick of `verify`: `util.py` 295-320 -/
def verifyTick (lim : SafetyLimits R) (res : Results R) (i : ℕ) : Py Unit := do
  let row ← getIdx res.states.rows i
  match row with
  | [_, alpha, beta, _, _, _, _, _, _, _, _, alt, _, _, _, _] => do
    let nzs ← getKey res.nzList
    let nz ← getIdx nzs i
    let pss ← getKey res.psList
    let ps ← getIdx pss i
    assertPair lim.altitude alt
    assertPair lim.nz nz
    assertPair lim.alpha alpha
    assertMax lim.psMaxAccelDeg ps
    assertMax lim.betaMaxDeg beta
  | _ => .error .valueError

/-- `util.py` 276-320 (`SafetyLimitsVerifier.verify`); `llc` says whether the verifier was given a `LowLevelController`.
Simplification: `states` is a 2-d array. -/
def verify (lim : SafetyLimits R) (llc : Bool) (res : Results R) : Py Unit := do
  let numStateVars := if llc then stateNames.length + numIntegrators else stateNames.length
  let size := res.states.rows.length * res.states.ncols
  if size % numStateVars ≠ 0 then .error .assertionError
  else (List.range (size / numStateVars)).forM (verifyTick lim res)

end
end SAD.Aero
