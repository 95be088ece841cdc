import Verif.Model.Rk

/-!
# SciPy's RK45 with its error control

`solve_ivp(fun, (0, step_size), state, args=(control,), t_eval=t_eval)` as base_models.py:573 calls it: method RK45 with the default
tolerances `rtol = 1e-3`, `atol = 1e-6`, no maximal step. SciPy is not part of `/repo`, which pins version 1.13.0 (poetry.lock:2458-2459);
the functions modelled are those of `scipy/integrate/_ivp/{ivp,base,rk,common}.py`.

The loops of the solver have no bound. Here each has fuel; when it runs out the outcome is `diverges`, which is not an exception but
says that the call has not returned within that many turns.

Simplifications: the state is not empty (an empty state raises here); the right-hand side returns one value per component or a single
one; `t_eval` is searched linearly from where the previous step stopped, which for sorted times is what `np.searchsorted` gives.
-/

namespace SAD

section
variable {K : Type} {R : Fmt K} [Field K] [LinearOrder K]

/-- `RK45.E`: the difference between the formulas of order 5 and 4 -/
def dopriE : Vec R := [-71/57600, 0, 71/16695, -71/1920, 17253/339200, -22/525, 1/40]

/-- the columns of `RK45.P`, the dense output -/
def dopriP : List (Vec R) := [
  [1, 0, 0, 0, 0, 0, 0],
  [-8048581381/2820520608, 0, 131558114200/32700410799, -1754552775/470086768, 127303824393/49829197408, -282668133/205662961, 40617522/29380423],
  [8663915743/2820520608, 0, -68118460800/10900136933, 14199869525/1410260304, -318862633887/49829197408, 2019193451/616988883, -110615467/29380423],
  [-12715105075/11282082432, 0, 87487479700/32700410799, -10690763975/1880347072, 701980252875/199316789632, -1453857185/822651844, 69997945/29380423]]

/-- `x ** y` for a finite `y` other than 0 and `x` not negative -/
def powSci : Fl R → Fl R → Fl R
  | .fin a, .fin b =>
    if a < 0 then .nan else if a = 0 then (if b < 0 then .pinf else .fin 0) else .fin (R.pow a b)
  | .pinf, .fin b => if b < 0 then .fin 0 else .pinf
  | _, _ => .nan

/-- `norm` of `common.py`: `np.linalg.norm(x) / x.size ** 0.5` -/
def rmsNorm (x : Vec R) : Fl R :=
  Fl.sqrt (x.foldl (fun acc a => acc + a * a) 0) / powSci (.fin (x.length : K)) (1 / 2)

/-- `rtol` and `atol` of `RungeKutta.__init__` -/
def rtol : Fl R := 1 / 1000
def atol : Fl R := 1 / 1000000

/-- `atol + np.maximum(np.abs(y), np.abs(y_new)) * rtol` -/
def errorScale (y yNew : Vec R) : Vec R :=
  List.zipWith (fun a b => atol + Fl.npMax a.abs b.abs * rtol) y yNew

/-- `rk_step` of `rk.py`: the new state and the seven rows of `K`; the last row is the derivative at the new point -/
def rkStepK (f : Rhs R) (t h : Fl R) (y f0 : Vec R) : Py (Vec R × List (Vec R) × Vec R) := do
  let ks ← rkStagesFl f t h y dopri.stages [f0]
  let yNew := List.zipWith (· + ·) y ((comboFl y.length dopri.b ks).map (h * ·))
  let fNew ← f (t + h) yNew
  let fNew ← fitRow y.length fNew
  pure (yNew, ks ++ [fNew], fNew)

/-- `_estimate_error_norm`: `norm(np.dot(K.T, E) * h / scale)` -/
def errorNorm (y yNew : Vec R) (ks : List (Vec R)) (h : Fl R) : Fl R :=
  rmsNorm (List.zipWith (· / ·) ((comboFl y.length dopriE ks).map (· * h)) (errorScale y yNew))

/-- the attributes `t`, `y`, `f`, `h_abs` of the solver -/
structure RkState {K : Type} (R : Fmt K) where
  t : Fl R
  y : Vec R
  f : Vec R
  hAbs : Fl R

/-- an accepted step: where it starts, its size, the rows `K` and the attributes of the solver after it -/
structure RkAccepted {K : Type} (R : Fmt K) where
  tOld : Fl R
  yOld : Vec R
  h : Fl R
  ks : List (Vec R)
  next : RkState R

/-- `error_norm ** error_exponent * SAFETY`, `error_exponent = -1 / (4 + 1)` -/
def stepFactor (en : Fl R) : Fl R := 9 / 10 * powSci en (-1 / 5)

/-- `RungeKutta._step_impl`, the loop `while not step_accepted`; `none` is the result `False, TOO_SMALL_STEP` -/
def rkTry (f : Rhs R) (tb dir minStep : Fl R) (s : RkState R) : Nat → Fl R → Bool → Py (Option (RkAccepted R))
  | 0, _, _ => .error .diverges
  | fuel + 1, hAbs, rejected =>
    if hAbs < minStep then .ok none
    else do
      let tEnd := s.t + hAbs * dir
      let tNew := if 0 < dir * (tEnd - tb) then tb else tEnd
      let h := tNew - s.t
      let (yNew, ks, fNew) ← rkStepK f s.t h s.y s.f
      let en := errorNorm s.y yNew ks h
      if en < 1 then
        let factor := if Fl.eqb en 0 then 10 else Fl.pyMin 10 (stepFactor en)
        let factor := if rejected then Fl.pyMin 1 factor else factor
        pure (some ⟨s.t, s.y, h, ks, ⟨tNew, yNew, fNew, h.abs * factor⟩⟩)
      else rkTry f tb dir minStep s fuel (h.abs * Fl.pyMax (1 / 5) (stepFactor en)) true

/-- `RungeKutta._step_impl` up to the loop: `min_step` is ten times the gap between `t` and the next number in the direction of
integration -/
def rkStepImpl (gap : Fl R → Fl R → Fl R) (fuel : Nat) (f : Rhs R) (tb dir : Fl R) (s : RkState R) : Py (Option (RkAccepted R)) :=
  let minStep := 10 * gap s.t dir
  rkTry f tb dir minStep s fuel (if s.hAbs < minStep then minStep else s.hAbs) false

/-- the loop of `solve_ivp`: the accepted steps, and whether the end was reached -/
def rkDrive (gap : Fl R → Fl R → Fl R) (fuel : Nat) (f : Rhs R) (tb dir : Fl R) : Nat → RkState R → Py (List (RkAccepted R) × Bool)
  | 0, _ => .error .diverges
  | n + 1, s => do
    match ← rkStepImpl gap fuel f tb dir s with
    | none => pure ([], false)
    | some a =>
      if 0 ≤ dir * (a.next.t - tb) then pure ([a], true)
      else do
        let (rest, ok) ← rkDrive gap fuel f tb dir n a.next
        pure (a :: rest, ok)

/-- `select_initial_step` of `common.py` -/
def initialStep (f : Rhs R) (tb dir : Fl R) (y0 f0 : Vec R) : Py (Fl R) := do
  let len := tb.abs
  let scale := y0.map fun y => atol + y.abs * rtol
  let d0 : Fl R := rmsNorm (List.zipWith (· / ·) y0 scale)
  let d1 : Fl R := rmsNorm (List.zipWith (· / ·) f0 scale)
  let h0 : Fl R := if d0 < 1 / 100000 ∨ d1 < 1 / 100000 then 1 / 1000000 else 1 / 100 * d0 / d1
  let h0 := Fl.pyMin h0 len
  let y1 := List.zipWith (fun y k => y + h0 * dir * k) y0 f0
  let f1 ← f (h0 * dir) y1
  let f1 ← fitRow y0.length f1
  let d2 : Fl R := rmsNorm (List.zipWith (· / ·) (List.zipWith (· - ·) f1 f0) scale) / h0
  let h1 : Fl R := if d1 ≤ 1 / 1000000000000000 ∧ d2 ≤ 1 / 1000000000000000 then Fl.pyMax (1 / 1000000) (h0 * (1 / 1000))
    else powSci (1 / 100 / Fl.pyMax d1 d2) (1 / 5)
  pure (Fl.pyMin (Fl.pyMin (100 * h0) h1) len)

/-- `RkDenseOutput._call_impl` of the accepted step `a` at time `t` -/
def denseAt (a : RkAccepted R) (t : Fl R) : Vec R :=
  let x := (t - a.tOld) / a.h
  let p := [x, x * x, x * x * x, x * x * x * x]
  let q := dopriP.map fun col => comboFl a.yOld.length col a.ks
  List.zipWith (· + ·) ((comboFl a.yOld.length p q).map (a.h * ·)) a.yOld

/-- the samples `solve_ivp` collects: in every accepted step those times of `t_eval` not yet reached that the step reaches -/
def denseRows (dir : Fl R) : List (RkAccepted R) → Vec R → List (Fl R × Vec R)
  | [], _ => []
  | a :: as, te =>
    let reached := fun x : Fl R => if 0 < dir then decide (x ≤ a.next.t) else decide (a.next.t ≤ x)
    (te.takeWhile reached).map (fun x => (x, denseAt a x)) ++ denseRows dir as (te.dropWhile reached)

/-- neighbouring elements are in the given relation -/
def adjacent (r : Fl R → Fl R → Bool) : Vec R → Bool
  | a :: b :: rest => r a b && adjacent r (b :: rest)
  | _ => true

/-- the checks `solve_ivp` makes of `t_eval`: within the time span and strictly sorted in its direction -/
def tEvalOk (tb : Fl R) (te : Vec R) : Bool :=
  te.all (fun x => !decide (x < Fl.pyMin 0 tb) && !decide (Fl.pyMax 0 tb < x)) &&
  (if 0 < tb then adjacent (fun a b => !decide (b - a ≤ 0)) te
   else if tb < 0 then adjacent (fun a b => !decide (0 ≤ b - a)) te else true)

/-- `np.sign` -/
def npSign (x : Fl R) : Fl R := if x.isNan then x else if 0 < x then 1 else if x < 0 then -1 else 0

/-- `solve_ivp(f, (0, tb), y0, t_eval=te)` followed by reading `sol.y.T` (base_models.py:575): when no sample was collected `sol.y` is an
empty list, which has no `T`. -/
def scipySolve (gap : Fl R → Fl R → Fl R) (fuel : Nat) (f : Rhs R) (tb : Fl R) (y0 : Vec R) (te : Option (Vec R)) : Py (Sol R) :=
  if te.all (tEvalOk tb) = false then .error .valueError
  else if y0.all Fl.isFin = false then .error .valueError
  else if y0 = [] then .error .valueError
  else do
    let f0 ← f 0 y0
    let f0 ← fitRow y0.length f0
    if Fl.eqb tb 0 then
      match te with
      | none => pure ⟨[0, 0], [y0, y0], true⟩
      | some _ => .error .attributeError
    else
      let dir := npSign tb
      let hAbs ← initialStep f tb dir y0 f0
      let (steps, ok) ← rkDrive gap fuel f tb dir fuel ⟨0, y0, f0, hAbs⟩
      match te with
      | none => pure ⟨0 :: steps.map (·.next.t), y0 :: steps.map (·.next.y), ok⟩
      | some ts =>
        match denseRows dir steps ts with
        | [] => .error .attributeError
        | rows => pure ⟨rows.map Prod.fst, rows.map Prod.snd, ok⟩

/-- The environment with this solver. `gap t dir` is `np.abs(np.nextafter(t, dir * np.inf) - t)` of the format. -/
def scipyEnv (gap : Fl R → Fl R → Fl R) (fuel : Nat) : Env R where
  jaxInstalled := false
  solveIvp := scipySolve gap fuel
  odeint := fun _ _ _ => .error .importError

/-- The solver of exact arithmetic, where no number is next to another: the gap is 0, so that no step size is too small. -/
abbrev exactScipy (fuel : Nat) : Env R := scipyEnv (fun _ _ => 0) fuel

end
end SAD
