import Verif.Model.SciPy

/-!
# JAX's Dormand-Prince integrator

`odeint(self.compute_state_dot_jax, state, jnp.linspace(0., step_size, 11), control)` as base_models.py:586-588 calls it: the default
tolerances `rtol = atol = 1.4e-8`, `mxstep = hmax = inf`. JAX is not part of `/repo`, which pins version 0.4.26 (poetry.lock); the functions
modelled are those of `jax/experimental/ode.py`.

Unlike SciPy's solver it steps over the requested times and evaluates a polynomial of degree four, fitted to the last accepted step, at
them; and its loop stops, without an error, when the step size is not positive.

The loop has no bound. Here it has fuel; when that runs out the outcome is `diverges`. Simplifications: all arithmetic is that of one format
(JAX computes in float32 unless configured otherwise: that is the format whose `rnd` is rounding to binary32); the state is not
empty; tracing is not modelled, so an exception of the right-hand side appears where it is called.
-/

namespace SAD

section
variable {K : Type} {R : Fmt K} [Field K] [LinearOrder K]

/-- `c_error` of `runge_kutta_step` -/
def jaxE : Vec R := [71/86400, 0, -142/50085, 71/2880, -5751/169600, 44/1575, -1/60]

/-- `dps_c_mid` of `interp_fit_dopri` -/
def jaxMid : Vec R := [6025192743/30085553152/2, 0, 51252292925/65400821598/2, -2691868925/45128329728/2,
  187940372067/1594534317056/2, -1776094331/19743644256/2, 11237099/235043384/2]

/-- `rtol` and `atol` of `odeint` -/
def jaxTol : Fl R := 14 / 1000000000

/-- `jnp.linalg.norm` -/
def jaxNorm (x : Vec R) : Fl R := Fl.sqrt (x.foldl (fun acc a => acc + a * a) 0)

/-- `initial_step_size(fun, 0, y0, 4, rtol, atol, f0)` -/
def jaxInitialStep (f : Rhs R) (y0 f0 : Vec R) : Py (Fl R) := do
  let scale := y0.map fun y => jaxTol + y.abs * jaxTol
  let d0 : Fl R := jaxNorm (List.zipWith (· / ·) y0 scale)
  let d1 : Fl R := jaxNorm (List.zipWith (· / ·) f0 scale)
  let h0 : Fl R := if d0 < 1 / 100000 ∨ d1 < 1 / 100000 then 1 / 1000000 else 1 / 100 * d0 / d1
  let y1 := List.zipWith (fun y k => y + h0 * k) y0 f0
  let f1 ← f (0 + h0) y1
  let f1 ← fitRow y0.length f1
  let d2 : Fl R := jaxNorm (List.zipWith (· / ·) (List.zipWith (· - ·) f1 f0) scale) / h0
  let h1 : Fl R := if d1 ≤ 1 / 1000000000000000 ∧ d2 ≤ 1 / 1000000000000000 then Fl.npMax (1 / 1000000) (h0 * (1 / 1000))
    else powSci (1 / 100 / Fl.npMax d1 d2) (1 / 5)
  pure (Fl.npMin (100 * h0) h1)

/-- `runge_kutta_step`: the new state, the derivative there, the error estimate and the seven rows `k` -/
def jaxStep (f : Rhs R) (y f0 : Vec R) (t dt : Fl R) : Py (Vec R × Vec R × Vec R × List (Vec R)) := do
  let ks ← rkStagesFl f t dt y (dopri.stages ++ [(1, dopri.b)]) [f0]
  let y1 := List.zipWith (· + ·) ((comboFl y.length (dopri.b ++ [0]) ks).map (dt * ·)) y
  let err := (comboFl y.length jaxE ks).map (dt * ·)
  pure (y1, ks.getLastD f0, err, ks)

/-- `mean_error_ratio` -/
def jaxErrorRatio (err y0 y1 : Vec R) : Fl R :=
  let ratio := List.zipWith (fun e p => e / (jaxTol + jaxTol * p)) err (List.zipWith (fun a b => Fl.npMax a.abs b.abs) y0 y1)
  Fl.sqrt (ratio.foldl (fun acc a => acc + a * a) 0 / .fin (ratio.length : K))

/-- `optimal_step_size` -/
def jaxNextStep (last er : Fl R) : Fl R :=
  let dfactor : Fl R := if er < 1 then 1 else 1 / 5
  let factor := Fl.npMin 10 (Fl.npMax (powSci er (-1 / 5) * (9 / 10)) dfactor)
  if Fl.eqb er 0 then last * 10 else last * factor

/-- `interp_fit_dopri` with `fit_4th_order_polynomial`: the coefficients of one element, the highest power first -/
def jaxFit (dt y0 y1 ymid dy0 dy1 : Fl R) : Vec R :=
  [-2 * dt * dy0 + 2 * dt * dy1 - 8 * y0 - 8 * y1 + 16 * ymid,
   5 * dt * dy0 - 3 * dt * dy1 + 18 * y0 + 14 * y1 - 32 * ymid,
   -4 * dt * dy0 + dt * dy1 - 11 * y0 - 5 * y1 + 16 * ymid,
   dt * dy0, y0]

/-- `interp_fit_dopri` of all elements: for every element its five coefficients -/
def jaxInterp (y0 y1 : Vec R) (ks : List (Vec R)) (f0 f1 : Vec R) (dt : Fl R) : List (Vec R) :=
  let ymid := List.zipWith (· + ·) y0 ((comboFl y0.length jaxMid ks).map (dt * ·))
  List.zipWith (fun (p : Fl R × Fl R) (q : Fl R × Fl R × Fl R) => jaxFit dt p.1 p.2 q.1 q.2.1 q.2.2)
    (List.zip y0 y1) (List.zip ymid (List.zip f0 f1))

/-- the loop variables `y, f, t, dt, last_t, interp_coeff` -/
structure JaxState {K : Type} (R : Fmt K) where
  y : Vec R
  f : Vec R
  t : Fl R
  dt : Fl R
  lastT : Fl R
  coeff : List (Vec R)

/-- `body_fun`: a step that is kept when the error ratio is at most 1; in either case the step size is adapted -/
def jaxBody (f : Rhs R) (s : JaxState R) : Py (JaxState R) := do
  let (y1, f1, err, ks) ← jaxStep f s.y s.f s.t s.dt
  let er := jaxErrorRatio err s.y y1
  let dt := Fl.clip (jaxNextStep s.dt er) 0 .pinf
  if er ≤ 1 then pure ⟨y1, f1, s.t + s.dt, dt, s.t, jaxInterp s.y y1 ks s.f f1 s.dt⟩
  else pure { s with dt := dt }

/-- `lax.while_loop(cond_fun, body_fun, ...)` towards `target` -/
def jaxWhile (f : Rhs R) (target : Fl R) : Nat → JaxState R → Py (JaxState R)
  | 0, s => if s.t < target ∧ 0 < s.dt then .error .diverges else .ok s
  | fuel + 1, s => if s.t < target ∧ 0 < s.dt then do
      let s ← jaxBody f s
      jaxWhile f target fuel s
    else .ok s

/-- `jnp.polyval` of the coefficients of one element -/
def jaxPolyval (coeff : Vec R) (x : Fl R) : Fl R := coeff.foldl (fun acc c => acc * x + c) 0

/-- what `scan_fun` reports: the polynomial at the relative time of `target` -/
def jaxOutput (s : JaxState R) (target : Fl R) : Vec R :=
  s.coeff.map fun c => jaxPolyval c ((target - s.lastT) / (s.t - s.lastT))

/-- `lax.scan(scan_fun, init_carry, ts[1:])` -/
def jaxScan (f : Rhs R) (fuel : Nat) : Vec R → JaxState R → Py (List (Vec R))
  | [], _ => .ok []
  | target :: ts, s => do
    let s ← jaxWhile f target fuel s
    let rest ← jaxScan f fuel ts s
    pure (jaxOutput s target :: rest)

/-- `jnp.linspace(0., step_size, 11)[1:]` (base_models.py:587) -/
def jaxTimes (dt : Fl R) : Vec R := (List.range 9).map (fun i => dt * (.fin ((i + 1 : Nat) : K) / 10)) ++ [dt]

/-- `odeint(f, y0, jnp.linspace(0., T, 11), control)` -/
def jaxOdeint (fuel : Nat) (f : Rhs R) (y0 : Vec R) (T : Fl R) : Py (List (Vec R)) := do
  let f0 ← f 0 y0
  let f0 ← fitRow y0.length f0
  let dt ← jaxInitialStep f y0 f0
  let rows ← jaxScan f fuel (jaxTimes T) ⟨y0, f0, 0, Fl.clip dt 0 .pinf, 0, y0.map fun y => List.replicate 5 y⟩
  pure (y0 :: rows)

/-- The environment in which JAX is installed and `odeint` is this one. -/
def jaxEnv (fuel : Nat) : Env R where
  jaxInstalled := true
  solveIvp := scipySolve (fun _ _ => 0) fuel
  odeint := jaxOdeint fuel

end
end SAD
