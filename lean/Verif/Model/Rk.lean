import Verif.Model.Base

/-!
# Explicit Runge-Kutta solvers

SciPy is external to `/repo`; what the physics properties need of `solve_ivp(..., method='RK45')` is that the accepted
steps are steps of the Dormand-Prince formula. This file writes that formula down (SciPy 1.13
`scipy/integrate/_ivp/rk.py`: `rk_step` and the class attributes of `RK45`) and leaves the choice of the accepted step
sizes, i.e. the error control, arbitrary.
-/

namespace SAD

/-- Coefficients of an explicit Runge-Kutta method: for every stage after the first its `c` and its row of `A`; and `B`. -/
structure Tableau {K : Type} (R : Fmt K) where
  stages : List (Fl R × Vec R)
  b : Vec R

section
variable {K : Type} {R : Fmt K} [Field K] [LinearOrder K]

/-- `K[s] = fun(...)`: assignment into a row of length `n` (a length-1 value is broadcast) -/
def fitRow (n : Nat) (k : Vec R) : Py (Vec R) :=
  if k.length = n then .ok k
  else match k with
    | [x] => .ok (List.replicate n x)
    | _ => .error .valueError

/-- `np.dot(K[:s].T, a[:s])` for rows of length `n`, summed in stage order -/
def comboFl (n : Nat) (row : Vec R) (ks : List (Vec R)) : Vec R :=
  (List.zip row ks).foldl (fun acc p => List.zipWith (· + ·) acc (p.2.map (· * p.1))) (List.replicate n 0)

/-- The stage loop of `rk_step`: `K[s] = fun(t + c * h, y + np.dot(K[:s].T, a[:s]) * h)` -/
def rkStagesFl (f : Rhs R) (t h : Fl R) (y : Vec R) : List (Fl R × Vec R) → List (Vec R) → Py (List (Vec R))
  | [], ks => .ok ks
  | (c, row) :: rest, ks => do
    let k ← f (t + c * h) (List.zipWith (· + ·) y ((comboFl y.length row ks).map (· * h)))
    let k ← fitRow y.length k
    rkStagesFl f t h y rest (ks ++ [k])

/-- `rk_step`: `y_new = y + h * np.dot(K[:-1].T, B)`; the first stage is the derivative at `(t, y)` -/
def rkStepFl (tab : Tableau R) (f : Rhs R) (t h : Fl R) (y : Vec R) : Py (Vec R) := do
  let k0 ← f t y
  let k0 ← fitRow y.length k0
  let ks ← rkStagesFl f t h y tab.stages [k0]
  pure (List.zipWith (· + ·) y ((comboFl y.length tab.b ks).map (h * ·)))

/-- A chain of accepted steps of sizes `hs` from time `t`. -/
def rkChainFl (tab : Tableau R) (f : Rhs R) : Fl R → Vec R → List (Fl R) → Py (Vec R)
  | _, y, [] => .ok y
  | t, y, h :: hs => do
    let y' ← rkStepFl tab f t h y
    rkChainFl tab f (t + h) y' hs

/-- The loop of `solve_ivp` in floating-point arithmetic (SciPy 1.13 `scipy/integrate/_ivp/rk.py`, `RungeKutta._step_impl`): from time `t`
through the accepted times, where the size of every step is the computed difference `h = t_new - t`. -/
def rkTimesFl (tab : Tableau R) (f : Rhs R) : Fl R → Vec R → List (Fl R) → Py (Vec R)
  | _, y, [] => .ok y
  | t, y, t' :: ts => do
    let y' ← rkStepFl tab f t (t' - t) y
    rkTimesFl tab f t' y' ts

/-- `RK45.C`, `RK45.A`, `RK45.B` (Dormand-Prince 5(4)) -/
def dopri : Tableau R where
  stages := [
    (1/5, [1/5]),
    (3/10, [3/40, 9/40]),
    (4/5, [44/45, -56/15, 32/9]),
    (8/9, [19372/6561, -25360/2187, 64448/6561, -212/729]),
    (1, [9017/3168, -355/33, 46732/5247, 49/176, -5103/18656])]
  b := [35/384, 0, 500/1113, 125/192, -2187/6784, 11/84]

/-- The solver of `env` is (exact-arithmetic) Dormand-Prince with some choice of accepted steps, all in the direction of
integration and of the right total duration: every answer it gives, if sample times are asked for that are finite and end with the
end of the time span, ends in the end point of such a chain. The schedule may depend on everything, and the intermediate rows (dense output at
`t_eval`) are arbitrary. -/
def IsRk (tab : Tableau R) (env : Env R) : Prop :=
  ∀ (f : Rhs R) (T : K) (y0 : Vec R) (te : Option (Vec R)) (sol : Sol R),
    (∀ ts, te = some ts → ts.getLast? = some (.fin T) ∧ ∀ x ∈ ts, x.isFin = true) →
    env.solveIvp f (.fin T) y0 te = .ok sol →
    ∃ (hs : List K) (yf : Vec R), hs.sum = T ∧ (0 ≤ T → ∀ h ∈ hs, 0 ≤ h) ∧ (T ≤ 0 → ∀ h ∈ hs, h ≤ 0) ∧
      rkChainFl tab f 0 y0 (hs.map .fin) = .ok yf ∧ sol.y.getLast? = some yf

/-- Step sizes proportional to the absolute values of the given weights, followed by one more step, of total `T`. -/
def schedule (T : K) (ws : List K) : List K :=
  (1 :: ws).map (fun w => T * ((if w < 0 then -w else w) / ((1 :: ws).map (fun w => if w < 0 then -w else w)).sum))

/-- A concrete solver: accepted steps proportional to weights that a policy chooses from all the data of the call; it
reports the start and the end point. Used to show that the hypothesis `IsRk` is met, and for fixed-schedule statements. -/
def rkEnv (tab : Tableau R) (policy : Rhs R → K → Vec R → List K) : Env R where
  jaxInstalled := false
  solveIvp := fun f t1 y0 _ =>
    match t1 with
    | .fin T => do
      let y ← rkChainFl tab f 0 y0 ((schedule T (policy f T y0)).map .fin)
      pure ⟨[0, t1], [y0, y], true⟩
    | _ => .error .valueError
  odeint := fun _ _ _ => .error .importError

end
end SAD
