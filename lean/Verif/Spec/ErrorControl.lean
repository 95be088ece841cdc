import Mathlib.Analysis.SpecialFunctions.Pow.Real
import Mathlib.Algebra.BigOperators.Fin

/-!
# Error-controlled integration

What `method="RK45"` promises in SciPy's documentation: explicit Runge-Kutta steps of order 5(4) by Dormand and Prince, whose local error
estimates are kept below `atol + rtol * abs(y)`, here with the default tolerances `rtol = 1e-3` and `atol = 1e-6`.
-/

namespace SAD.Spec
variable {n : Nat}

/-- One step of size `h` from `(t, y)` to `y'` of the formula of order 5, with the estimate `e` of its error, the difference from the
embedded formula of order 4. -/
def DopriStep (F : ℝ → (Fin n → ℝ) → (Fin n → ℝ)) (t h : ℝ) (y y' e : Fin n → ℝ) : Prop :=
  ∃ k1 k2 k3 k4 k5 k6 k7 : Fin n → ℝ,
    k1 = F t y ∧
    k2 = F (t + 1/5 * h) (y + h • ((1/5 : ℝ) • k1)) ∧
    k3 = F (t + 3/10 * h) (y + h • ((3/40 : ℝ) • k1 + (9/40 : ℝ) • k2)) ∧
    k4 = F (t + 4/5 * h) (y + h • ((44/45 : ℝ) • k1 + (-56/15 : ℝ) • k2 + (32/9 : ℝ) • k3)) ∧
    k5 = F (t + 8/9 * h) (y + h • ((19372/6561 : ℝ) • k1 + (-25360/2187 : ℝ) • k2 + (64448/6561 : ℝ) • k3 + (-212/729 : ℝ) • k4)) ∧
    k6 = F (t + h) (y + h • ((9017/3168 : ℝ) • k1 + (-355/33 : ℝ) • k2 + (46732/5247 : ℝ) • k3 + (49/176 : ℝ) • k4
      + (-5103/18656 : ℝ) • k5)) ∧
    y' = y + h • ((35/384 : ℝ) • k1 + (500/1113 : ℝ) • k3 + (125/192 : ℝ) • k4 + (-2187/6784 : ℝ) • k5 + (11/84 : ℝ) • k6) ∧
    k7 = F (t + h) y' ∧
    e = h • ((-71/57600 : ℝ) • k1 + (71/16695 : ℝ) • k3 + (-71/1920 : ℝ) • k4 + (17253/339200 : ℝ) • k5 + (-22/525 : ℝ) • k6
      + (1/40 : ℝ) • k7)

/-- the error tolerated in component `i` -/
noncomputable def tolerance (y y' : Fin n → ℝ) (i : Fin n) : ℝ := 1/1000000 + 1/1000 * max |y i| |y' i|

/-- From `(t, y)` the steps of sizes `hs` lead to `z`, and in each of them the estimated error is within the tolerance in the root mean
square over the components. -/
inductive ErrorControlled (F : ℝ → (Fin n → ℝ) → (Fin n → ℝ)) : ℝ → (Fin n → ℝ) → List ℝ → (Fin n → ℝ) → Prop
  | nil (t : ℝ) (y : Fin n → ℝ) : ErrorControlled F t y [] y
  | cons {t h : ℝ} {y y' e z : Fin n → ℝ} {hs : List ℝ} : DopriStep F t h y y' e → ∑ i, (e i / tolerance y y' i) ^ 2 < n →
      ErrorControlled F (t + h) y' hs z → ErrorControlled F t y (h :: hs) z

end SAD.Spec
