import Mathlib.Analysis.SpecialFunctions.Pow.Real
import Mathlib.Algebra.BigOperators.Fin

/-!
# What JAX's `odeint` promises

Adaptive Dormand-Prince steps with the error estimate of Shampine (1986), kept below `1.4e-8 * (1 + abs(y))`; the value at a requested time is
that of the polynomial of degree four through the two ends of the step that covers it, their derivatives and an estimate of the midpoint.
-/

namespace SAD.Spec
variable {n : Nat}

/-- One Dormand-Prince step of size `h` from `(t, y)` to `y'`, with the estimate `e` of its error and the estimate `m` of the midpoint. -/
def JaxStep (F : ℝ → (Fin n → ℝ) → (Fin n → ℝ)) (t h : ℝ) (y y' e m : Fin n → ℝ) : Prop :=
  ∃ k1 k2 k3 k4 k5 k6 k7 : Fin n → ℝ,
    k1 = F t y ∧
    k2 = F (t + 1/5 * h) (y + h • ((1/5 : ℝ) • k1)) ∧
    k3 = F (t + 3/10 * h) (y + h • ((3/40 : ℝ) • k1 + (9/40 : ℝ) • k2)) ∧
    k4 = F (t + 4/5 * h) (y + h • ((44/45 : ℝ) • k1 + (-56/15 : ℝ) • k2 + (32/9 : ℝ) • k3)) ∧
    k5 = F (t + 8/9 * h) (y + h • ((19372/6561 : ℝ) • k1 + (-25360/2187 : ℝ) • k2 + (64448/6561 : ℝ) • k3 + (-212/729 : ℝ) • k4)) ∧
    k6 = F (t + h) (y + h • ((9017/3168 : ℝ) • k1 + (-355/33 : ℝ) • k2 + (46732/5247 : ℝ) • k3 + (49/176 : ℝ) • k4
      + (-5103/18656 : ℝ) • k5)) ∧
    y' = y + h • ((35/384 : ℝ) • k1 + (500/1113 : ℝ) • k3 + (125/192 : ℝ) • k4 + (-2187/6784 : ℝ) • k5 + (11/84 : ℝ) • k6) ∧
    k7 = F (t + h) y' ∧
    e = h • ((71/86400 : ℝ) • k1 + (-142/50085 : ℝ) • k3 + (71/2880 : ℝ) • k4 + (-5751/169600 : ℝ) • k5 + (44/1575 : ℝ) • k6
      + (-1/60 : ℝ) • k7) ∧
    m = y + h • ((6025192743/30085553152/2 : ℝ) • k1 + (51252292925/65400821598/2 : ℝ) • k3 + (-2691868925/45128329728/2 : ℝ) • k4
      + (187940372067/1594534317056/2 : ℝ) • k5 + (-1776094331/19743644256/2 : ℝ) • k6 + (11237099/235043384/2 : ℝ) • k7)

/-- the error `e` is within the tolerance in the root mean square over the components -/
def JaxTolerated (y y' e : Fin n → ℝ) : Prop := ∑ i, (e i / (14/1000000000 * (1 + max |y i| |y' i|))) ^ 2 ≤ (n : ℝ)

/-- From `(t, y)` tolerated steps of the positive sizes `hs` lead to `z`. -/
inductive JaxSteps (F : ℝ → (Fin n → ℝ) → (Fin n → ℝ)) : ℝ → (Fin n → ℝ) → List ℝ → (Fin n → ℝ) → Prop
  | nil (t : ℝ) (y : Fin n → ℝ) : JaxSteps F t y [] y
  | cons {t h : ℝ} {y y' e m z : Fin n → ℝ} {hs : List ℝ} : 0 < h → JaxStep F t h y y' e m → JaxTolerated y y' e →
      JaxSteps F (t + h) y' hs z → JaxSteps F t y (h :: hs) z

/-- `z` is the value at `x` of a polynomial of degree four with the values `y`, `m` and `y'` at 0, 1/2 and 1 and the slopes `d` and `d'` at 0 and 1. -/
def QuarticAt (y m y' d d' : Fin n → ℝ) (x : ℝ) (z : Fin n → ℝ) : Prop :=
  ∃ a b c : Fin n → ℝ, (∀ i, a i + b i + c i + d i + y i = y' i) ∧ (∀ i, 4 * a i + 3 * b i + 2 * c i + d i = d' i) ∧
    (∀ i, a i / 16 + b i / 8 + c i / 4 + d i / 2 + y i = m i) ∧ ∀ i, z i = a i * x ^ 4 + b i * x ^ 3 + c i * x ^ 2 + d i * x + y i

/-- `z` is the answer at time `T` for the start `(t, y)`: tolerated steps to before `T`, one more that reaches it, and the polynomial of that. -/
def JaxAnswer (F : ℝ → (Fin n → ℝ) → (Fin n → ℝ)) (t : ℝ) (y : Fin n → ℝ) (T : ℝ) (z : Fin n → ℝ) : Prop :=
  ∃ hs l h p q e m, JaxSteps F t y hs p ∧ l = t + hs.sum ∧ l < T ∧ T ≤ l + h ∧ JaxStep F l h p q e m ∧ JaxTolerated p q e ∧
    QuarticAt p m q (h • F l p) (h • F (l + h) q) ((T - l) / h) z

end SAD.Spec
