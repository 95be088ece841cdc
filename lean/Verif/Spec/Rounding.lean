import Verif.Model.Rk
import Verif.Spec.Finite
import Mathlib.Data.Fin.VecNotation

/-! # Accuracy of a rounding -/

namespace SAD

/-- The format rounds every number of absolute value at most `M` to a finite number with a relative error of at most `ε`, apart from
an absolute error of at most `ε τ` (underflow). -/
structure Spec.Rounds {K : Type} [Field K] [LinearOrder K] (R : Fmt K) (ε τ M : K) : Prop where
  eps : 0 ≤ ε
  tau : 0 ≤ τ
  rnd : ∀ x, |x| ≤ M → ∃ y, R.rnd x = .val y ∧ |y - x| ≤ ε * (|x| + τ)

/-- sizes of the terms of the Clohessy-Wiltshire equations -/
def Spec.cwSizes {K : Type} [Field K] [LinearOrder K] (m n : K) (s : Fin 6 → K) (F : Fin 3 → K) : Fin 6 → K :=
  ![|s 3|, |s 4|, |s 5|, 3 * n ^ 2 * |s 0| + 2 * |n| * |s 4| + |F 0 / m|, 2 * |n| * |s 3| + |F 1 / m|, n ^ 2 * |s 2| + |F 2 / m|]

/-- `ts` are times from `t` on up to `T`, never decreasing, at most `η` apart -/
def Spec.Times {K : Type} [Field K] [LinearOrder K] (η : K) : K → List K → K → Prop
  | t, [], T => t = T
  | t, t' :: ts, T => t ≤ t' ∧ t' - t ≤ η ∧ Spec.Times η t' ts T

/-- On the differential equation `f`, from every state of `k` numbers of absolute value at most `S`, the solver of `env` reaches the time `T` in
at most `ν` accepted Dormand-Prince steps of duration at most `η`, computed in the floating-point arithmetic `R`. The times may depend on
everything; if the computation of the steps raises nothing, the last row of the answer is the end of the last step. -/
def Spec.Integrates {K : Type} {R : Fmt K} [Field K] [LinearOrder K] (env : Env R) (k : ℕ) (S η : K) (ν : ℕ) (f : Rhs R) (T : K) : Prop :=
  ∀ (y0 : Fin k → K) (te : Option (Vec R)), (∀ i, |y0 i| ≤ S) → ∃ ts : List K, ts.length ≤ ν ∧ Spec.Times η 0 ts T ∧
    ∀ yf, rkTimesFl dopri f (.fin 0) (toFl y0) (ts.map .fin) = .ok yf →
      ∃ sol, env.solveIvp f (.fin T) (toFl y0) te = .ok sol ∧ sol.y.getLast? = some yf

/-- weights of positions and velocities -/
def Spec.posVel {K : Type} [One K] (ω : K) : Fin 6 → K := ![1, 1, 1, ω, ω, ω]

/-- no action, a list or an array: anything but a dict -/
def Spec.ArrayAction {K : Type} {R : Fmt K} (a : Action R) : Prop := a = .none ∨ (∃ xs, a = .list xs) ∨ ∃ ty xs, a = .ndarray ty xs

end SAD
