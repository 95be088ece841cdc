import Verif.Spec.Base
import Verif.Spec.Finite
import Verif.Model.Formats

/-! # A quantity that stops at its limits -/

namespace SAD

/-- What becomes of a quantity `x` that changes in each call at the constant rate the action gives it, and stops at `lo` and at `hi`: after the time
`t` of a call it is `x + rate * t`, or the limit it has reached. Calls that raise change nothing. -/
noncomputable def Spec.stopping (env : Env realFmt) (lo hi : ℝ) (rate : Action realFmt → ℝ) : Entity realFmt → List (ℝ × Action realFmt) → ℝ → ℝ
  | _, [], x => x
  | e, (T, a) :: hist, x => Spec.stopping env lo hi rate (e.step env (.fin T) a).entity hist
      (match (e.step env (.fin T) a).outcome with | .ok () => min (max (x + rate a * T) lo) hi | .error _ => x)

end SAD
