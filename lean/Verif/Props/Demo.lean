import Verif.Model.Formats
import Verif.Model.Base

/-!
# A small concrete entity, used by the non-vacuity examples

A two-state, two-control entity (`x' = u`) with control limits `[-1, 1] x [-2, 2]`, state limits `[-10, 10]` and named
actuators, in exact rational arithmetic, and an environment whose solver takes one forward Euler step.
-/

namespace SAD.Demo
open SAD

/-- an environment with a one-step solver and no jax -/
def env {K : Type} {R : Fmt K} [Field K] [LinearOrder K] : Env R where
  jaxInstalled := false
  solveIvp := fun f t1 y0 _ => do
    let k ← f 0 y0
    let y ← vadd y0 (vscale t1 k)
    pure ⟨[0, t1], [y0, y], true⟩
  odeint := fun f y0 t1 => do
    let k ← f 0 y0
    let y ← vadd y0 (vscale t1 k)
    pure [y0, y]

def dyn {K : Type} {R : Fmt K} [Field K] [LinearOrder K] (method : String) : Dyn R where
  stateMin := .scalar (.fin (-10))
  stateMax := .vec [.fin 10, .fin 10]
  angleWrapCenters := none
  useJax := false
  trajectorySamples := 0
  stateDotMin := .scalar .ninf
  stateDotMax := .scalar .pinf
  integrationMethod := method
  rhs := fun _ _ u => .ok u
  custom := none
  trajectory := none
  trajectoryT := none

def entity {K : Type} {R : Fmt K} [Field K] [LinearOrder K] (method : String) : Entity R where
  name := "demo"
  dynamics := dyn method
  controlDefault := [.fin 0, .fin 0]
  controlMin := .vec [.fin (-1), .fin (-2)]
  controlMax := .vec [.fin 1, .fin 2]
  controlMap := some [("a", 0), ("b", 1)]
  state := [.fin 3, .fin 4]
  stateDot := [.fin 0, .fin 0]

/-- an outcome that is a value satisfying `p`; decidable by evaluation -/
def okAnd {α : Type} (x : Py α) (p : α → Bool) : Bool :=
  match x with
  | .ok a => p a
  | .error _ => false

theorem of_okAnd {α : Type} {x : Py α} {p : α → Bool} (h : okAnd x p = true) : ∃ a, x = .ok a ∧ p a = true := by
  cases x with
  | ok a => exact ⟨a, rfl, h⟩
  | error _ => simp [okAnd] at h

end SAD.Demo
