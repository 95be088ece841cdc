import Verif.Spec.Base
import Verif.Model.Rk
import Mathlib.Data.List.OfFn

/-!
# Finite vectors, requests and histories

Vocabulary for the statements about finite numbers: arrays whose elements are finite floats, actions that request them, and
histories of steps.
-/

namespace SAD
variable {K : Type} {R : Fmt K} {n m : Nat}

/-- a vector of finite numbers as an array -/
def toFl (y : Fin n → K) : Vec R := List.ofFn (fun i => Fl.fin (y i))

/-- a list of finite numbers as an array -/
def toVec (xs : List K) : Vec R := xs.map .fin

/-- a matrix of finite numbers as a 2-d array -/
def toMat (A : Fin n → Fin m → K) : Mat R := ⟨List.ofFn (fun i => toFl (A i)), m⟩

/-- the action requests, for the entity, the finite control vector `u` -/
def Spec.Asks [Field K] [LinearOrder K] (env : Env R) (e : Entity R) (a : Action R) (u : Fin m → K) : Prop :=
  ∃ ty, Spec.Requests env e a ty (toFl u)

/-- a history of steps, each with its duration and its action, as operations -/
def stepsOf (hist : List (K × Action R)) : List (Op R) := hist.map (fun h => .step (.fin h.1) h.2)

variable [Field K] [LinearOrder K] [FloorRing K]

/-- a solver with a fixed schedule: its accepted steps have sizes proportional to `1, |w1|, |w2|, ...` -/
abbrev Spec.scheduled (ws : List K) : Env R := rkEnv dopri (fun _ _ _ => ws)

/-- a history of steps, each with the solver's schedule for it, its duration and its action -/
def Spec.runScheduled (e : Entity R) (hist : List (List K × K × Action R)) : Entity R :=
  hist.foldl (fun e h => (e.step (scheduled h.1) (.fin h.2.1) h.2.2).entity) e

end SAD
