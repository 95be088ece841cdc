import Verif.Model.Base

/-!
# The limit warning and the filters of Python's `warnings` module

`Entity.step` records that `warnings.warn` was called. What happens then is decided by the filters of the `warnings` module of the standard
library (CPython 3.10, `Lib/warnings.py`, `warn_explicit`), which is not part of `/repo`: the warning is shown, dropped, or raised as an
exception inside `step`.
-/

namespace SAD

/-- the action of the first filter that matches the limit warning -/
inductive WAction where
  | default
  | module
  | once
  | always
  | ignore
  | error
  deriving DecidableEq

/-- The part of the state of `warnings` the limit warning depends on: the action in force and the number of changes of the filters; the registry of
the module base_models, with the number of changes at which it was made, and in it the texts under the line of the call
(base_models.py:193) and those under line 0; the registry of `once`; and what has been shown. -/
structure Warn where
  action : WAction
  version : Nat
  regVersion : Nat
  seen : List String
  seenModule : List String
  onceSeen : List String
  shown : List String

/-- a program that has not warned yet, with the given action -/
def Warn.start (a : WAction) : Warn := ⟨a, 0, 0, [], [], [], []⟩

/-- `warnings.warn(text)` at base_models.py:193 (`warn_explicit`); true when it raises -/
def Warn.warn (w : Warn) (text : String) : Warn × Bool :=
  let w := if w.regVersion = w.version then w else { w with regVersion := w.version, seen := [], seenModule := [] }
  if text ∈ w.seen then (w, false)
  else match w.action with
    | .ignore => (w, false)
    | .error => (w, true)
    | .once =>
      let w := { w with seen := text :: w.seen }
      if text ∈ w.onceSeen then (w, false) else ({ w with onceSeen := text :: w.onceSeen, shown := w.shown ++ [text] }, false)
    | .always => ({ w with shown := w.shown ++ [text] }, false)
    | .module =>
      let w := { w with seen := text :: w.seen }
      if text ∈ w.seenModule then (w, false) else ({ w with seenModule := text :: w.seenModule, shown := w.shown ++ [text] }, false)
    | .default => ({ w with seen := text :: w.seen, shown := w.shown ++ [text] }, false)

/-- `warnings.simplefilter(action)` and the like: a new first filter; the registries are cleared at the next warning -/
def Warn.filter (w : Warn) (a : WAction) : Warn := { w with action := a, version := w.version + 1 }

section
variable {K : Type} {R : Fmt K} [Field K] [LinearOrder K] [FloorRing K]

/-- `BaseEntity.step` (base_models.py:147-197) with the filters: the call of `warnings.warn` is between the test and `np.clip`. `text lo hi` is
the message, which shows the two limits. -/
def Entity.warnStep (env : Env R) (text : Arr R → Arr R → String) (w : Warn) (e : Entity R) (dt : Fl R) (a : Action R) : Warn × StepResult R :=
  match e.resolve env a with
  | .error x => (w, ⟨e, false, .error x⟩)
  | .ok (ty, u) =>
    let lo := e.controlMin.forDType ty
    let hi := e.controlMax.forDType ty
    match exceeds u lo hi with
    | .error x => (w, ⟨e, false, .error x⟩)
    | .ok b =>
      match if b then w.warn (text e.controlMin e.controlMax) else (w, false) with
      | (w, true) => (w, ⟨e, true, .error .userWarning⟩)
      | (w, false) =>
        match npClip u lo hi with
        | .error x => (w, ⟨e, b, .error x⟩)
        | .ok v =>
          match e.dynamics.step env dt e.state v with
          | (d, .error x) => (w, ⟨{ e with dynamics := d }, b, .error x⟩)
          | (d, .ok (s, sd)) => (w, ⟨{ e with dynamics := d, state := s, stateDot := sd }, b, .ok ()⟩)

/-- what a program does: an operation on an entity, or a change of the filters -/
inductive WarnOp {K : Type} (R : Fmt K) where
  | on (i : Nat) (o : Op R)
  | filter (a : WAction)

/-- one operation of a program with several entities, each with its own dynamics object; exceptions are caught by the program -/
def warnOp (env : Env R) (text : Arr R → Arr R → String) (p : Warn × List (Entity R)) : WarnOp R → Warn × List (Entity R)
  | .filter a => (p.1.filter a, p.2)
  | .on i o =>
    match p.2[i]? with
    | none => p
    | some e =>
      match o with
      | .step dt a =>
        let r := e.warnStep env text p.1 dt a
        (r.1, p.2.set i r.2.entity)
      | o => (p.1, p.2.set i (e.op env o))

/-- a program -/
def warnRun (env : Env R) (text : Arr R → Arr R → String) (p : Warn × List (Entity R)) (ops : List (WarnOp R)) : Warn × List (Entity R) :=
  ops.foldl (warnOp env text) p

end
end SAD
