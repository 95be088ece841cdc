import Verif.Model.Warn

/-! # What is seen of the limit warnings -/

namespace SAD.Spec
open SAD

/-- every text once, at the place of its first occurrence -/
def firsts : List String → List String
  | [] => []
  | t :: l => t :: (firsts l).filter (· ≠ t)

/-- what is shown of the warnings `ts` emitted while the filters say `a`; `before` are the texts that occurred earlier under `once` -/
def shownUnder (a : WAction) (before ts : List String) : List String :=
  match a with
  | .default => firsts ts
  | .module => firsts ts
  | .once => (firsts ts).filter (· ∉ before)
  | .always => ts
  | .ignore => []
  | .error => []

section
variable {K : Type} {R : Fmt K} [Field K] [LinearOrder K] [FloorRing K]

/-- the warning an operation emits, if any: a step of entity `i` whose control exceeds the limits -/
def emittedBy (env : Env R) (text : Arr R → Arr R → String) (es : List (Entity R)) (i : Nat) : Op R → List String
  | .step dt a =>
    match es[i]? with
    | some e => if (e.step env dt a).warned then [text e.controlMin e.controlMax] else []
    | none => []
  | _ => []

/-- the entities after an operation; if warnings are errors (`strict`), a step that warns changes nothing -/
def entitiesAfter (strict : Bool) (env : Env R) (es : List (Entity R)) (i : Nat) (o : Op R) : List (Entity R) :=
  if strict = true ∧ emittedBy env (fun _ _ => "") es i o ≠ [] then es
  else match es[i]? with
    | some e => es.set i (e.op env o)
    | none => es

/-- the entities after a list of operations -/
def entitiesAfterAll (strict : Bool) (env : Env R) (es : List (Entity R)) (ops : List (Nat × Op R)) : List (Entity R) :=
  ops.foldl (fun es o => entitiesAfter strict env es o.1 o.2) es

/-- the warnings emitted by a list of operations, in order -/
def emitted (strict : Bool) (env : Env R) (text : Arr R → Arr R → String) : List (Entity R) → List (Nat × Op R) → List String
  | _, [] => []
  | es, o :: ops => emittedBy env text es o.1 o.2 ++ emitted strict env text (entitiesAfter strict env es o.1 o.2) ops

/-- a stretch of a program: the filters are set to an action, then operations follow -/
abbrev WarnStretch (R : Fmt K) := WAction × List (Nat × Op R)

/-- the program as a list of calls -/
def programOf (ss : List (WarnStretch R)) : List (WarnOp R) := ss.flatMap (fun s => .filter s.1 :: s.2.map (fun o => .on o.1 o.2))

/-- what a program shows: stretch by stretch; a text is shown under `once` only if it has not occurred under `once` before -/
def shownIn (env : Env R) (text : Arr R → Arr R → String) : List (Entity R) → List String → List (WarnStretch R) → List String
  | _, _, [] => []
  | es, before, (a, ops) :: ss =>
    let ts := emitted (a = .error) env text es ops
    shownUnder a before ts ++ shownIn env text (entitiesAfterAll (a = .error) env es ops) (if a = .once then before ++ ts else before) ss

/-- the entities at the end of a program -/
def entitiesAtEnd (env : Env R) (es : List (Entity R)) (ss : List (WarnStretch R)) : List (Entity R) :=
  ss.foldl (fun es s => entitiesAfterAll (s.1 = .error) env es s.2) es

end
end SAD.Spec
