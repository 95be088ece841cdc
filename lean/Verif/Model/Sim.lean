import Verif.Model.Base

/-!
# Several entities in one program

`Entity` has its dynamics object inside. In Python the entity holds a reference to it (base_models.py:128), and two entities of a user's
own class may be given the same one. Here the dynamics objects are a list, entities refer to them by index, and the program interleaves
operations on the entities. Arrays are values (`Model/Heap` treats them as objects).
-/

namespace SAD

/-- an entity that refers to its dynamics object (base_models.py:124-137), and its `partner` (dubins.py:79) or `lead`
(cwh/sixdof_model.py:212), which is another entity of the program or `None` -/
structure Member {K : Type} (R : Fmt K) where
  name : String
  dynamics : Nat
  controlDefault : Vec R
  controlMin : Arr R
  controlMax : Arr R
  controlMap : Option (List (String × Nat))
  state : Vec R
  stateDot : Vec R
  link : Option Nat

/-- the objects of a program: entities and dynamics -/
structure Sim {K : Type} (R : Fmt K) where
  members : List (Member R)
  dynamics : List (Dyn R)

/-- what the program does: an operation on one entity, or `a.register_partner(b)` (dubins.py:94-107), `a.register_lead(b)`
(cwh/sixdof_model.py:232-245) -/
inductive SimOp {K : Type} (R : Fmt K) where
  | on (i : Nat) (o : Op R)
  | register (i j : Nat)

section
variable {K : Type} {R : Fmt K}

/-- the entity as seen through its attributes, `entity.dynamics` followed (base_models.py:124-137) -/
def Member.entity (m : Member R) (d : Dyn R) : Entity R where
  name := m.name
  dynamics := d
  controlDefault := m.controlDefault
  controlMin := m.controlMin
  controlMax := m.controlMax
  controlMap := m.controlMap
  state := m.state
  stateDot := m.stateDot

/-- entity number `i` of the program -/
def Sim.entity (s : Sim R) (i : Nat) : Option (Entity R) :=
  match s.members[i]? with
  | none => none
  | some m => (s.dynamics[m.dynamics]?).map m.entity

/-- entities built one after the other by the constructors of the library, each of which makes its own dynamics object
(integrators.py:114, 207, 305; cwh/point_model.py:105; cwh/rotational_model.py:166; cwh/sixdof_model.py:202; cwh/sun_model.py:77;
dubins.py:306, 545) -/
def Sim.ofEntities (es : List (Entity R)) : Sim R where
  members := es.mapIdx (fun i e => ⟨e.name, i, e.controlDefault, e.controlMin, e.controlMax, e.controlMap, e.state, e.stateDot, none⟩)
  dynamics := es.map (·.dynamics)

variable [Field K] [LinearOrder K] [FloorRing K]

/-- one operation: a method of an entity writes its own attributes (base_models.py:197, 211-213) and those of the dynamics object it
refers to (base_models.py:575-576); a registration writes one attribute (dubins.py:107, cwh/sixdof_model.py:245) -/
def Sim.op (env : Env R) (s : Sim R) : SimOp R → Sim R
  | .on i o =>
    match s.members[i]? with
    | none => s
    | some m =>
      match s.dynamics[m.dynamics]? with
      | none => s
      | some d =>
        let e := (m.entity d).op env o
        { members := s.members.set i { m with state := e.state, stateDot := e.stateDot }
          dynamics := s.dynamics.set m.dynamics e.dynamics }
  | .register i j =>
    match s.members[i]? with
    | none => s
    | some m => { s with members := s.members.set i { m with link := some j } }

/-- a program -/
def Sim.run (env : Env R) (s : Sim R) (ops : List (SimOp R)) : Sim R := ops.foldl (Sim.op env) s

end
end SAD
