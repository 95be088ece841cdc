import Verif.Model.Classes
import Mathlib.Data.List.Dedup

/-!
# C114: deriving classes from the base classes
-/

namespace SAD

theorem lookup_eq_none {β : Type} (ms : List (String × β)) (k : String) : lookup ms k = none ↔ k ∉ ms.map Prod.fst := by
  induction ms with
  | nil => simp [lookup]
  | cons q ms ih =>
    obtain ⟨k', b⟩ := q
    by_cases hk : k' = k
    · simp [lookup, hk]
    · simp [lookup, hk, ih, Ne.symm hk]

theorem mem_of_lookup {β : Type} {ms : List (String × β)} {k : String} {b : β} (h : lookup ms k = some b) : (k, b) ∈ ms := by
  induction ms with
  | nil => cases h
  | cons q ms ih =>
    obtain ⟨k', b'⟩ := q
    by_cases hk : k' = k
    · simp only [lookup, hk, if_true, Option.some.injEq] at h
      simp [hk, h]
    · simp only [lookup, hk, if_false] at h
      exact List.mem_cons_of_mem _ (ih h)

/-- the names a list of classes defines -/
def Spec.defined (classes : List PyClass) : List String := classes.flatMap fun c => c.members.map Prod.fst

/-- none of the definitions is an abstract one -/
def Spec.AllConcrete (classes : List PyClass) : Prop := ∀ c ∈ classes, ∀ q ∈ c.members, q.2 = false

open Spec

theorem isAbstractIn_chain : ∀ (classes base : List PyClass) (_ : AllConcrete classes) (k : String),
    isAbstractIn (classes ++ base) k = true ↔ k ∉ defined classes ∧ isAbstractIn base k = true
  | [], base, _, k => by simp [defined]
  | c :: classes, base, h, k => by
    have ih := isAbstractIn_chain classes base (fun c' hc => h c' (List.mem_cons_of_mem _ hc)) k
    have hu : isAbstractIn (c :: classes ++ base) k = match lookup c.members k with
      | some b => b
      | none => isAbstractIn (classes ++ base) k := rfl
    rw [hu]
    cases hl : lookup c.members k with
    | none =>
      have := (lookup_eq_none _ _).1 hl
      simp only [ih, defined, List.flatMap_cons, List.mem_append, this, false_or]
    | some b =>
      have hb : b = false := h c List.mem_cons_self _ (mem_of_lookup hl)
      have : k ∈ c.members.map Prod.fst := by
        by_contra hk
        rw [(lookup_eq_none _ _).2 hk] at hl
        cases hl
      simp [hb, defined, List.flatMap_cons, this]

theorem isAbstractIn_defined : ∀ (mro : List PyClass) (k : String), isAbstractIn mro k = true → k ∈ defined mro
  | [], _, h => by cases h
  | c :: rest, k, h => by
    rw [defined, List.flatMap_cons, List.mem_append]
    unfold isAbstractIn at h
    cases hl : lookup c.members k with
    | none =>
      rw [hl] at h
      exact .inr (isAbstractIn_defined rest k h)
    | some b => exact .inl (by by_contra hk; rw [(lookup_eq_none _ _).2 hk] at hl; cases hl)

theorem mem_abstractMethods {mro : List PyClass} {k : String} : k ∈ abstractMethods mro ↔ isAbstractIn mro k = true := by
  unfold abstractMethods
  rw [List.mem_dedup, List.mem_filter]
  exact ⟨fun h => h.2, fun h => ⟨isAbstractIn_defined mro k h, h⟩⟩

/-- classes derived one from the other, and the first from `base`: the constructor of the last runs if and only if together they define what is abstract in `base` -/
theorem chain_instantiable {α : Type} (base classes : List PyClass) (h : AllConcrete classes) (required : List String)
    (hr : ∀ k, k ∈ abstractMethods base ↔ k ∈ required) (init : Py α) :
    instantiate (classes ++ base) init = if ∀ k ∈ required, k ∈ defined classes then init else .error .typeError := by
  unfold instantiate
  congr 1
  rw [eq_iff_iff, List.eq_nil_iff_forall_not_mem]
  constructor
  · intro hn k hk
    by_contra hd
    exact hn k (mem_abstractMethods.2 ((isAbstractIn_chain classes base h k).2 ⟨hd, mem_abstractMethods.1 ((hr k).2 hk)⟩))
  · intro hd k hk
    obtain ⟨h1, h2⟩ := (isAbstractIn_chain classes base h k).1 (mem_abstractMethods.1 hk)
    exact h1 (hd k ((hr k).1 (mem_abstractMethods.2 h2)))

/-- C114: what a class derived, over any number of levels, from a base class of entities must define for its constructor to run; without one of these names it
raises `TypeError` whatever the arguments. -/
theorem C114_entities {α : Type} (classes : List PyClass) (h : AllConcrete classes) (init : Py α) :
    (instantiate (classes ++ mroBaseEntity) init =
      if ∀ k ∈ ["_build_state", "x", "y", "z", "position", "orientation", "velocity"], k ∈ defined classes then init else .error .typeError) ∧
    (instantiate (classes ++ mroBaseIntegrator) init =
      if ∀ k ∈ ["_build_state", "x", "y", "z", "position", "orientation", "velocity"], k ∈ defined classes then init else .error .typeError) ∧
    (instantiate (classes ++ mroBaseRotationEntity) init =
      if ∀ k ∈ ["_build_state", "x", "y", "z", "position", "orientation", "velocity", "q1", "q2", "q3", "q4", "quaternion", "wx", "wy", "wz", "angular_velocity"],
        k ∈ defined classes then init else .error .typeError) ∧
    (instantiate (classes ++ mroBaseDubins) init =
      if ∀ k ∈ ["_build_state", "x", "y", "z", "position", "v", "heading", "gamma", "roll", "acceleration"], k ∈ defined classes then init
      else .error .typeError) := by
  have key : ∀ (a b : List String), (∀ k ∈ a, k ∈ b) → (∀ k ∈ b, k ∈ a) → ∀ k, k ∈ a ↔ k ∈ b := fun a b h1 h2 k => ⟨h1 k, h2 k⟩
  exact ⟨chain_instantiable _ _ h _ (key _ _ (by decide) (by decide)) init, chain_instantiable _ _ h _ (key _ _ (by decide) (by decide)) init,
    chain_instantiable _ _ h _ (key _ _ (by decide) (by decide)) init, chain_instantiable _ _ h _ (key _ _ (by decide) (by decide)) init⟩

/-- C114: likewise for the dynamics. Linear dynamics need nothing. -/
theorem C114_dynamics {α : Type} (classes : List PyClass) (h : AllConcrete classes) (init : Py α) :
    (instantiate (classes ++ mroBaseDynamics) init = if "_step" ∈ defined classes then init else .error .typeError) ∧
    (instantiate (classes ++ mroBaseODESolver) init = if "_compute_state_dot" ∈ defined classes then init else .error .typeError) ∧
    (instantiate (classes ++ mroBaseControlAffine) init =
      if "state_transition_system" ∈ defined classes ∧ "state_transition_input" ∈ defined classes then init else .error .typeError) ∧
    instantiate (classes ++ mroBaseLinear) init = init := by
  have key : ∀ (a b : List String), (∀ k ∈ a, k ∈ b) → (∀ k ∈ b, k ∈ a) → ∀ k, k ∈ a ↔ k ∈ b := fun a b h1 h2 k => ⟨h1 k, h2 k⟩
  have h1 := chain_instantiable mroBaseDynamics _ h ["_step"] (key _ _ (by decide) (by decide)) init
  have h2 := chain_instantiable mroBaseODESolver _ h ["_compute_state_dot"] (key _ _ (by decide) (by decide)) init
  have h3 := chain_instantiable mroBaseControlAffine _ h ["state_transition_system", "state_transition_input"] (key _ _ (by decide) (by decide)) init
  have h4 := chain_instantiable mroBaseLinear _ h [] (key _ _ (by decide) (by decide)) init
  simp only [List.mem_cons, List.not_mem_nil, or_false, forall_eq_or_imp, forall_eq, false_imp_iff, implies_true, if_true] at h1 h2 h3 h4
  exact ⟨h1, h2, h3, h4⟩

/-- C114: what a derived class already provides need not be defined again: any class derived from a shipped vehicle can be constructed. -/
theorem C114_vehicles {α : Type} (classes : List PyClass) (h : AllConcrete classes) (init : Py α) :
    ∀ mro ∈ [mroCWHSpacecraft, mroCWHRotation2d, mroSixDOF, mroSun, mroDubins2d, mroDubins3d], instantiate (classes ++ mro) init = init := by
  have key : ∀ mro ∈ [mroCWHSpacecraft, mroCWHRotation2d, mroSixDOF, mroSun, mroDubins2d, mroDubins3d], abstractMethods mro = [] := by decide
  intro mro hm
  rw [chain_instantiable mro classes h [] (by simp [key mro hm]) init]
  simp

/-- a vehicle of two levels -/
example (init : Py Nat) : instantiate ([⟨"Rover", [("velocity", false), ("z", false)]⟩,
      ⟨"Ground", [("_build_state", false), ("x", false), ("y", false), ("position", false), ("orientation", false)]⟩] ++ mroBaseEntity) init = init := by
  rw [(C114_entities _ (by simp [AllConcrete]) init).1]
  simp [defined]

/-- an aircraft without an acceleration -/
example (init : Py Nat) : instantiate ([⟨"Glider", [("_build_state", false), ("x", false), ("y", false), ("z", false), ("position", false), ("v", false),
      ("heading", false), ("gamma", false), ("roll", false)]⟩] ++ mroBaseDubins) init = .error .typeError := by
  rw [(C114_entities _ (by simp [AllConcrete]) init).2.2.2]
  simp [defined]

end SAD
