import Verif.Props.SixDof

/-! # C56: `number_list_to_np` -/

set_option linter.unusedSectionVars false

namespace SAD
open Spec
variable {K : Type} {R : Fmt K} [Field K] [LinearOrder K]

/-- A number fills an array of the requested shape: with itself for float64, with its float32 rounding for float32, unless the array has no
dimension or the number is finite and of magnitude 3.4e38 or more, when the dtype check fails; so it does for any other dtype of the model. -/
theorem C56_number [IsStrictOrderedRing K] (uninit : List Nat → Vec R) (x : Fl R) (shape : List Nat) (dtype : String) :
    (dtype = "float64" → ∃ out, numberListToNp uninit (.num x) shape dtype = .ok out ∧ out.shape = shape ∧ out.dtype = "float64" ∧
      out.data.length = shape.prod ∧ ∀ y ∈ out.data, y = x) ∧
    (dtype = "float32" → shape ≠ [] → (∀ q, x = .fin q → |q| < 34 * 10 ^ 37) → ∃ out, numberListToNp uninit (.num x) shape dtype = .ok out ∧
      out.shape = shape ∧ out.dtype = "float32" ∧ out.data.length = shape.prod ∧ ∀ y ∈ out.data, y = x.cast32) ∧
    (dtype = "float32" → (shape = [] ∨ ∃ q, x = .fin q ∧ 34 * 10 ^ 37 ≤ |q|) → numberListToNp uninit (.num x) shape dtype = .error .assertionError) ∧
    (dtype ≠ "float64" → dtype ≠ "float32" → numberListToNp uninit (.num x) shape dtype = .error .assertionError) := by
  refine ⟨?_, ?_, ?_, ?_⟩
  · rintro rfl
    exact ⟨⟨shape, "float64", List.replicate shape.prod x⟩, by simp [numberListToNp, bind, Except.bind, pure, Except.pure], rfl, rfl, by simp,
      fun y hy => List.eq_of_mem_replicate hy⟩
  · rintro rfl hs hq
    have hf : x.fits32 = true := by
      cases x with
      | fin q => simpa [Fl.fits32, abs_lt] using hq q rfl
      | _ => rfl
    exact ⟨⟨shape, "float32", List.replicate shape.prod x.cast32⟩, by simp [numberListToNp, bind, Except.bind, pure, Except.pure, hs, hf], rfl, rfl,
      by simp, fun y hy => List.eq_of_mem_replicate hy⟩
  · rintro rfl hc
    have : ¬ (shape ≠ [] ∧ x.fits32 = true) := by
      rcases hc with h | ⟨q, rfl, hq⟩
      · exact fun g => g.1 h
      · rintro ⟨-, g⟩
        rw [Fl.fits32, decide_eq_true_eq, ← abs_lt] at g
        exact absurd hq (not_le.2 g)
    simp [numberListToNp, bind, Except.bind, pure, Except.pure, this]
  · intro h1 h2
    simp [numberListToNp, bind, Except.bind, pure, Except.pure, h2, Ne.symm h1]

/-- An array is returned unchanged iff its shape and dtype are the requested ones; otherwise the call raises `AssertionError`. -/
theorem C56_array (uninit : List Nat → Vec R) (a : NdArr R) (shape : List Nat) (dtype : String) :
    (a.shape = shape ∧ a.dtype = dtype → numberListToNp uninit (.array a) shape dtype = .ok a) ∧
    (¬ (a.shape = shape ∧ a.dtype = dtype) → numberListToNp uninit (.array a) shape dtype = .error .assertionError) := by
  constructor
  · rintro ⟨rfl, rfl⟩
    simp [numberListToNp, bind, Except.bind, pure, Except.pure]
  · intro h
    by_cases h1 : a.shape = shape
    · have h2 : ¬ a.dtype = dtype := fun h2 => h ⟨h1, h2⟩
      simp [numberListToNp, bind, Except.bind, pure, Except.pure, h1, h2]
    · simp [numberListToNp, bind, Except.bind, pure, Except.pure, h1]

theorem asShape_ok {xs : List (ListItem R)} {s : List Nat} (h : asShape xs = .ok s) : xs = s.map (fun n : Nat => ListItem.int (n : Int)) := by
  induction xs generalizing s with
  | nil => cases h; rfl
  | cons x xs ih =>
    cases x with
    | float y => cases h
    | int i =>
      obtain ⟨s', hs', h⟩ := Except.bind_ok.1 h
      split at h
      · cases h
      · rename_i hi
        cases h
        rw [List.map_cons, ih hs', Int.toNat_of_nonneg (not_lt.1 hi)]

theorem asShape_map (s : List Nat) : asShape (s.map (fun n : Nat => (ListItem.int (n : Int) : ListItem R))) = .ok s := by
  induction s with
  | nil => rfl
  | cons n s ih =>
    have : ¬ ((n : Int) < 0) := by omega
    simp [asShape, ih, bind, Except.bind, pure, Except.pure, this]

theorem asShape_float {xs : List (ListItem R)} (h : ∃ y, ListItem.float y ∈ xs) : asShape xs = .error .typeError := by
  induction xs with
  | nil => simp at h
  | cons x xs ih =>
    cases x with
    | float y => rfl
    | int i =>
      obtain ⟨y, hy⟩ := h
      have : ListItem.float y ∈ xs := by simpa using hy
      simp [asShape, ih ⟨y, this⟩, bind, Except.bind]

/-- A list is read as a shape, never as values: a list holding a float raises `TypeError`; a list is accepted only if its elements
are the requested shape, and then the result holds uninitialised memory (whatever that is); every other list raises. -/
theorem C56_list (uninit : List Nat → Vec R) (xs : List (ListItem R)) (shape : List Nat) (dtype : String) :
    ((∃ y, ListItem.float y ∈ xs) → numberListToNp uninit (.list xs) shape dtype = .error .typeError) ∧
    (xs = shape.map (fun n : Nat => ListItem.int (n : Int)) → numberListToNp uninit (.list xs) shape dtype = .ok ⟨shape, dtype, uninit shape⟩) ∧
    (∀ out, numberListToNp uninit (.list xs) shape dtype = .ok out → xs = shape.map (fun n : Nat => ListItem.int (n : Int)) ∧ out = ⟨shape, dtype, uninit shape⟩) := by
  refine ⟨?_, ?_, ?_⟩
  · intro h
    simp [numberListToNp, asShape_float h, bind, Except.bind]
  · rintro rfl
    simp [numberListToNp, asShape_map, bind, Except.bind, pure, Except.pure]
  · intro out h
    cases hs : asShape xs with
    | error x => simp [numberListToNp, hs, bind, Except.bind] at h
    | ok s =>
      simp only [numberListToNp, hs, bind, Except.bind, pure, Except.pure] at h
      split at h
      · rename_i hsh
        subst hsh
        simp only [if_true] at h
        cases h
        exact ⟨asShape_ok hs, rfl⟩
      · cases h

/-- Hence a list of limits is never converted to its values: whenever the memory does not happen to hold them, no call with a list
returns an array of the list's numbers. -/
theorem C56_list_never_values (uninit : List Nat → Vec R) (xs : List (ListItem R)) (shape : List Nat) (dtype : String) (values : Vec R)
    (hmem : uninit shape ≠ values) (out : NdArr R) (h : numberListToNp uninit (.list xs) shape dtype = .ok out) : out.data ≠ values := by
  obtain ⟨-, rfl⟩ := (C56_list uninit xs shape dtype).2.2 out h
  exact hmem

/-- Anything else raises `TypeError`. -/
theorem C56_other (uninit : List Nat → Vec R) (shape : List Nat) (dtype : String) :
    numberListToNp uninit .other shape dtype = .error .typeError := rfl

/-- For the six-degrees-of-freedom spacecraft: per-axis limits given as a list of floats raise `TypeError`, although the
documentation of the dynamics (cwh/sixdof_model.py:421) offers a list. -/
theorem C56_spacecraft_float_lists [Field K] [LinearOrder K] (env : Env R) (uninit : List Nat → Vec R) (a : SixDofArgs R)
    (xs : List (ListItem R)) (y : Fl R) (hy : ListItem.float y ∈ xs) (h : a.angAccLimit = .list xs) :
    newSixDof env uninit a = .error .typeError := by
  have : abstractMethods mroSixDOF = [] := by decide
  simp only [newSixDof, instantiate, this, if_true, initSixDof, h, (C56_list uninit xs [3] "float64").1 ⟨y, hy⟩]
  rfl

/-- `[1, 2]` floats are rejected, the list `[3]` gives three uninitialised numbers, the list `[1, 2, 3]` is a shape of the wrong rank -/
example (uninit : List Nat → Vec b64) : numberListToNp uninit (.list [.float 1, .float 2]) [2] = .error .typeError ∧
    numberListToNp uninit (.list [.int 3]) [3] = .ok ⟨[3], "float64", uninit [3]⟩ ∧
    numberListToNp uninit (.list [.int 1, .int 2, .int 3]) [3] = .error .assertionError ∧
    numberListToNp uninit (.num 2) [3] = .ok ⟨[3], "float64", [2, 2, 2]⟩ := by
  refine ⟨rfl, rfl, rfl, rfl⟩

end SAD
