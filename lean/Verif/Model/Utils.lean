import Verif.Model.Np

/-!
# `safe_autonomy_dynamics/utils.py`
-/

namespace SAD

/-- A NumPy array: shape, name of its dtype, data in C order. -/
structure NdArr {K : Type} (R : Fmt K) where
  shape : List Nat
  dtype : String
  data : Vec R
  deriving DecidableEq

/-- an element of a Python list given as input: an `int`, or a `float` -/
inductive ListItem {K : Type} (R : Fmt K) where
  | int (i : Int)
  | float (x : Fl R)

/-- the `input_val` argument: a number (`float` or `int`, as a float), a list of numbers, an ndarray, anything else -/
inductive NumInput {K : Type} (R : Fmt K) where
  | num (x : Fl R)
  | list (xs : List (ListItem R))
  | array (a : NdArr R)
  | other

section
variable {K : Type} {R : Fmt K} [Field K] [LinearOrder K]

/-- a list taken as a shape by `np.ndarray(shape)`: floats are rejected with `TypeError`, negative dimensions with
`ValueError` -/
def asShape : List (ListItem R) → Py (List Nat)
  | [] => .ok []
  | .float _ :: _ => .error .typeError
  | .int i :: rest => do
    let s ← asShape rest
    if i < 0 then .error .valueError else pure (i.toNat :: s)

/-- `number_list_to_np(input_val, shape, dtype)` (utils.py:20-51). `np.ndarray(list, dtype)` allocates an array whose shape is
the list and whose contents are uninitialised memory, modelled by the arbitrary `uninit`. `float(x) * np.ones(shape, dtype)` has
dtype float64, except for dtype float32 where the product is rounded to float32, if the array has a dimension and `x` fits (NumPy 1.26 value-based
casting; float16, longdouble and complex dtypes are not modelled). -/
def numberListToNp (uninit : List Nat → Vec R) (input : NumInput R) (shape : List Nat) (dtype : String := "float64") : Py (NdArr R) := do
  let output ← match input with
    | .array a => pure a
    | .list xs => do
      let s ← asShape xs
      pure ⟨s, dtype, uninit s⟩
    | .num x =>
      if dtype = "float32" ∧ shape ≠ [] ∧ x.fits32 then pure ⟨shape, "float32", List.replicate shape.prod x.cast32⟩
      else pure ⟨shape, "float64", List.replicate shape.prod x⟩
    | .other => .error .typeError
  if output.shape = shape then
    if output.dtype = dtype then pure output else .error .assertionError
  else .error .assertionError

end
end SAD
