import Verif.Model.Flt

/-!
# The part of Python and NumPy used by the code: exceptions, 1-d arrays, broadcasting, matrices
-/

namespace SAD

/-- Python exceptions (classes only; messages are not modelled). -/
inductive PyErr where
  | assertionError
  | attributeError
  /-- not an exception: a loop without bound has not ended within its fuel (Model/SciPy) -/
  | diverges
  | importError
  | indexError
  | keyError
  | notImplementedError
  | overflowError
  | typeError
  | unboundLocalError
  | userWarning
  | valueError
  | zeroDivisionError
  deriving DecidableEq, Repr

/-- Result of a Python expression that may raise. -/
abbrev Py := Except PyErr

/-- 1-d NumPy array of floats. -/
abbrev Vec {K : Type} (R : Fmt K) := List (Fl R)

/-- 2-d NumPy array of floats, by rows, with the number of columns (so that shapes with zero rows make sense). -/
structure Mat {K : Type} (R : Fmt K) where
  rows : List (Vec R)
  ncols : Nat

/-- Array dtypes occurring in the code. -/
inductive DType where
  | f32
  | f64
  /-- int64, the dtype of an array made from a list of Python integers; its elements are integers -/
  | i64
  deriving DecidableEq

/-- A limit argument: a Python scalar or a 1-d array (`Union[float, np.ndarray]` in the source). -/
inductive Arr {K : Type} (R : Fmt K) where
  | scalar (x : Fl R)
  | vec (xs : Vec R)

section
variable {K : Type} {R : Fmt K}

/-- The operand a limit contributes to a ufunc whose other operand is a 1-d array: a scalar behaves like a length-1
array. -/
def Arr.toVec : Arr R → Vec R
  | .scalar x => [x]
  | .vec xs => xs

/-- The limit that applies to element `i` of an array after NumPy broadcasting (length-1 arrays apply to all). -/
def Arr.at : Arr R → Nat → Option (Fl R)
  | .scalar x, _ => some x
  | .vec [x], _ => some x
  | .vec xs, i => xs[i]?

/-- 1-d NumPy broadcasting of a binary element-wise operation: equal lengths pair up, a length-1 operand is stretched,
anything else raises `ValueError: operands could not be broadcast together`. -/
def bcast2 {α β γ : Type} (f : α → β → γ) (xs : List α) (ys : List β) : Py (List γ) :=
  if xs.length = ys.length then .ok (List.zipWith f xs ys)
  else match xs, ys with
    | [x], ys => .ok (ys.map (f x))
    | xs, [y] => .ok (xs.map (fun x => f x y))
    | _, _ => .error .valueError

/-- element `i` of an array after broadcasting -/
def bget {α : Type} (xs : List α) (i : Nat) : Option α :=
  match xs with
  | [x] => some x
  | xs => xs[i]?

/-- indexing `a[i]` with a non-negative index -/
def getIdx {α : Type} (xs : List α) (i : Nat) : Py α :=
  match xs[i]? with
  | some x => .ok x
  | none => .error .indexError

/-- assignment `a[i] = v` with a non-negative index -/
def setIdx {α : Type} (xs : List α) (i : Nat) (v : α) : Py (List α) :=
  if i < xs.length then .ok (xs.set i v) else .error .indexError

variable [Field K] [LinearOrder K]

/-- `a + b` on 1-d arrays -/
def vadd (a b : Vec R) : Py (Vec R) := bcast2 (· + ·) a b
/-- `a - b` on 1-d arrays -/
def vsub (a b : Vec R) : Py (Vec R) := bcast2 (· - ·) a b
/-- `s * a` for a scalar `s` -/
def vscale (s : Fl R) (a : Vec R) : Vec R := a.map (s * ·)

/-- whether `np.min_scalar_type` of a scalar is at most float32 (NumPy 1.26): it is not finite, or of magnitude below 3.4e38 -/
def Fl.fits32 : Fl R → Bool
  | .fin x => decide (-(34 * 10 ^ 37) < x ∧ x < 34 * 10 ^ 37)
  | _ => true

/-- an arithmetic operation of a float array of dtype `ty` and a float64 scalar `s` (NumPy 1.26 value-based casting): in float32 if the array
is float32 and the scalar fits, otherwise in float64; with the dtype of the result. Rounding a sum, product or quotient of two float32 numbers
to float64 first does not change its float32 value. -/
def scalarOp (op : Fl R → Fl R → Fl R) (ty : DType) (a : Vec R) (s : Fl R) : DType × Vec R :=
  if ty = .f32 ∧ s.fits32 then (.f32, a.map (fun x => (op x s.cast32).cast32)) else (.f64, a.map (fun x => op x s))

/-- `np.clip(a, lo, hi)` on a 1-d array (ternary ufunc, broadcasting all three operands). -/
def npClip (a : Vec R) (lo hi : Arr R) : Py (Vec R) := do
  let b ← bcast2 Fl.npMax a lo.toVec
  bcast2 Fl.npMin b hi.toVec

/-- `np.where(cond, a, b)`, broadcasting all three operands -/
def npWhere {α : Type} (c : List Bool) (a b : List α) : Py (List α) := do
  let ab ← bcast2 Prod.mk a b
  bcast2 (fun c ab => if c then ab.1 else ab.2) c ab

/-- one row of `M @ v`: products summed left to right (the BLAS summation order is not specified) -/
def dot (r v : Vec R) : Fl R := (List.zipWith (· * ·) r v).foldl (· + ·) 0

/-- `M @ v`; raises `ValueError` when the inner dimensions differ -/
def matVec (M : Mat R) (v : Vec R) : Py (Vec R) :=
  if M.ncols = v.length then .ok (M.rows.map (fun r => dot r v)) else .error .valueError

/-- `np.linspace(0, stop, n + 1)[1:]` for `n ≥ 1`: `k * (stop / n)` with the last element set to `stop` -/
def linspaceTail (stop : Fl R) (n : Nat) : Vec R :=
  (List.range n).map (fun k => if k + 1 = n then stop else Fl.fin ((k + 1 : Nat) : K) * (stop / Fl.fin (n : K)))

/-- Python `a / b` on Python floats: raises on zero division (NumPy scalars do not) -/
def pyDiv (a b : Fl R) : Py (Fl R) :=
  if Fl.eqb b (Fl.fin 0) then .error .zeroDivisionError else .ok (a / b)

end
end SAD
