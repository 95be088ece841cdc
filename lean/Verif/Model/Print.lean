import Verif.Model.Np
import Verif.Model.Binary
import Mathlib.Data.Int.Log
import Mathlib.Data.Nat.Digits.Defs

/-!
# `printmat` of `safe_autonomy_dynamics/external/aerobench/util.py`

Strings are lists of characters. The output is what has been written to standard output when the call ends, whether it returns or raises.
-/

namespace SAD.Aero

/-- A label argument of `printmat`: `None`, a string, a list (of which only the emptiness matters) or something else. -/
inductive LabelArg where
  | none
  | str (s : List Char)
  | list (isEmpty : Bool)
  | other
  deriving DecidableEq, Repr

/-- What `np.array(mat)` (`util.py` 145) makes of the first argument: a number, a vector or a matrix by rows. Simplification: arrays of dimension
above 2 and ragged lists (which `np.array` rejects) are not modelled. -/
inductive PrintArg (N : Type) where
  | scalar (x : N)
  | vector (v : List N)
  | matrix (rows : List (List N))

/-- `s.split(' ')` -/
def pySplit : List Char → List (List Char)
  | [] => [[]]
  | c :: cs =>
    if c = ' ' then [] :: pySplit cs
    else match pySplit cs with
      | [] => [[c]]
      | l :: ls => (c :: l) :: ls

/-- the format `: >w`, and that of numbers: blanks on the left up to width `w` -/
def alignRight (w : Nat) (s : List Char) : List Char := List.replicate (w - s.length) ' ' ++ s

/-- the format `: <w`: blanks on the right up to width `w` -/
def alignLeft (w : Nat) (s : List Char) : List Char := s ++ List.replicate (w - s.length) ' '

/-- `max(len(l) for l in labels)`; the list is never empty -/
def longest (labels : List (List Char)) : Nat := (labels.map List.length).foldl max 0

/-- `util.py` 169-170, 186-187: `label[:width]` if the label is longer than the width -/
def cutLabel (w : Nat) (l : List Char) : List Char := if l.length > w then l.take w else l

/-- `util.py` 154-161: the width of a column -/
def printWidth (rowLabels : Option (List (List Char))) (colLabels : List (List Char)) : Nat :=
  let width := max 7 (longest colLabels)
  let width := match rowLabels with
    | some ls => max width (longest ls)
    | none => width
  width + 1

/-- `util.py` 146-147, 180: the rows; a vector is a matrix of one row, and `mat.shape[0]` of a number raises -/
def printRows {N : Type} : PrintArg N → Option (List (List N))
  | .scalar _ => none
  | .vector v => some [v]
  | .matrix rows => some rows

/-- `util.py` 149, 163-174: the lines before the rows. Line 149 lacks the `f` that would put the label in: it prints the braces. -/
def printHead (rowLabels : Option (List (List Char))) (colLabels : List (List Char)) : List Char :=
  let w := printWidth rowLabels colLabels
  "{main_label} =".toList ++ ['\n'] ++ (match rowLabels with | some _ => alignLeft w [] | none => [])
    ++ colLabels.flatMap (fun l => alignRight w (cutLabel w l)) ++ ['\n']

/-- `util.py` 180-196: the row `r`. `text p x` is the text of the number `x` in the format `.pg`. -/
def printRow {N : Type} (text : Nat → N → List Char) (w : Nat) (label : Option (List Char)) (row : List N) : List Char :=
  (match label with | some l => alignLeft w (cutLabel w l) | none => [])
    ++ row.flatMap (fun x => alignRight w (text (w - 3) x)) ++ ['\n']

/-- `util.py` 135-196 (`printmat`): the output and the exception, if any -/
def printmat {N : Type} (text : Nat → N → List Char) (mat : PrintArg N) (mainLabel rowLabel colLabel : LabelArg) : List Char × Option PyErr :=
  let rowLabel := match rowLabel with
    | .list true => LabelArg.none
    | l => l
  match mainLabel, rowLabel, colLabel with
  | .str _, .none, .str c =>
    let cl := pySplit c
    match printRows mat with
    | none => (printHead none cl, some .indexError)
    | some rows => (printHead none cl ++ rows.flatMap (printRow text (printWidth none cl) none), none)
  | .str _, .str r, .str c =>
    let rl := pySplit r
    let cl := pySplit c
    match printRows mat with
    | none => (printHead (some rl) cl, some .indexError)
    | some rows =>
      if rl.length = rows.length then
        (printHead (some rl) cl ++ (rl.zip rows).flatMap (fun lr => printRow text (printWidth (some rl) cl) (some lr.1) lr.2), none)
      else (printHead (some rl) cl, some .assertionError)
  | _, _, _ => ([], some .assertionError)

/-! ## The format `.pg` of a float -/

/-- decimal digits of a positive number, the first one first -/
def decimals (d : Nat) : List Char := (Nat.digits 10 d).reverse.map Nat.digitChar

/-- trailing zeros are removed -/
def stripZeros (s : List Char) : List Char := (s.reverse.dropWhile (· = '0')).reverse

/-- the decimal point and what follows it, if anything -/
def fraction (s : List Char) : List Char :=
  match stripZeros s with
  | [] => []
  | t => '.' :: t

/-- the exponent, with a sign and at least two digits -/
def exponent (e : Int) : List Char :=
  (if e < 0 then '-' else '+') :: (if e.natAbs < 10 then ['0'] else []) ++ (if e = 0 then ['0'] else decimals e.natAbs)

/-- the `p` significant digits of a positive number, as an integer, and the exponent of the first: rounded to nearest, ties to even -/
def significant (p : Nat) (a : ℚ) : Nat × Int :=
  let e := Int.log 10 a
  let d := (roundEven (a * 10 ^ ((p : Int) - 1 - e))).toNat
  if d = 10 ^ p then (10 ^ (p - 1), e + 1) else (d, e)

/-- A positive number in the format `.pg` (Python's language reference, "Format Specification Mini-Language"): `p` significant digits without
trailing zeros, in scientific notation if the exponent is below -4 or at least `p`. -/
def positiveG (p : Nat) (a : ℚ) : List Char :=
  let (d, e) := significant p a
  let ds := decimals d
  if e < -4 ∨ (p : Int) ≤ e then ds.take 1 ++ fraction (ds.drop 1) ++ 'e' :: exponent e
  else if 0 ≤ e then ds.take (e.toNat + 1) ++ fraction (ds.drop (e.toNat + 1))
  else '0' :: fraction (List.replicate ((-e).toNat - 1) '0' ++ ds)

/-- `util.py` 194: the text of a float in the format `.pg`, for `p` positive. Signed zeros are identified, see `Model/Flt`: the text of `-0.0` is
`-0`, one character longer than here. -/
def floatG {R : Fmt ℚ} (p : Nat) : Fl R → List Char
  | .nan => "nan".toList
  | .pinf => "inf".toList
  | .ninf => "-inf".toList
  | .fin x => if x = 0 then ['0'] else if x < 0 then '-' :: positiveG p (-x) else positiveG p x

end SAD.Aero
