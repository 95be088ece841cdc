import Mathlib.Algebra.Order.Field.Basic
import Mathlib.Algebra.Order.Floor.Ring
import Mathlib.Algebra.Order.Round
import Mathlib.Data.Rat.Floor

/-!
# Floating point data

The numeric layer under every definition of the model: NumPy/Python floats (`float64`, `float32` stored values).

A *format* `R : Fmt K` over an ordered field `K` fixes the rounding functions, the machine constant `np.pi` and libm.
`Fl R` is a floating point datum of that format: NaN, an infinity, or a finite value in `K`.
All arithmetic is "compute exactly in `K`, then round with the format", which is IEEE-754's definition.

Simplifications: there is no signed zero (so `1/(-0.0)` is `+inf`, and `0.0`/`-0.0` are one datum), NaN has no payload,
and a finite datum is any element of `K`, not only a representable one (the theorems then hold a fortiori for the
representable ones).
-/

namespace SAD

/-- Result of rounding a real: overflow to an infinity, or a finite value. -/
inductive Ext (K : Type) where
  | negOvf
  | posOvf
  | val (x : K)
  deriving DecidableEq

/-- A floating point format over `K`: rounding to `float64` and to `float32`, `np.pi`, and the libm functions
used by the code on finite arguments. -/
structure Fmt (K : Type) where
  rnd : K → Ext K
  rnd32 : K → Ext K
  pi : K
  sin : K → K
  cos : K → K
  tan : K → K
  asin : K → K
  sqrt : K → K
  /-- `x ** y` for `x > 0` -/
  pow : K → K → K

/-- A floating point datum of format `R`. -/
inductive Fl {K : Type} (R : Fmt K) where
  | nan
  | ninf
  | pinf
  | fin (x : K)
  deriving DecidableEq

namespace Fl

variable {K : Type} {R : Fmt K}

/-- Finite values and overflow results as data. -/
def ofExt : Ext K → Fl R
  | .negOvf => ninf
  | .posOvf => pinf
  | .val x => fin x

def isNan : Fl R → Bool
  | nan => true
  | _ => false

def isFin : Fl R → Bool
  | fin _ => true
  | _ => false

section ops
variable [Field K] [LinearOrder K]

/-- round an exact result to `float64` -/
def round (x : K) : Fl R := ofExt (R.rnd x)

/-- `a + b` -/
def add : Fl R → Fl R → Fl R
  | nan, _ => nan
  | _, nan => nan
  | fin a, fin b => round (a + b)
  | pinf, ninf => nan
  | ninf, pinf => nan
  | pinf, _ => pinf
  | _, pinf => pinf
  | ninf, _ => ninf
  | _, ninf => ninf

/-- `-a` (exact in IEEE-754) -/
def neg : Fl R → Fl R
  | nan => nan
  | ninf => pinf
  | pinf => ninf
  | fin a => fin (-a)

/-- `a - b` is `a + (-b)` in IEEE-754 -/
def sub (a b : Fl R) : Fl R := add a (neg b)

/-- infinity with the sign of a nonzero `a`; NaN for 0 -/
def infSign (a : K) : Fl R := if a = 0 then nan else if 0 < a then pinf else ninf

/-- `a * b` -/
def mul : Fl R → Fl R → Fl R
  | nan, _ => nan
  | _, nan => nan
  | fin a, fin b => round (a * b)
  | pinf, fin b => infSign b
  | fin a, pinf => infSign a
  | ninf, fin b => neg (infSign b)
  | fin a, ninf => neg (infSign a)
  | pinf, pinf => pinf
  | ninf, ninf => pinf
  | pinf, ninf => ninf
  | ninf, pinf => ninf

/-- NumPy `a / b` (no exception on zero division; zero is unsigned) -/
def div : Fl R → Fl R → Fl R
  | nan, _ => nan
  | _, nan => nan
  | fin a, fin b => if b = 0 then infSign a else round (a / b)
  | fin _, pinf => fin 0
  | fin _, ninf => fin 0
  | pinf, fin b => if b < 0 then ninf else pinf
  | ninf, fin b => if b < 0 then pinf else ninf
  | pinf, pinf => nan
  | pinf, ninf => nan
  | ninf, pinf => nan
  | ninf, ninf => nan

/-- `a < b`, false on NaN -/
def ltb : Fl R → Fl R → Bool
  | nan, _ => false
  | _, nan => false
  | fin a, fin b => decide (a < b)
  | ninf, ninf => false
  | ninf, _ => true
  | _, ninf => false
  | pinf, _ => false
  | _, pinf => true

/-- `a <= b`, false on NaN -/
def leb : Fl R → Fl R → Bool
  | nan, _ => false
  | _, nan => false
  | fin a, fin b => decide (a ≤ b)
  | ninf, _ => true
  | _, ninf => false
  | _, pinf => true
  | pinf, _ => false

/-- `a == b`, false on NaN -/
def eqb : Fl R → Fl R → Bool
  | fin a, fin b => decide (a = b)
  | ninf, ninf => true
  | pinf, pinf => true
  | _, _ => false

instance : Add (Fl R) := ⟨add⟩
instance : Neg (Fl R) := ⟨neg⟩
instance : Sub (Fl R) := ⟨sub⟩
instance : Mul (Fl R) := ⟨mul⟩
instance : Div (Fl R) := ⟨div⟩
instance : LT (Fl R) := ⟨fun a b => ltb a b = true⟩
instance : LE (Fl R) := ⟨fun a b => leb a b = true⟩
instance (a b : Fl R) : Decidable (a < b) := inferInstanceAs (Decidable (ltb a b = true))
instance (a b : Fl R) : Decidable (a ≤ b) := inferInstanceAs (Decidable (leb a b = true))
/-- Integer literals of the source (all small, hence exactly representable). -/
instance (n : Nat) : OfNat (Fl R) n := ⟨fin (n : K)⟩
/-- Decimal literals of the source, rounded to `float64`. -/
instance : OfScientific (Fl R) where
  ofScientific m s e := round (if s then (m : K) / (10 : K) ^ e else (m : K) * (10 : K) ^ e)

/-- element-wise maximum used by `np.clip` (`_NPY_MAX`: NaN in the first argument propagates) -/
def npMax (a b : Fl R) : Fl R := if a.isNan then a else if b < a then a else b

/-- element-wise minimum used by `np.clip` -/
def npMin (a b : Fl R) : Fl R := if a.isNan then a else if a < b then a else b

/-- `np.clip(a, lo, hi)` on elements: `_NPY_MIN(_NPY_MAX(a, lo), hi)` of NumPy 1.26 -/
def clip (a lo hi : Fl R) : Fl R := npMin (npMax a lo) hi

/-- Python's builtin `min(a, b)` -/
def pyMin (a b : Fl R) : Fl R := if b < a then b else a

/-- Python's builtin `max(a, b)` -/
def pyMax (a b : Fl R) : Fl R := if a < b then b else a

/-- `abs` -/
def abs : Fl R → Fl R
  | nan => nan
  | ninf => pinf
  | pinf => pinf
  | fin a => fin (if a < 0 then -a else a)

/-- conversion to `float32` -/
def cast32 : Fl R → Fl R
  | fin a => ofExt (R.rnd32 a)
  | x => x

/-- `np.pi` -/
def pi : Fl R := fin R.pi

/-- `np.sin` (invalid, hence NaN, at infinities) -/
def sin : Fl R → Fl R
  | fin a => fin (R.sin a)
  | _ => nan
/-- `np.cos` -/
def cos : Fl R → Fl R
  | fin a => fin (R.cos a)
  | _ => nan
/-- `np.tan` -/
def tan : Fl R → Fl R
  | fin a => fin (R.tan a)
  | _ => nan
/-- `np.sqrt` -/
def sqrt : Fl R → Fl R
  | fin a => if a < 0 then nan else fin (R.sqrt a)
  | pinf => pinf
  | _ => nan

/-- exact C `fmod` on finite values: the remainder of truncating division -/
def fmod [FloorRing K] (a b : K) : K := a - b * (if 0 ≤ a / b then (⌊a / b⌋ : K) else (⌈a / b⌉ : K))

/-- NumPy's `%` on floats (`npy_divmod`): `fmod`, then `+ b` (rounded) when the signs differ -/
def pyMod [FloorRing K] : Fl R → Fl R → Fl R
  | fin a, fin b =>
    if b = 0 then nan
    else
      let m := fmod a b
      if m = 0 then fin 0 else if (b < 0) ↔ (m < 0) then fin m else round (m + b)
  | fin a, pinf => if a < 0 then pinf else fin a
  | fin a, ninf => if 0 < a then ninf else fin a
  | _, _ => nan

end ops
end Fl

/-- Exact formats: no rounding. -/
class Exact {K : Type} (R : Fmt K) : Prop where
  rnd_eq : ∀ x, R.rnd x = .val x
  rnd32_eq : ∀ x, R.rnd32 x = .val x

end SAD
