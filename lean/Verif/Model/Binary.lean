import Verif.Model.Formats
import Mathlib.Data.Int.Log

/-!
# IEEE-754 binary64 and binary32 as formats over the rationals

Round to nearest, ties to even, with subnormals and overflow (signed zeros are identified, see `Verif.Model.Flt`).
Executable: used for concrete witnesses in real double precision.
-/

namespace SAD

/-- round to the nearest integer, ties to even -/
def roundEven (x : ℚ) : ℤ :=
  let f := ⌊x⌋
  if x - f < 1 / 2 then f else if 1 / 2 < x - f then f + 1 else if f % 2 = 0 then f else f + 1

/-- exponent of the binade of `x`, not below the exponent `emin` of the smallest normal binade -/
def binExp (emin : ℤ) (x : ℚ) : ℤ := max (Int.log 2 |x|) emin

/-- spacing of floats with `p` significant bits around `x` -/
def ulpOf (p : ℕ) (emin : ℤ) (x : ℚ) : ℚ := (2 : ℚ) ^ (binExp emin x - (p - 1))

/-- nearest multiple of the local spacing -/
def nearestBin (p : ℕ) (emin : ℤ) (x : ℚ) : ℚ := roundEven (x / ulpOf p emin x) * ulpOf p emin x

/-- rounding with overflow at `2 ^ (emax + 1)` -/
def rndBin (p : ℕ) (emin emax : ℤ) (x : ℚ) : Ext ℚ :=
  let y := nearestBin p emin x
  if (2 : ℚ) ^ (emax + 1) ≤ y then .posOvf else if y ≤ -(2 : ℚ) ^ (emax + 1) then .negOvf else .val y

/-- IEEE double precision (binary64 arithmetic, binary32 casts, `np.pi`) with an arbitrary libm -/
def b64Of (libm : Fmt ℚ) : Fmt ℚ :=
  { libm with
    rnd := rndBin 53 (-1022) 1023
    rnd32 := rndBin 24 (-126) 127
    pi := 884279719003555 / 281474976710656 }

/-- double precision with the dummy libm of `ratFmt` -/
def b64 : Fmt ℚ := b64Of ratFmt

end SAD
