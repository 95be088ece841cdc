import Verif.Model.Flt
import Mathlib.Analysis.SpecialFunctions.Trigonometric.Inverse
import Mathlib.Analysis.SpecialFunctions.Pow.Real
import Mathlib.Analysis.Real.Pi.Bounds

/-!
# Concrete formats

* `realFmt`: exact real arithmetic, the idealisation used for the physics theorems;
* `ratFmt`: exact rational arithmetic, executable, with a rational stand-in for `pi`; its trigonometric functions are
  arbitrary constants and are not used;
* `gridFmt`: an executable rounding format (results rounded down to multiples of 1/8, overflow above 2^20) in which
  `float32` is coarser (multiples of 1/2): the witness that statements about rounding are not only about exact formats.
-/

namespace SAD

noncomputable def realFmt : Fmt ℝ where
  rnd := .val
  rnd32 := .val
  pi := Real.pi
  sin := Real.sin
  cos := Real.cos
  tan := Real.tan
  asin := Real.arcsin
  sqrt := Real.sqrt
  pow := fun x y => x ^ y

instance : Exact realFmt := ⟨fun _ => rfl, fun _ => rfl⟩

def ratFmt : Fmt ℚ where
  rnd := .val
  rnd32 := .val
  pi := 22 / 7
  sin := fun _ => 0
  cos := fun _ => 1
  tan := fun _ => 0
  asin := fun _ => 0
  sqrt := fun _ => 0
  pow := fun _ _ => 0

instance : Exact ratFmt := ⟨fun _ => rfl, fun _ => rfl⟩

/-- round down to a multiple of `1/n`, overflowing beyond `2^20` -/
def gridRnd (n : ℕ) (x : ℚ) : Ext ℚ :=
  if 2 ^ 20 < x then .posOvf else if x < -(2 ^ 20) then .negOvf else .val (⌊x * n⌋ / n)

def gridFmt : Fmt ℚ where
  rnd := gridRnd 8
  rnd32 := gridRnd 2
  pi := 25 / 8
  sin := fun _ => 0
  cos := fun _ => 1
  tan := fun _ => 0
  asin := fun _ => 0
  sqrt := fun _ => 0
  pow := fun _ _ => 0

end SAD
