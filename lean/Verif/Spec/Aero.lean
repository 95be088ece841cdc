import Verif.Model.Flt

/-!
# Specification vocabulary for the F-16 properties
-/

namespace SAD.Spec
open SAD

section
variable {K : Type} [Field K] [LinearOrder K] [FloorRing K]

/-- The grid cell used at `x` on the grid `start, start + step, …` with `n` points: the one containing `x`, or the first or
last one outside the grid. -/
def gridCell (start step : K) (n : ℕ) (x : K) : ℕ := min (n - 2) ⌊(x - start) / step⌋.toNat

/-- Textbook linear interpolation of the values `v` given on the grid `start, start + step, …`, with linear extrapolation
from the end cells. -/
def interp (start step : K) (v : List K) (x : K) : K :=
  let j := gridCell start step v.length x
  v.getD j 0 + (x - (start + step * j)) / step * (v.getD (j + 1) 0 - v.getD j 0)

/-- Bilinear interpolation of a table: `x` along the rows, `y` across them. -/
def interp2 (xs xstep : K) (ys ystep : K) (v : List (List ℚ)) (x y : K) : K :=
  interp ys ystep (v.map fun row => interp xs xstep (row.map (fun q : ℚ => (q : K))) x) y

/-- the tabulated value in row `j`, column `i` -/
def entry (a : List (List ℚ)) (j i : ℕ) : ℚ := (a.getD j []).getD i 0

/-- the sign of a number, as a number -/
def sgn (x : K) : K := if x < 0 then -1 else if x = 0 then 0 else 1

end

section
variable {K : Type} [Field K] [LinearOrder K]

/-- The source's constant `1.1` rounds to something in `[1, 2)` (true of binary64, where it is
`1.100000000000000088…`). -/
def ElevenTenths (R : Fmt K) : Prop :=
  ∃ c : K, R.rnd (11 / 10) = .val c ∧ 1 ≤ c ∧ c < 2 ∧ R.rnd c = .val c ∧ R.rnd (-c) = .val (-c) ∧ R.rnd 0 = .val 0

/-- The constants `0.2`, `0.1`, `0.0001`, `0.01` of the source round to numbers in `[0, 1]`. -/
def SmallConstants (R : Fmt K) : Prop :=
  ∀ q ∈ [(1 / 5 : K), 1 / 10, 1 / 10000, 1 / 100], ∃ c : K, R.rnd q = .val c ∧ 0 ≤ c ∧ c ≤ 1 ∧ R.rnd c = .val c

/-- `x` and its negation are numbers of the format -/
def Representable (R : Fmt K) (x : K) : Prop := R.rnd x = .val x ∧ R.rnd (-x) = .val (-x)

end

end SAD.Spec
