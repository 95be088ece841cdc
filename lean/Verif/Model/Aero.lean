import Verif.Model.Np

/-!
# The F-16 look-up tables, air data computer and engine of aerobench

`/repo/safe_autonomy_dynamics/external/aerobench/util.py` (`fix`, `sign`) and the functions of `lowlevel/` that
`subf16_model` is built from; `lowlevel/x.py` below is `/repo/safe_autonomy_dynamics/external/aerobench/lowlevel/x.py`.

Scalars are NumPy `float64` scalars, as they are when the functions are called by `subf16_model` on an `ndarray` state:
division by zero gives an infinity or NaN instead of raising, and a negative number to a fractional power is NaN.
-/

namespace SAD.Aero

open SAD

section ops
variable {K : Type} {R : Fmt K} [Field K] [LinearOrder K]

/-- a Python integer used in float arithmetic (all the integers converted by the code are below `2^53` in magnitude) -/
def flInt (i : ℤ) : Fl R := Fl.fin (i : K)

/-- a decimal constant of a `np.array(..., dtype=float)` table. Simplification: a negative literal is rounded as a whole
instead of negated after rounding (the same in round-to-nearest). -/
def flLit (q : ℚ) : Fl R := Fl.round (q : K)

/-- `x ** n` for an integer constant `n ≥ 1`: the exactly rounded power. Simplification: NumPy's `pow` is assumed
correctly rounded on integer exponents. -/
def powNat : Fl R → ℕ → Fl R
  | .fin a, n => Fl.round (a ^ n)
  | .pinf, _ => .pinf
  | .ninf, n => if n % 2 = 0 then .pinf else .ninf
  | .nan, _ => .nan

/-- `x ** y` on `float64` for a positive non-integer constant `y`: NaN on negative bases. -/
def powFl : Fl R → Fl R → Fl R
  | .fin a, .fin b => if a < 0 then .nan else if a = 0 then .fin 0 else .fin (R.pow a b)
  | .pinf, .fin _ => .pinf
  | .ninf, .fin _ => .pinf
  | _, _ => .nan

/-- `math.sqrt`: raises `ValueError` on negative numbers -/
def mathSqrt : Fl R → Py (Fl R)
  | .fin a => if a < 0 then .error .valueError else .ok (.fin (R.sqrt a))
  | .ninf => .error .valueError
  | .pinf => .ok .pinf
  | .nan => .ok .nan

/-- `math.sin`: raises `ValueError` at infinities -/
def mathSin : Fl R → Py (Fl R)
  | .fin a => .ok (.fin (R.sin a))
  | .nan => .ok .nan
  | _ => .error .valueError

/-- `math.cos`: raises `ValueError` at infinities -/
def mathCos : Fl R → Py (Fl R)
  | .fin a => .ok (.fin (R.cos a))
  | .nan => .ok .nan
  | _ => .error .valueError

/-- `math.asin`: raises `ValueError` outside `[-1, 1]` -/
def mathAsin : Fl R → Py (Fl R)
  | .fin a => if a < -1 ∨ 1 < a then .error .valueError else .ok (.fin (R.asin a))
  | .nan => .ok .nan
  | _ => .error .valueError

/-- Python indexing `xs[i]`: a negative index counts from the end, anything else out of range raises `IndexError`. -/
def pyGet {α : Type} (xs : List α) (i : ℤ) : Py α :=
  if 0 ≤ i then getIdx xs i.toNat
  else if 0 ≤ i + xs.length then getIdx xs (i + xs.length).toNat
  else .error .indexError

/-- a Python argument of `fix` -/
inductive PyArg {K : Type} (R : Fmt K) where
  | float (x : Fl R)
  | int (i : ℤ)
  | other

variable [FloorRing K]

/-- `safe_autonomy_dynamics/external/aerobench/util.py` 198-208 (`fix`) on a float: `int(floor(x))` or `int(ceil(x))`,
which raise `ValueError` on NaN and `OverflowError` on infinities. -/
def fix : Fl R → Py ℤ
  | .fin a => .ok (if 0 < a then ⌊a⌋ else ⌈a⌉)
  | .nan => .error .valueError
  | _ => .error .overflowError

/-- `safe_autonomy_dynamics/external/aerobench/util.py` 198-208 (`fix`) on any argument: `assert isinstance(ele, float)`.
-/
def fixArg : PyArg R → Py ℤ
  | .float x => fix x
  | _ => .error .assertionError

/-- `safe_autonomy_dynamics/external/aerobench/util.py` 211-221 (`sign`). -/
def sign (x : Fl R) : ℤ := if x < 0 then -1 else if Fl.eqb x 0 then 0 else 1

end ops

/-! ## Tables -/

/-- `safe_autonomy_dynamics/external/aerobench/lowlevel/cx.py` 25-34: the table as written in the source (before `.T`). -/
def cxTable : List (List ℚ) := [
    [-0.099, -0.081, -0.081, -0.063, -0.025, 0.044, 0.097, 0.113, 0.145, 0.167, 0.174, 0.166],
    [-0.048, -0.038, -0.040, -0.021, 0.016, 0.083, 0.127, 0.137, 0.162, 0.177, 0.179, 0.167],
    [-0.022, -0.020, -0.021, -0.004, 0.032, 0.094, 0.128, 0.130, 0.154, 0.161, 0.155, 0.138],
    [-0.040, -0.038, -0.039, -0.025, 0.006, 0.062, 0.087, 0.085, 0.100, 0.110, 0.104, 0.091],
    [-0.083, -0.073, -0.076, -0.072, -0.046, 0.012, 0.024, 0.025, 0.043, 0.053, 0.047, 0.040]]

/-- `safe_autonomy_dynamics/external/aerobench/lowlevel/cm.py` 24-33: the table as written in the source (before `.T`). -/
def cmTable : List (List ℚ) := [
    [0.205, 0.168, 0.186, 0.196, 0.213, 0.251, 0.245, 0.238, 0.252, 0.231, 0.198, 0.192],
    [0.081, 0.077, 0.107, 0.110, 0.110, 0.141, 0.127, 0.119, 0.133, 0.108, 0.081, 0.093],
    [-0.046, -0.020, -0.009, -0.005, -0.006, 0.010, 0.006, -0.001, 0.014, 0.000, -0.013, 0.032],
    [-0.174, -0.145, -0.121, -0.127, -0.129, -0.102, -0.097, -0.113, -0.087, -0.084, -0.069, -0.006],
    [-0.259, -0.202, -0.184, -0.193, -0.199, -0.150, -0.160, -0.167, -0.104, -0.076, -0.041, -0.005]]

/-- `safe_autonomy_dynamics/external/aerobench/lowlevel/cz.py` 25-25: the table as written in the source (before `.T`). -/
def czTable : List ℚ := [0.770, 0.241, -0.100, -0.415, -0.731, -1.053, -1.355, -1.646, -1.917, -2.120, -2.248, -2.229]

/-- `safe_autonomy_dynamics/external/aerobench/lowlevel/cl.py` 25-35: the table as written in the source (before `.T`). -/
def clTable : List (List ℚ) := [
    [0, 0, 0, 0, 0, 0, 0, 0, 0, 0, 0, 0],
    [-0.001, -0.004, -0.008, -0.012, -0.016, -0.022, -0.022, -0.021, -0.015, -0.008, -0.013, -0.015],
    [-0.003, -0.009, -0.017, -0.024, -0.030, -0.041, -0.045, -0.040, -0.016, -0.002, -0.010, -0.019],
    [-0.001, -0.010, -0.020, -0.030, -0.039, -0.054, -0.057, -0.054, -0.023, -0.006, -0.014, -0.027],
    [0.000, -0.010, -0.022, -0.034, -0.047, -0.060, -0.069, -0.067, -0.033, -0.036, -0.035, -0.035],
    [0.007, -0.010, -0.023, -0.034, -0.049, -0.063, -0.081, -0.079, -0.060, -0.058, -0.062, -0.059],
    [0.009, -0.011, -0.023, -0.037, -0.050, -0.068, -0.089, -0.088, -0.091, -0.076, -0.077, -0.076]]

/-- `safe_autonomy_dynamics/external/aerobench/lowlevel/cn.py` 25-35: the table as written in the source (before `.T`). -/
def cnTable : List (List ℚ) := [
    [0, 0, 0, 0, 0, 0, 0, 0, 0, 0, 0, 0],
    [0.018, 0.019, 0.018, 0.019, 0.019, 0.018, 0.013, 0.007, 0.004, -0.014, -0.017, -0.033],
    [0.038, 0.042, 0.042, 0.042, 0.043, 0.039, 0.030, 0.017, 0.004, -0.035, -0.047, -0.057],
    [0.056, 0.057, 0.059, 0.058, 0.058, 0.053, 0.032, 0.012, 0.002, -0.046, -0.071, -0.073],
    [0.064, 0.077, 0.076, 0.074, 0.073, 0.057, 0.029, 0.007, 0.012, -0.034, -0.065, -0.041],
    [0.074, 0.086, 0.093, 0.089, 0.080, 0.062, 0.049, 0.022, 0.028, -0.012, -0.002, -0.013],
    [0.079, 0.090, 0.106, 0.106, 0.096, 0.080, 0.068, 0.030, 0.064, 0.015, 0.011, -0.001]]

/-- `safe_autonomy_dynamics/external/aerobench/lowlevel/dlda.py` 25-36: the table as written in the source (before `.T`). -/
def dldaTable : List (List ℚ) := [
    [-0.041, -0.052, -0.053, -0.056, -0.050, -0.056, -0.082, -0.059, -0.042, -0.038, -0.027, -0.017],
    [-0.041, -0.053, -0.053, -0.053, -0.050, -0.051, -0.066, -0.043, -0.038, -0.027, -0.023, -0.016],
    [-0.042, -0.053, -0.052, -0.051, -0.049, -0.049, -0.043, -0.035, -0.026, -0.016, -0.018, -0.014],
    [-0.040, -0.052, -0.051, -0.052, -0.048, -0.048, -0.042, -0.037, -0.031, -0.026, -0.017, -0.012],
    [-0.043, -0.049, -0.048, -0.049, -0.043, -0.042, -0.042, -0.036, -0.025, -0.021, -0.016, -0.011],
    [-0.044, -0.048, -0.048, -0.047, -0.042, -0.041, -0.020, -0.028, -0.013, -0.014, -0.011, -0.010],
    [-0.043, -0.049, -0.047, -0.045, -0.042, -0.037, -0.003, -0.013, -0.010, -0.003, -0.007, -0.008]]

/-- `safe_autonomy_dynamics/external/aerobench/lowlevel/dldr.py` 25-36: the table as written in the source (before `.T`). -/
def dldrTable : List (List ℚ) := [
    [0.005, 0.017, 0.014, 0.010, -0.005, 0.009, 0.019, 0.005, -0.000, -0.005, -0.011, 0.008],
    [0.007, 0.016, 0.014, 0.014, 0.013, 0.009, 0.012, 0.005, 0.000, 0.004, 0.009, 0.007],
    [0.013, 0.013, 0.011, 0.012, 0.011, 0.009, 0.008, 0.005, -0.002, 0.005, 0.003, 0.005],
    [0.018, 0.015, 0.015, 0.014, 0.014, 0.014, 0.014, 0.015, 0.013, 0.011, 0.006, 0.001],
    [0.015, 0.014, 0.013, 0.013, 0.012, 0.011, 0.011, 0.010, 0.008, 0.008, 0.007, 0.003],
    [0.021, 0.011, 0.010, 0.011, 0.010, 0.009, 0.008, 0.010, 0.006, 0.005, 0.000, 0.001],
    [0.023, 0.010, 0.011, 0.011, 0.011, 0.010, 0.008, 0.010, 0.006, 0.014, 0.020, 0.000]]

/-- `safe_autonomy_dynamics/external/aerobench/lowlevel/dnda.py` 25-36: the table as written in the source (before `.T`). -/
def dndaTable : List (List ℚ) := [
    [0.001, -0.027, -0.017, -0.013, -0.012, -0.016, 0.001, 0.017, 0.011, 0.017, 0.008, 0.016],
    [0.002, -0.014, -0.016, -0.016, -0.014, -0.019, -0.021, 0.002, 0.012, 0.016, 0.015, 0.011],
    [-0.006, -0.008, -0.006, -0.006, -0.005, -0.008, -0.005, 0.007, 0.004, 0.007, 0.006, 0.006],
    [-0.011, -0.011, -0.010, -0.009, -0.008, -0.006, 0.000, 0.004, 0.007, 0.010, 0.004, 0.010],
    [-0.015, -0.015, -0.014, -0.012, -0.011, -0.008, -0.002, 0.002, 0.006, 0.012, 0.011, 0.011],
    [-0.024, -0.010, -0.004, -0.002, -0.001, 0.003, 0.014, 0.006, -0.001, 0.004, 0.004, 0.006],
    [-0.022, 0.002, -0.003, -0.005, -0.003, -0.001, -0.009, -0.009, -0.001, 0.003, -0.002, 0.001]]

/-- `safe_autonomy_dynamics/external/aerobench/lowlevel/dndr.py` 25-36: the table as written in the source (before `.T`). -/
def dndrTable : List (List ℚ) := [
    [-0.018, -0.052, -0.052, -0.052, -0.054, -0.049, -0.059, -0.051, -0.030, -0.037, -0.026, -0.013],
    [-0.028, -0.051, -0.043, -0.046, -0.045, -0.049, -0.057, -0.052, -0.030, -0.033, -0.030, -0.008],
    [-0.037, -0.041, -0.038, -0.040, -0.040, -0.038, -0.037, -0.030, -0.027, -0.024, -0.019, -0.013],
    [-0.048, -0.045, -0.045, -0.045, -0.044, -0.045, -0.047, -0.048, -0.049, -0.045, -0.033, -0.016],
    [-0.043, -0.044, -0.041, -0.041, -0.040, -0.038, -0.034, -0.035, -0.035, -0.029, -0.022, -0.009],
    [-0.052, -0.034, -0.036, -0.036, -0.035, -0.028, -0.024, -0.023, -0.020, -0.016, -0.010, -0.014],
    [-0.062, -0.034, -0.027, -0.028, -0.027, -0.027, -0.023, -0.023, -0.019, -0.009, -0.025, -0.010]]

/-- `safe_autonomy_dynamics/external/aerobench/lowlevel/dampp.py` 25-38: the table as written in the source (before `.T`). -/
def damppTable : List (List ℚ) := [
    [-0.267, -0.110, 0.308, 1.34, 2.08, 2.91, 2.76, 2.05, 1.50, 1.49, 1.83, 1.21],
    [0.882, 0.852, 0.876, 0.958, 0.962, 0.974, 0.819, 0.483, 0.590, 1.21, -0.493, -1.04],
    [-0.108, -0.108, -0.188, 0.110, 0.258, 0.226, 0.344, 0.362, 0.611, 0.529, 0.298, -2.27],
    [-8.80, -25.8, -28.9, -31.4, -31.2, -30.7, -27.7, -28.2, -29.0, -29.8, -38.3, -35.3],
    [-0.126, -0.026, 0.063, 0.113, 0.208, 0.230, 0.319, 0.437, 0.680, 0.100, 0.447, -0.330],
    [-0.360, -0.359, -0.443, -0.420, -0.383, -0.375, -0.329, -0.294, -0.230, -0.210, -0.120, -0.100],
    [-7.21, -0.540, -5.23, -5.26, -6.11, -6.64, -5.69, -6.00, -6.20, -6.40, -6.60, -6.00],
    [-0.380, -0.363, -0.378, -0.386, -0.370, -0.453, -0.550, -0.582, -0.595, -0.637, -1.02, -0.840],
    [0.061, 0.052, 0.052, -0.012, -0.013, -0.024, 0.050, 0.150, 0.130, 0.158, 0.240, 0.150]]

/-- `safe_autonomy_dynamics/external/aerobench/lowlevel/thrust.py` 25-31: the table as written in the source (before `.T`). -/
def thrustIdle : List (List ℚ) := [
    [1060, 670, 880, 1140, 1500, 1860],
    [635, 425, 690, 1010, 1330, 1700],
    [60, 25, 345, 755, 1130, 1525],
    [-1020, -170, -300, 350, 910, 1360],
    [-2700, -1900, -1300, -247, 600, 1100],
    [-3600, -1400, -595, -342, -200, 700]]

/-- `safe_autonomy_dynamics/external/aerobench/lowlevel/thrust.py` 33-39: the table as written in the source (before `.T`). -/
def thrustMil : List (List ℚ) := [
    [12680, 9150, 6200, 3950, 2450, 1400],
    [12680, 9150, 6313, 4040, 2470, 1400],
    [12610, 9312, 6610, 4290, 2600, 1560],
    [12640, 9839, 7090, 4660, 2840, 1660],
    [12390, 10176, 7750, 5320, 3250, 1930],
    [11680, 9848, 8050, 6100, 3800, 2310]]

/-- `safe_autonomy_dynamics/external/aerobench/lowlevel/thrust.py` 41-47: the table as written in the source (before `.T`). -/
def thrustMax : List (List ℚ) := [
    [20000, 15000, 10800, 7000, 4000, 2500],
    [21420, 15700, 11225, 7323, 4435, 2600],
    [22700, 16860, 12250, 8154, 5000, 2835],
    [24240, 18910, 13760, 9285, 5700, 3215],
    [26070, 21075, 15975, 11115, 6860, 3950],
    [28886, 23319, 18300, 13484, 8642, 5057]]

section lookup
variable {K : Type} {R : Fmt K} [Field K] [LinearOrder K] [FloorRing K]

/-- Neighbouring table indices of a value and its signed distance from the first, in grid units. -/
structure Cell {K : Type} (R : Fmt K) where
  /-- index of the cell boundary nearest to zero -/
  lo : ℤ
  /-- index of the other cell boundary -/
  hi : ℤ
  /-- `s - lo` in grid units, before the index offset is added -/
  d : Fl R

/-- The cell of a value `s` given in grid units: truncate, move off the last grid line on either side, and take the
neighbour in the direction of the remainder. The `if k <= -2 … if k >= 9 …`, `da = s - k`, `l = k + fix(1.1 * sign(da))`
lines of every table function, e.g. `lowlevel/cx.py` 37-45 (alpha) and 47-55 (elevator): `first` and `last` are the two
bounds tested, `off` the offset added to both indices (`lowlevel/cx.py` 56-59) minus the one subtracted again when
indexing. -/
def cellOf (first last off : ℤ) (s : Fl R) : Py (Cell R) := do
  let k ← fix s
  let k := if k ≤ first then first + 1 else k
  let k := if last ≤ k then last - 1 else k
  let d := s - flInt k
  let j ← fix ((1.1 : Fl R) * flInt (sign d))
  .ok ⟨k + off, k + j + off, d⟩

/-- the angle of attack cell, identical in all table functions: `lowlevel/cx.py` 36-45, 56-57; `lowlevel/cm.py` 35-45;
`lowlevel/cz.py` 27-39; `lowlevel/cl.py` 37-47; `lowlevel/cn.py` 37-47; `lowlevel/dampp.py` 40-52; `lowlevel/dlda.py` 38-47;
`lowlevel/dldr.py` 38-47; `lowlevel/dnda.py` 38-48; `lowlevel/dndr.py` 38-47 -/
def alphaCell (alpha : Fl R) : Py (Cell R) := cellOf (-2) 9 2 (0.2 * alpha)

/-- the elevator cell: `lowlevel/cx.py` 46-55, 58-59; `lowlevel/cm.py` 46-60 -/
def elCell (el : Fl R) : Py (Cell R) := cellOf (-2) 2 2 (el / 12)

/-- the sideslip cell of the control effectiveness tables: `lowlevel/dlda.py` 48-61, `lowlevel/dldr.py` 48-62,
`lowlevel/dnda.py` 49-62, `lowlevel/dndr.py` 48-61 -/
def betaCell (beta : Fl R) : Py (Cell R) := cellOf (-3) 3 3 (0.1 * beta)

/-- the absolute sideslip cell: `lowlevel/cl.py` 48-61, `lowlevel/cn.py` 48-62 (`m == 0` is moved to 1, `m >= 6` to 5) -/
def absBetaCell (beta : Fl R) : Py (Cell R) := do
  let s := (0.2 : Fl R) * beta.abs
  let m ← fix s
  let m := if m = 0 then 1 else m
  let m := if 6 ≤ m then 5 else m
  let d := s - flInt m
  let j ← fix ((1.1 : Fl R) * flInt (sign d))
  .ok ⟨m, m + j, d⟩

/-- `a[k, m]` where `a` is the transpose of the source table -/
def tget (a : List (List ℚ)) (k m : ℤ) : Py (Fl R) := do
  let row ← pyGet a m
  let q ← pyGet row k
  .ok (flLit q)

/-- the two-way look-up: `lowlevel/cx.py` 60-64, `lowlevel/cm.py` 61-66, `lowlevel/cl.py` 62-66, `lowlevel/cn.py` 63-68,
`lowlevel/dlda.py` 62-67, `lowlevel/dldr.py` 63-69, `lowlevel/dnda.py` 63-68, `lowlevel/dndr.py` 62-66 -/
def lookup2 (a : List (List ℚ)) (ca cm : Cell R) : Py (Fl R) := do
  let t ← tget a ca.lo cm.lo
  let u ← tget a ca.lo cm.hi
  let t' ← tget a ca.hi cm.lo
  let v := t + ca.d.abs * (t' - t)
  let u' ← tget a ca.hi cm.hi
  let w := u + ca.d.abs * (u' - u)
  .ok (v + (w - v) * cm.d.abs)

/-- the one-way look-up: `lowlevel/cz.py` 40, and each damping coefficient in `lowlevel/dampp.py` 56-57 -/
def lookup1 (a : List ℚ) (ca : Cell R) : Py (Fl R) := do
  let t ← pyGet a ca.lo
  let t' ← pyGet a ca.hi
  .ok (flLit t + ca.d.abs * (flLit t' - flLit t))

/-- `lowlevel/cx.py` 22-66 -/
def cx (alpha el : Fl R) : Py (Fl R) := do
  let ca ← alphaCell alpha
  let ce ← elCell el
  lookup2 cxTable ca ce

/-- `lowlevel/cm.py` 21-66 -/
def cm (alpha el : Fl R) : Py (Fl R) := do
  let ca ← alphaCell alpha
  let ce ← elCell el
  lookup2 cmTable ca ce

/-- `lowlevel/cy.py` 17-20 -/
def cy (beta ail rdr : Fl R) : Fl R := -(0.02 : Fl R) * beta + 0.021 * (ail / 20) + 0.086 * (rdr / 30)

/-- `lowlevel/cz.py` 22-42 -/
def cz (alpha beta el : Fl R) : Py (Fl R) := do
  let ca ← alphaCell alpha
  let s ← lookup1 czTable ca
  .ok (s * (1 - powNat (beta / 57.3) 2) - 0.19 * (el / 25))

/-- `lowlevel/cl.py` 22-68 -/
def cl (alpha beta : Fl R) : Py (Fl R) := do
  let ca ← alphaCell alpha
  let cb ← absBetaCell beta
  let dum ← lookup2 clTable ca cb
  .ok (dum * flInt (sign beta))

/-- `lowlevel/cn.py` 22-70 -/
def cn (alpha beta : Fl R) : Py (Fl R) := do
  let ca ← alphaCell alpha
  let cb ← absBetaCell beta
  let dum ← lookup2 cnTable ca cb
  .ok (dum * flInt (sign beta))

/-- `lowlevel/dlda.py` 22-67 -/
def dlda (alpha beta : Fl R) : Py (Fl R) := do
  let ca ← alphaCell alpha
  let cb ← betaCell beta
  lookup2 dldaTable ca cb

/-- `lowlevel/dldr.py` 22-69 -/
def dldr (alpha beta : Fl R) : Py (Fl R) := do
  let ca ← alphaCell alpha
  let cb ← betaCell beta
  lookup2 dldrTable ca cb

/-- `lowlevel/dnda.py` 22-68 -/
def dnda (alpha beta : Fl R) : Py (Fl R) := do
  let ca ← alphaCell alpha
  let cb ← betaCell beta
  lookup2 dndaTable ca cb

/-- `lowlevel/dndr.py` 22-66 -/
def dndr (alpha beta : Fl R) : Py (Fl R) := do
  let ca ← alphaCell alpha
  let cb ← betaCell beta
  lookup2 dndrTable ca cb

/-- `lowlevel/dampp.py` 22-59 -/
def dampp (alpha : Fl R) : Py (Vec R) := do
  let ca ← alphaCell alpha
  damppTable.mapM (fun row => lookup1 row ca)

/-- one of the three blends of `lowlevel/thrust.py`: 75-77 (`b`), 80-82 (`a`), 85-87 (`c`). -/
def blend (a : List (List ℚ)) (i m : ℤ) (dh cdh dm : Fl R) : Py (Fl R) := do
  let x00 ← tget a i m
  let x10 ← tget a (i + 1) m
  let s := x00 * cdh + x10 * dh
  let x01 ← tget a i (m + 1)
  let x11 ← tget a (i + 1) (m + 1)
  let t := x01 * cdh + x11 * dh
  .ok (s + (t - s) * dm)

/-- `lowlevel/thrust.py` 22-90 -/
def thrust (power alt rmach : Fl R) : Py (Fl R) := do
  let alt := if alt < 0 then (0.01 : Fl R) else alt
  let h := (0.0001 : Fl R) * alt
  let i ← fix h
  let i := if 5 ≤ i then 4 else i
  let dh := h - flInt i
  let rm := 5 * rmach
  let m ← fix rm
  let m := if 5 ≤ m then 4 else if m ≤ 0 then 0 else m
  let dm := rm - flInt m
  let cdh := 1 - dh
  let tmil ← blend thrustMil i m dh cdh dm
  if power < 50 then do
    let tidl ← blend thrustIdle i m dh cdh dm
    .ok (tidl + (tmil - tidl) * power * 0.02)
  else do
    let tmax ← blend thrustMax i m dh cdh dm
    .ok (tmil + (tmax - tmil) * (power - 50) * 0.02)

/-- `lowlevel/adc.py` 19-48: Mach number and dynamic pressure. `ro * tfac**4.14` is NaN above the altitude where `tfac`
is negative (with Python floats it would be a complex number). -/
def adc (vt alt : Fl R) : Py (Fl R × Fl R) := do
  let ro : Fl R := 2.377e-3
  let tfac := 1 - (0.703e-5 : Fl R) * alt
  let t : Fl R := if (35000 : Fl R) ≤ alt then 390 else 519 * tfac
  let rho := ro * powFl tfac 4.14
  let a ← mathSqrt (1.4 * 1716.3 * t)
  let amach := vt / a
  let qbar := 0.5 * rho * vt * vt
  .ok (amach, qbar)

/-- `lowlevel/tgear.py` 17-25 -/
def tgear (thtl : Fl R) : Fl R := if thtl ≤ 0.77 then 64.94 * thtl else 217.38 * thtl - 117.38

/-- `lowlevel/rtau.py` 18-28 -/
def rtau (dp : Fl R) : Fl R := if dp ≤ 25 then 1 else if (50 : Fl R) ≤ dp then 0.1 else 1.9 - 0.036 * dp

/-- `lowlevel/pdot.py` 20-40: the power derivative at actual power `p3` and commanded power `p1` -/
def pdot (p3 p1 : Fl R) : Fl R :=
  if (50 : Fl R) ≤ p1 then
    if (50 : Fl R) ≤ p3 then 5 * (p1 - p3) else rtau (60 - p3) * (60 - p3)
  else
    if (50 : Fl R) ≤ p3 then 5 * (40 - p3) else rtau (p1 - p3) * (p1 - p3)

end lookup
end SAD.Aero
