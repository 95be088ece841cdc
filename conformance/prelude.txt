import Verif.Model.Binary
import Verif.Model.Rk
import Verif.Model.SixDof
import Verif.Model.Dubins
import Verif.Model.Rotational
import Verif.Model.Cwh
import Verif.Model.Units
open SAD
def ratToFloat (x : ℚ) : Float := Float.ofInt x.num / Float.ofNat x.den
def floatToRat (f : Float) : ℚ :=
  let (m, e) := f.frExp
  let mi : Int := (m * 9007199254740992.0).toInt64.toInt
  (mi : ℚ) * (2:ℚ) ^ (e - 53)
def lift (g : Float → Float) : ℚ → ℚ := fun x => floatToRat (g (ratToFloat x))
def libm : Fmt ℚ := { ratFmt with sin := lift Float.sin, cos := lift Float.cos, tan := lift Float.tan, asin := lift Float.asin, sqrt := lift Float.sqrt, pow := fun x y => floatToRat (Float.pow (ratToFloat x) (ratToFloat y)) }
abbrev R : Fmt ℚ := b64Of libm
def degU : PUnit ℚ := ⟨(PUnit.radians : PUnit ℚ).dim, R.pi / 180⟩
def env : Env R := rkEnv dopri (fun _ _ _ => List.replicate 50 1)
def idx (e : Entity R) (i : Nat) : Py (Vec R) := do pure [← getIdx e.state i]
def showFl : Fl R → String | .nan => "nan" | .ninf => "-inf" | .pinf => "inf" | .fin x => toString (ratToFloat x)
def showV (v : Vec R) : String := toString (v.map showFl)
def prep (e : Py (Entity R)) (st : Option (Vec R)) : Py (Entity R) := do
  let e ← e
  match st with | none => pure e | some s => pure { e with state := s }
def runN (e : Entity R) (a : Action R) : Nat → Py (Entity R)
  | 0 => .ok e
  | n+1 => let r := e.step env (.fin 1) a
    match r.outcome with | .error x => .error x | .ok _ => runN r.entity a n
def absq (x : ℚ) : ℚ := if x < 0 then -x else x
def close (eb pb : ℚ) (ang : Bool) : Fl R → Fl R → Bool
  | .fin a, .fin b =>
    let d := a - b
    let tp := 2 * R.pi
    let d := if ang then d - tp * ⌊(d + R.pi) / tp⌋ else d
    decide (absq d ≤ absq a * pb + eb)
  | .nan, _ => false
  | a, b => decide (a = b)
def runCase (name : String) (e : Py (Entity R)) (st : Option (Vec R)) (a : Action R) (n : Nat) (eb pb : ℚ)
    (chk : List (String × (Entity R → Py (Vec R)) × Vec R × Bool)) : IO Unit := do
  match prep e st >>= fun e => runN e a n with
  | .error x => IO.println s!"ERR {name} {repr x}"
  | .ok e =>
    let mut bad := []
    for (k, f, want, ang) in chk do
      match f e with
      | .error x => bad := bad ++ [s!"{k}: error {repr x}"]
      | .ok got =>
        let ok := got.length == want.length && (List.zipWith (close eb pb ang) got want).all id
        if !ok then bad := bad ++ [s!"{k}: got {showV got} want {showV want}"]
    if bad.isEmpty then IO.println s!"OK {name}" else IO.println s!"BAD {name} {bad}"
def euler : EulerRoundTrip R := fun a b c => [a, b, c]
def ident : Vec R := [0,0,0]
def runEq (name : String) (a : Py (Entity R)) (sa : Option (Vec R)) (b : Py (Entity R)) (sb : Option (Vec R))
   (f : Entity R → Option (Entity R) → Py Bool) (same want : Bool) : IO Unit := do
  match (do let a ← prep a (sa.map (fun v => List.map Fl.cast32 v)); let b ← prep b (sb.map (fun v => List.map Fl.cast32 v)); f a (if same then some b else none)) with
  | .error x => IO.println s!"ERR {name} {repr x}"
  | .ok r => IO.println (if r == want then s!"OK {name}" else s!"BAD {name} got {r}")
