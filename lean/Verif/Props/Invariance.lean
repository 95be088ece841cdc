import Verif.Lemmas.Base
import Verif.Props.Moments

/-! # C77, C78: what the rates of the F-16 do not depend on; symmetric flight -/

set_option linter.unusedSectionVars false

namespace SAD.Aero
open SAD Spec

section
variable {K : Type} {R : Fmt K} [Field K] [LinearOrder K] [FloorRing K]

/-- Two results of `subf16_model` agree except for the rates listed. -/
def AgreeExcept (is : List ℕ) (a b : SubOut R) : Prop :=
  (∀ i, i ∉ is → a.xd[i]? = b.xd[i]?) ∧ a.nz = b.nz ∧ a.ny = b.ny ∧ a.az = b.az ∧ a.ay = b.ay

/-- Both calls raise the same exception, or neither raises and the results agree except for the rates listed. -/
def SameExcept (is : List ℕ) (a b : Py (SubOut R)) : Prop :=
  match a, b with
  | .ok a, .ok b => AgreeExcept is a b
  | .error e, .error e' => e = e'
  | _, _ => False

theorem sameExcept_bind {α : Type} (is : List ℕ) (x : Py α) (f g : α → Py (SubOut R)) (h : ∀ a, SameExcept is (f a) (g a)) :
    SameExcept is (x >>= f) (x >>= g) := by
  cases x with
  | error e => exact rfl
  | ok a => exact h a

theorem sameExcept_refl (is : List ℕ) (a : Py (SubOut R)) : SameExcept is a a := by
  cases a with
  | error e => exact rfl
  | ok a => exact ⟨fun _ _ => rfl, rfl, rfl, rfl, rfl⟩

/-- C77: the rates do not depend on where the aircraft is horizontally, in any arithmetic. -/
theorem C77_position (vt a b phi theta psi p q r n e n' e' alt pw : Fl R) (u : Vec R) (model : String) (adj : Bool) :
    subf16 [vt, a, b, phi, theta, psi, p, q, r, n, e, alt, pw] u model adj =
      subf16 [vt, a, b, phi, theta, psi, p, q, r, n', e', alt, pw] u model adj := by
  unfold subf16
  split_ifs
  · rcases u with _ | ⟨u0, _ | ⟨u1, _ | ⟨u2, _ | ⟨u3, _ | ⟨u4, u⟩⟩⟩⟩⟩ <;> rfl
  · rfl

/-- C77: the throttle acts only on the rate of the engine power, in any arithmetic. -/
theorem C77_throttle (x : Vec R) (t t' el ail rdr : Fl R) (model : String) (adj : Bool) :
    SameExcept [12] (subf16 x [t, el, ail, rdr] model adj) (subf16 x [t', el, ail, rdr] model adj) := by
  unfold subf16
  split_ifs
  · split
    next => 
      rename_i e
      cases e
      refine sameExcept_bind _ _ _ _ fun mq => ?_
      refine sameExcept_bind _ _ _ _ fun th => ?_
      refine sameExcept_bind _ _ _ _ fun c => ?_
      refine sameExcept_bind _ _ _ _ fun c => ?_
      unfold stateEquations
      repeat refine sameExcept_bind _ _ _ _ fun _ => ?_
      refine ⟨fun i hi => ?_, rfl, rfl, rfl, rfl⟩
      rcases lt_trichotomy i 12 with h | h | h
      · interval_cases i <;> rfl
      · exact absurd (by simp [h]) hi
      · rw [List.getElem?_eq_none (by simpa using Nat.succ_le_of_lt h), List.getElem?_eq_none (by simpa using Nat.succ_le_of_lt h)]
    next h =>
      split
      next e => cases e; exact absurd rfl (h _ _ _ _ _ _ _ _ _ _ _ _ _ _ _ _ _ rfl)
      next => exact rfl
  · exact rfl

/-- C77: the heading acts only on the direction in which the position moves, in any arithmetic. -/
theorem C77_heading (vt a b phi theta p q r n e alt pw : Fl R) (psi psi' : K) (u : Vec R) (model : String) (adj : Bool) :
    SameExcept [9, 10] (subf16 [vt, a, b, phi, theta, .fin psi, p, q, r, n, e, alt, pw] u model adj)
      (subf16 [vt, a, b, phi, theta, .fin psi', p, q, r, n, e, alt, pw] u model adj) := by
  unfold subf16
  split_ifs
  · rcases u with _ | ⟨u0, _ | ⟨u1, _ | ⟨u2, _ | ⟨u3, _ | ⟨u4, u⟩⟩⟩⟩⟩
    · exact rfl
    · exact rfl
    · exact rfl
    · exact rfl
    · refine sameExcept_bind _ _ _ _ fun mq => ?_
      refine sameExcept_bind _ _ _ _ fun th => ?_
      refine sameExcept_bind _ _ _ _ fun c => ?_
      refine sameExcept_bind _ _ _ _ fun c => ?_
      unfold stateEquations
      refine sameExcept_bind _ _ _ _ fun _ => ?_
      refine sameExcept_bind _ _ _ _ fun _ => ?_
      refine sameExcept_bind _ _ _ _ fun _ => ?_
      refine sameExcept_bind _ _ _ _ fun _ => ?_
      refine sameExcept_bind _ _ _ _ fun _ => ?_
      refine sameExcept_bind _ _ _ _ fun _ => ?_
      refine sameExcept_bind _ _ _ _ fun _ => ?_
      refine sameExcept_bind _ _ _ _ fun _ => ?_
      simp only [mathSin, mathCos, bind, Except.bind]
      refine sameExcept_bind _ _ _ _ fun _ => ?_
      refine ⟨fun i hi => ?_, rfl, rfl, rfl, rfl⟩
      by_cases h : i < 13
      · interval_cases i
        all_goals first | rfl | exact absurd (by simp) hi
      · rw [List.getElem?_eq_none (by simpa using h), List.getElem?_eq_none (by simpa using h)]
    · exact rfl
  · exact rfl

/-- C77: the rate of the engine power is that of the engine lag between the present power and the power the throttle asks for, and the
integration state is unaffected by anything else, in any arithmetic. -/
theorem C77_engine (x : List (Fl R)) (pw t el ail rdr : Fl R) (hx : x.length = 12) (model : String) (adj : Bool) {out : SubOut R}
    (e : subf16 (x ++ [pw]) [t, el, ail, rdr] model adj = .ok out) : out.xd[12]? = some (pdot pw (tgear t)) := by
  match x, hx with
  | [vt, a, b, phi, theta, psi, p, q, r, n, ee, alt], _ =>
    unfold subf16 at e
    split_ifs at e
    simp only [List.cons_append, List.nil_append, Except.bind_ok] at e
    obtain ⟨_, _, _, _, _, _, _, _, e⟩ := e
    unfold stateEquations at e
    simp only [Except.bind_ok] at e
    obtain ⟨_, _, _, _, _, _, _, _, _, _, _, _, _, _, _, _, _, _, _, _, _, _, e⟩ := e
    cases e
    rfl

end

open Real

/-- C77: turning the heading by an angle turns the horizontal velocity by that angle (over the reals). -/
theorem C77_turned (m : AeroModel) (s : Flight ℝ) (c : Controls ℝ) (adj : Bool) (δ : ℝ) (h : Flyable s) {out out' : SubOut realFmt}
    {rates rates' : List ℝ}
    (e : subf16 (toVec s.toList : Vec realFmt) (toVec c.toList) m.name adj = .ok out) (hr : out.xd = toVec rates)
    (e' : subf16 (toVec { s with psi := s.psi + δ }.toList : Vec realFmt) (toVec c.toList) m.name adj = .ok out') (hr' : out'.xd = toVec rates') :
    rates'.getD 9 0 = cos δ * rates.getD 9 0 - sin δ * rates.getD 10 0 ∧
    rates'.getD 10 0 = sin δ * rates.getD 9 0 + cos δ * rates.getD 10 0 := by
  have h' : Flyable { s with psi := s.psi + δ } := ⟨h.moving, h.forward, h.tilted, h.air⟩
  obtain ⟨pd, rfl⟩ := rates_unique (s := s) h e hr
  obtain ⟨pd', rfl⟩ := rates_unique (s := { s with psi := s.psi + δ }) h' e' hr'
  change (kRates m { s with psi := s.psi + δ } c adj pd').d9 = cos δ * (kRates m s c adj pd).d9 - sin δ * (kRates m s c adj pd).d10 ∧
    (kRates m { s with psi := s.psi + δ } c adj pd').d10 = sin δ * (kRates m s c adj pd).d9 + cos δ * (kRates m s c adj pd).d10
  simp only [kRates, kEquations, sin_add, cos_add]
  constructor <;> ring

/-- The aircraft flies symmetrically: wings level, no sideslip, neither rolling nor yawing, aileron and rudder neutral. -/
structure Symmetric (s : Flight ℝ) (c : Controls ℝ) : Prop where
  beta : s.beta = 0
  phi : s.phi = 0
  p : s.p = 0
  r : s.r = 0
  ail : c.ail = 0
  rdr : c.rdr = 0

theorem limitedRad_zero (pi lo hi : ℝ) (hp : 0 < pi) (hl : lo < 0) (hh : 0 < hi) : limitedRad pi lo hi 0 = 0 := by
  unfold limitedRad
  rw [zero_mul, zero_div, min_eq_right (by positivity), max_eq_right]
  have := mul_neg_of_neg_of_pos hl hp
  linarith

/-- without sideslip, roll, yaw and lateral controls there is no lateral force or moment -/
theorem coefs_symmetric (m : AeroModel) (s : Flight ℝ) (c : Controls ℝ) (h : Symmetric s c) :
    (coefs π m s c).cy = 0 ∧ (coefs π m s c).cl = 0 ∧ (coefs π m s c).cn = 0 := by
  have l30 := limitedRad_zero π (-30) 30 Real.pi_pos (by norm_num) (by norm_num)
  have l21 := limitedRad_zero π (-21.5) 21.5 Real.pi_pos (by norm_num) (by norm_num)
  cases m
  · simp [coefs, total, stevens, h.beta, h.p, h.r, h.ail, h.rdr, sgn]
  · simp [coefs, total, morelli, h.beta, h.p, h.r, h.ail, h.rdr, l30, l21, poly, tabCl0, tabCn0]

/-- C78: symmetric flight without pitch rate stays symmetric: sideslip, roll and yaw have zero rates, and the heading stays. -/
theorem C78_symmetric (m : AeroModel) (s : Flight ℝ) (c : Controls ℝ) (adj : Bool) (h : Flyable s) (hs : Symmetric s c) (hq : s.q = 0)
    {out : SubOut realFmt} {rates : List ℝ}
    (e : subf16 (toVec s.toList : Vec realFmt) (toVec c.toList) m.name adj = .ok out) (hr : out.xd = toVec rates) :
    rates.getD 2 0 = 0 ∧ rates.getD 3 0 = 0 ∧ rates.getD 5 0 = 0 ∧ rates.getD 6 0 = 0 ∧ rates.getD 8 0 = 0 ∧ out.ny = .fin 0 := by
  obtain ⟨cy, cl, cn⟩ := coefs_symmetric m s c hs
  obtain ⟨pd, hpd, e0⟩ := subf16_real m s c adj h
  rw [e0] at e
  cases e
  have hrr : rates = (kRates m s c adj pd).xd := List.map_injective_iff.2 (fun _ _ h => Fl.fin.inj h) hr.symm
  subst hrr
  change (kRates m s c adj pd).d2 = 0 ∧ (kRates m s c adj pd).d3 = 0 ∧ (kRates m s c adj pd).d5 = 0 ∧ (kRates m s c adj pd).d6 = 0 ∧
    (kRates m s c adj pd).d8 = 0 ∧ (Fl.fin (kRates m s c adj pd).ny : Fl realFmt) = .fin 0
  simp only [kRates, kEquations, cy, cl, cn, hs.beta, hs.phi, hs.p, hs.r, hq, sin_zero]
  cases adj <;> simp

/-- C78: with a pitch rate the spinning engine makes a symmetrically flying aircraft roll and yaw. -/
theorem C78_gyroscopic (m : AeroModel) (s : Flight ℝ) (c : Controls ℝ) (adj : Bool) (h : Flyable s) (hs : Symmetric s c)
    {out : SubOut realFmt} {rates : List ℝ}
    (e : subf16 (toVec s.toList : Vec realFmt) (toVec c.toList) m.name adj = .ok out) (hr : out.xd = toVec rates) :
    rates.getD 2 0 = 0 ∧ rates.getD 3 0 = 0 ∧ rates.getD 5 0 = 0 ∧ rates.getD 6 0 = 1.642e-6 * 160 * s.q ∧
      rates.getD 8 0 = 1.587e-5 * 160 * s.q := by
  obtain ⟨cy, cl, cn⟩ := coefs_symmetric m s c hs
  obtain ⟨pd, rfl⟩ := rates_unique (s := s) h e hr
  change (kRates m s c adj pd).d2 = 0 ∧ (kRates m s c adj pd).d3 = 0 ∧ (kRates m s c adj pd).d5 = 0 ∧ (kRates m s c adj pd).d6 = _ ∧
    (kRates m s c adj pd).d8 = _
  simp only [kRates, kEquations, cy, cl, cn, hs.beta, hs.phi, hs.p, hs.r, sin_zero]
  refine ⟨by simp, by simp, by simp, by ring, by ring⟩

/-- level flight at 502 ft/s is symmetric, also while pulling up -/
example : Symmetric cruise ⟨0.14, -0.75, 0, 0⟩ ∧ Flyable cruise ∧ cruise.q = 0 := ⟨⟨rfl, rfl, rfl, rfl, rfl, rfl⟩, cruise_flyable, rfl⟩
example : Symmetric { cruise with q := 0.1 } ⟨0.14, -0.75, 0, 0⟩ ∧ Flyable { cruise with q := 0.1 } :=
  ⟨⟨rfl, rfl, rfl, rfl, rfl, rfl⟩, cruise_flyable.1, cruise_flyable.2, cruise_flyable.3, cruise_flyable.4⟩
example : ∃ out : SubOut realFmt, subf16 (toVec turning.toList : Vec realFmt) (toVec (Controls.mk 0.5 (-1) 2 3).toList) "stevens" = .ok out := by
  obtain ⟨pd, -, e⟩ := subf16_real .stevens turning ⟨0.5, -1, 2, 3⟩ true turning_flyable
  exact ⟨_, e⟩

end SAD.Aero
