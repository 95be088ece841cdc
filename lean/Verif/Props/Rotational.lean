import Verif.Lemmas.SixDof
import Verif.Lemmas.History
import Verif.Props.Cwh
import Verif.Props.State

/-!
# C35 - C37: the planar rotating spacecraft
-/

set_option linter.unusedSectionVars false

namespace SAD
open Spec

/-! ## C35 body-frame thrust -/

section
open Real

/-- the planar vector `(a, b)` turned by the angle `θ` -/
noncomputable def Spec.turn (θ a b : ℝ) : ℝ × ℝ := (cos θ * a - sin θ * b, sin θ * a + cos θ * b)

theorem rot2d_field (e : Entity realFmt) {p : Rot2dParams ℝ}
    (hr : Realises e (rot2dModel realFmt p.m p.inertia p.n p.accLimit p.velLimit)) (t : ℝ) (s : Fin 6 → ℝ) (u : Fin 3 → ℝ) :
    e.dynamics.computeStateDot (.fin t) (toFl s) (toFl u)
      = .ok (toFl ((rot2dModel realFmt p.m p.inertia p.n p.accLimit p.velLimit).field u t s)) :=
  computeStateDot_lift hr.dyn.lo hr.dyn.hi hr.dyn.dlo hr.dyn.dhi (hr.dyn.rhs t s u trivial)

/-- The derivative computed by any constructed spacecraft, at any time of its life: position rates are the velocities, and
the acceleration is the Clohessy-Wiltshire one (with `z = z' = 0`) for the thrust turned by `theta`. -/
theorem C35_body_frame_thrust (env : Env realFmt) (args : Rot2dArgs realFmt) (p : Rot2dParams ℝ) (hp : p.Of args) (e0 : Entity realFmt)
    (h0 : newRot2d env args = .ok e0) (ops : List (Op realFmt)) (t x y θ vx vy w : ℝ) (fx fy mz : ℝ) :
    ∃ v : Fin 6 → ℝ,
      (e0.run env ops).dynamics.computeStateDot (.fin t) (toFl ![x, y, θ, vx, vy, w]) (toFl ![fx, fy, mz]) = .ok (toFl v) ∧
      v 0 = vx ∧ v 1 = vy ∧
      v 3 = cw p.m p.n ![x, y, 0, vx, vy, 0] ![(turn θ fx fy).1, (turn θ fx fy).2, 0] 3 ∧
      v 4 = cw p.m p.n ![x, y, 0, vx, vy, 0] ![(turn θ fx fy).1, (turn θ fx fy).2, 0] 4 := by
  have hr := (rot2d_realised hp h0).1.run env ops
  refine ⟨_, rot2d_field _ hr t _ _, ?_⟩
  simp only [KModel.field, rot2dModel, cw, turn, Matrix.cons_val, klimit, kclip]
  simp [realFmt]

/-- The thrust acceleration has magnitude `|F| / m` whatever the orientation: the difference of the accelerations with and
without thrust has that squared norm. -/
theorem C35_magnitude (env : Env realFmt) (args : Rot2dArgs realFmt) (p : Rot2dParams ℝ) (hp : p.Of args) (e0 : Entity realFmt)
    (h0 : newRot2d env args = .ok e0) (ops : List (Op realFmt)) (t : ℝ) (s : Fin 6 → ℝ) (fx fy mz : ℝ) :
    ∃ v v0 : Fin 6 → ℝ,
      (e0.run env ops).dynamics.computeStateDot (.fin t) (toFl s) (toFl ![fx, fy, mz]) = .ok (toFl v) ∧
      (e0.run env ops).dynamics.computeStateDot (.fin t) (toFl s) (toFl ![0, 0, mz]) = .ok (toFl v0) ∧
      (v 3 - v0 3) ^ 2 + (v 4 - v0 4) ^ 2 = (fx ^ 2 + fy ^ 2) / p.m ^ 2 := by
  have hr := (rot2d_realised hp h0).1.run env ops
  have hm := (rot2d_realised hp h0).2.1
  refine ⟨_, _, rot2d_field _ hr t _ _, rot2d_field _ hr t _ _, ?_⟩
  simp only [KModel.field, rot2dModel, Matrix.cons_val, klimit, kclip]
  simp only [reduceCtorEq, false_and, exists_false, if_false, realFmt]
  have h := Real.sin_sq_add_cos_sq (s 2)
  have hc : cos (s 2) ^ 2 = 1 - sin (s 2) ^ 2 := by linarith
  field_simp
  ring_nf
  rw [hc]
  ring

/-- At `theta = 0` the in-plane derivative coincides with that of the point-mass spacecraft of the same mass and mean
motion in the plane `z = 0`. -/
theorem C35_aligned (env : Env realFmt) (args : Rot2dArgs realFmt) (p : Rot2dParams ℝ) (hp : p.Of args) (e0 : Entity realFmt)
    (h0 : newRot2d env args = .ok e0) (args' : CwhArgs realFmt) (hm : args'.m = .fin p.m) (hn : args'.n = .fin p.n) (e1 : Entity realFmt)
    (h1 : newCwhSpacecraft env args' = .ok e1) (t x y vx vy w : ℝ) (fx fy mz : ℝ) :
    ∃ v v' : Fin 6 → ℝ,
      e0.dynamics.computeStateDot (.fin t) (toFl ![x, y, 0, vx, vy, w]) (toFl ![fx, fy, mz]) = .ok (toFl v) ∧
      e1.dynamics.computeStateDot (.fin t) (toFl ![x, y, 0, vx, vy, 0]) (toFl ![fx, fy, 0]) = .ok (toFl v') ∧
      v 0 = v' 0 ∧ v 1 = v' 1 ∧ v 3 = v' 3 ∧ v 4 = v' 4 := by
  obtain ⟨v, g1, g2, g3, g4, g5⟩ := C35_body_frame_thrust env args p hp e0 h0 [] t x y 0 vx vy w fx fy mz
  have := C29_equations env args' p.m p.n hm hn e1 h1 [] t ![x, y, 0, vx, vy, 0] ![fx, fy, 0]
  refine ⟨v, _, g1, this, ?_, ?_, ?_, ?_⟩
  · rw [g2]; simp [cw]
  · rw [g3]; simp [cw]
  · rw [g4]; simp [cw, turn]
  · rw [g5]; simp [cw, turn]

end

/-! ## C36 effective limits -/

section
variable {K : Type} {R : Fmt K} [Field K] [LinearOrder K] [IsStrictOrderedRing K]

/-- `|x|` is at most `l` -/
def Spec.AbsLe (x l : Fl R) : Prop := -l ≤ x ∧ x ≤ l

theorem neg_mono {a b : Fl R} (h : a ≤ b) : -b ≤ -a := by
  change Fl.leb _ _ = true at h
  change Fl.leb (Fl.neg b) (Fl.neg a) = true
  cases a <;> cases b <;> simp_all [Fl.neg, Fl.leb]

theorem absLe_mono {x l l' : Fl R} (h : AbsLe x l) (hl : l ≤ l') : AbsLe x l' :=
  ⟨Fl.le_trans' (neg_mono hl) h.1, Fl.le_trans' h.2 hl⟩

theorem neg_le_self' {l : Fl R} (h : 0 ≤ l) : -l ≤ l := by
  change Fl.leb _ _ = true at h
  change Fl.leb (Fl.neg l) l = true
  cases l <;> simp_all [Fl.neg, Fl.leb, OfNat.ofNat]

theorem neg_le_zero' {l : Fl R} (h : 0 ≤ l) : -l ≤ 0 := by
  change Fl.leb _ _ = true at h
  change Fl.leb (Fl.neg l) _ = true
  rw [Fl.ofNat_fin] at *
  cases l <;> simp_all [Fl.neg, Fl.leb]

theorem pyMin_nonneg {a b : Fl R} (ha : 0 ≤ a) (hb : 0 ≤ b) : 0 ≤ Fl.pyMin a b := by
  rcases Fl.pyMin_eq (a := a) (b := b) with h | h <;> rw [h] <;> assumption

/-- Whatever the floating point format, the derivative `wz_dot` computed for any state, time and control is NaN or bounded by
both the spacecraft's angular acceleration limit and the one induced by the reaction wheel. -/
theorem C36_angular_acceleration [FloorRing K] (env : Env R) (args : Rot2dArgs R) (e0 : Entity R) (h0 : newRot2d env args = .ok e0)
    (h1 : 0 ≤ args.angAccLimit) (h2 : 0 ≤ args.inertiaWheel * args.accLimitWheel / args.inertia)
    (ops : List (Op R)) (t : Fl R) (s u v : Vec R) (w : Fl R)
    (h : (e0.run env ops).dynamics.computeStateDot t s u = .ok v) (hw : v[5]? = some w) :
    w = .nan ∨ (AbsLe w args.angAccLimit ∧ AbsLe w (args.inertiaWheel * args.accLimitWheel / args.inertia)) := by
  obtain ⟨-, acc, vel, rfl, rfl, -, -, g3, g4, -, g6, g7⟩ := rot2d_config h0
  have hc := run_sameConfig env ops e0
  have hd := hc.2.2.2.2.2
  have e1 : (e0.run env ops).dynamics.stateDotMin = e0.dynamics.stateDotMin := by rw [← hd]
  have e2 : (e0.run env ops).dynamics.stateDotMax = e0.dynamics.stateDotMax := by rw [← hd]
  have hn := pyMin_nonneg h1 h2
  obtain ⟨raw, r, -, -, hnan, hin⟩ :=
    C13_state_dot_limits _ t s u v h 5 w _ _ hw (by rw [e1, g3]; rfl) (by rw [e2, g4]; rfl) (neg_le_zero' hn) hn
  by_cases hr : r = .nan
  · exact .inl (hnan.2 hr)
  · have hl := Fl.pyMin_le (R := R) (Fl.ne_nan_of_le_right h1) (Fl.ne_nan_of_le_right h2)
    exact .inr ⟨absLe_mono (hin hr) hl.1, absLe_mono (hin hr) hl.2⟩

/-- Whatever the floating point format, solver and actions: after every history ending in a successful step `wz` is NaN or
bounded by both the spacecraft's angular velocity limit and the one induced by the reaction wheel. -/
theorem C36_angular_velocity [FloorRing K] (env : Env R) (args : Rot2dArgs R) (e0 : Entity R) (h0 : newRot2d env args = .ok e0)
    (h1 : 0 ≤ args.angVelLimit) (h2 : 0 ≤ args.inertiaWheel * args.velLimitWheel / args.inertia)
    (ops : List (Op R)) (dt : Fl R) (a : Action R) (hok : ((e0.run env ops).step env dt a).outcome = .ok ()) (w : Fl R)
    (hw : ((e0.run env ops).step env dt a).entity.state[5]? = some w) :
    w = .nan ∨ (AbsLe w args.angVelLimit ∧ AbsLe w (args.inertiaWheel * args.velLimitWheel / args.inertia)) := by
  obtain ⟨-, acc, vel, rfl, rfl, g1, g2, -, -, g5, -⟩ := rot2d_config h0
  have hn := pyMin_nonneg h1 h2
  have hord : Ordered e0.dynamics.stateMin e0.dynamics.stateMax := by
    rw [g1, g2]
    intro i l h hl hh
    rw [Arr.at_eq, Arr.toVec] at hl hh
    match i, hl, hh with
    | 0, hl, hh => cases hl; cases hh; simp
    | 1, hl, hh => cases hl; cases hh; simp
    | 2, hl, hh => cases hl; cases hh; simp
    | 3, hl, hh => cases hl; cases hh; simp
    | 4, hl, hh => cases hl; cases hh; simp
    | 5, hl, hh => cases hl; cases hh; exact neg_le_self' hn
    | i + 6, hl, hh => simp [bget] at hl
  rcases C08_state_limits env e0 ops dt a hord hok 5 w hw (by intro cs h; rw [g5] at h; cases h; rfl) with h | ⟨lo, hi, k1, k2, h⟩
  · exact .inl h
  · rw [g1] at k1
    rw [g2] at k2
    cases k1
    cases k2
    have hl := Fl.pyMin_le (R := R) (Fl.ne_nan_of_le_right h1) (Fl.ne_nan_of_le_right h2)
    exact .inr ⟨absLe_mono h hl.1, absLe_mono h hl.2⟩

/-- In exact arithmetic `theta` is NaN or in `[-pi, pi)` after every history ending in a successful step. -/
theorem C36_theta_range [FloorRing K] [Exact R] (hpi : 0 < R.pi) (env : Env R) (args : Rot2dArgs R) (e0 : Entity R)
    (h0 : newRot2d env args = .ok e0) (ops : List (Op R)) (dt : Fl R) (a : Action R)
    (hok : ((e0.run env ops).step env dt a).outcome = .ok ()) (θ : Fl R)
    (hw : ((e0.run env ops).step env dt a).entity.state[2]? = some θ) :
    θ = .nan ∨ ∃ x, θ = .fin x ∧ -R.pi ≤ x ∧ x < R.pi := by
  obtain ⟨-, acc, vel, -, -, -, -, -, -, g5, -⟩ := rot2d_config h0
  have := C09_wrapped_range hpi env e0 ops dt a hok 2 θ 0 hw ⟨_, g5, by simp [bget], by simp⟩
  simpa using this

/-- In double precision (any monotone rounding with representable `pi`) the closed interval `[-pi, pi]`. -/
theorem C36_theta_range_rounded [FloorRing K] (hR : Sound R) (env : Env R) (args : Rot2dArgs R) (e0 : Entity R)
    (h0 : newRot2d env args = .ok e0) (ops : List (Op R)) (dt : Fl R) (a : Action R)
    (hok : ((e0.run env ops).step env dt a).outcome = .ok ()) (θ : Fl R)
    (hw : ((e0.run env ops).step env dt a).entity.state[2]? = some θ) :
    θ = .nan ∨ ∃ x, θ = .fin x ∧ -R.pi ≤ x ∧ x ≤ R.pi := by
  obtain ⟨-, acc, vel, -, -, -, -, -, -, g5, -⟩ := rot2d_config h0
  have e : (0 : Fl R) = .fin 0 := by rw [Fl.ofNat_fin]; simp
  exact C09_wrapped_range_rounded hR env e0 ops dt a hok 2 θ hw ⟨_, g5, by rw [← e]; rfl, by simp⟩

/-- In exact arithmetic, the limits in force are exactly the smaller of the two: for the state, for the derivative and for
the moment (whose limit is the inertia times the acceleration limit); and a moment requested by any action, saturated,
produces an angular acceleration within the limit even before the derivative is limited. -/
theorem C36_effective_limits [Exact R] (env : Env R) (args : Rot2dArgs R) (p : Rot2dParams K) (hp : p.Of args) (e0 : Entity R)
    (h0 : newRot2d env args = .ok e0) (hI : 0 < p.inertia) (hacc : 0 ≤ p.accLimit) :
    e0.dynamics.stateMax.at 5 = some (.fin p.velLimit) ∧ e0.dynamics.stateMin.at 5 = some (.fin (-p.velLimit)) ∧
    e0.dynamics.stateDotMax.at 5 = some (.fin p.accLimit) ∧ e0.dynamics.stateDotMin.at 5 = some (.fin (-p.accLimit)) ∧
    e0.controlMax.at 2 = some (.fin (p.accLimit * p.inertia)) ∧ e0.controlMin.at 2 = some (.fin (-(p.accLimit * p.inertia))) ∧
    ∀ (r x : Fl R), r ≠ .nan → Saturated (.fin (-(p.accLimit * p.inertia))) (.fin (p.accLimit * p.inertia)) r x →
      ∃ c, x = .fin c ∧ -p.accLimit ≤ c / p.inertia ∧ c / p.inertia ≤ p.accLimit := by
  have hr := (rot2d_realised hp h0).1
  obtain ⟨-, acc, vel, ha, hv, g1, g2, g3, g4, -, g6, g7⟩ := rot2d_config h0
  have hdiv : ∀ x, (.fin x / .fin p.inertia : Fl R) = .fin (x / p.inertia) := fun x => Fl.fin_div_fin _ _ hI.ne'
  have ev : vel = .fin p.velLimit := by
    rw [hv, hp.angVel, hp.wheelInertia, hp.wheelVel, hp.inertia, Fl.fin_mul_fin, hdiv, pyMin_fin]; rfl
  have ea : acc = .fin p.accLimit := by
    rw [ha, hp.angAcc, hp.wheelInertia, hp.wheelAcc, hp.inertia, Fl.fin_mul_fin, hdiv, pyMin_fin]; rfl
  subst ev ea
  refine ⟨by rw [g2]; rfl, by rw [g1]; rfl, by rw [g4]; rfl, by rw [g3]; rfl, ?_, ?_, ?_⟩
  · rw [g7]; simp [Arr.at_eq, Arr.toVec, bget, hp.inertia]
  · rw [g6]; simp [Arr.at_eq, Arr.toVec, bget, hp.inertia]
  · intro r x hr ⟨s1, s2, s3⟩
    have key : ∀ c, -(p.accLimit * p.inertia) ≤ c → c ≤ p.accLimit * p.inertia → -p.accLimit ≤ c / p.inertia ∧ c / p.inertia ≤ p.accLimit := by
      intro c h1 h2
      exact ⟨by rw [le_div_iff₀ hI]; linarith, by rw [div_le_iff₀ hI]; exact h2⟩
    have hpos : 0 ≤ p.accLimit * p.inertia := mul_nonneg hacc hI.le
    cases r with
    | nan => exact absurd rfl hr
    | ninf => exact ⟨_, s1 (by simp), key _ le_rfl (by linarith)⟩
    | pinf => exact ⟨_, s2 (by simp), key _ (by linarith) le_rfl⟩
    | fin c =>
      by_cases h1 : c < -(p.accLimit * p.inertia)
      · exact ⟨_, s1 (by simpa using h1), key _ le_rfl (by linarith)⟩
      by_cases h2 : p.accLimit * p.inertia < c
      · exact ⟨_, s2 (by simpa using h2), key _ (by linarith) le_rfl⟩
      exact ⟨c, s3 (by simpa using not_lt.1 h1) (by simpa using not_lt.1 h2), key _ (not_lt.1 h1) (not_lt.1 h2)⟩

/-- the default spacecraft in double precision meets the hypotheses, and its step succeeds -/
example : ∃ e : Entity b64, newRot2d (R := b64) Demo.env { kwargs := [("name", .str "a")] } = .ok e ∧
    decide ((e.step Demo.env 1 (.dict [("moment_z", .fin 7)])).outcome = .ok ()) = true :=
  Demo.of_okAnd (by decide +kernel)
example : (0 : Fl b64) ≤ 0.017453 ∧ (0 : Fl b64) ≤ 4.1e-5 * 181.3 / 0.0573 := by decide +kernel

/-- with a weak reaction wheel it is the wheel that limits: acceleration limit 1/10 instead of 1 -/
example : ∃ e : Entity ratFmt, newRot2d (R := ratFmt) Demo.env
      { inertia := 2, angAccLimit := 1, angVelLimit := 1, inertiaWheel := 1, accLimitWheel := .fin (1 / 5), velLimitWheel := 10, kwargs := [("name", .str "a")] } = .ok e ∧
    decide ((e.step Demo.env 1 (.dict [("moment_z", .fin 7)])).entity.state[5]? = some (.fin (1 / 10))) = true :=
  Demo.of_okAnd (by decide +kernel)
example : Rot2dParams.Of (R := ratFmt) ⟨12, 2, 1, 1, 1, 1 / 5, 10, 1027 / 1000000⟩
      { inertia := 2, angAccLimit := 1, angVelLimit := 1, inertiaWheel := 1, accLimitWheel := .fin (1 / 5), velLimitWheel := 10, kwargs := [("name", .str "a")] } ∧
    Rot2dParams.accLimit (K := ℚ) ⟨12, 2, 1, 1, 1, 1 / 5, 10, 1027 / 1000000⟩ = 1 / 10 :=
  ⟨⟨by decide +kernel, by decide +kernel, by decide +kernel, by decide +kernel, by decide +kernel, by decide +kernel,
    by decide +kernel, by decide +kernel⟩, by decide +kernel⟩

end

/-! ## C37 orientation -/

section
open Real

/-- The reported quaternion has unit norm and, applied to any vector by the library's own quaternion rotation, turns its
planar part by `theta` and leaves `z` alone. -/
theorem C37_quaternion (e : Entity realFmt) (s : Fin 6 → ℝ) (he : e.state = toFl s) :
    ∃ q : Fin 4 → ℝ, rot2dQuaternion e = .ok (toFl q) ∧ q 0 ^ 2 + q 1 ^ 2 + q 2 ^ 2 + q 3 ^ 2 = 1 ∧
      ∀ a b c : ℝ, applyQuat (toFl ![a, b, c] : Vec realFmt) (toFl q) = .ok (toFl ![(turn (s 2) a b).1, (turn (s 2) a b).2, c]) := by
  refine ⟨![0, 0, sin (s 2 / 2), cos (s 2 / 2)], ?_, ?_, ?_⟩
  · unfold rot2dQuaternion
    rw [he, toFl6, toFl4]
    simp [getIdx, bind, Except.bind, pure, Except.pure, Fl.sin, Fl.cos, Fl.fin_div_fin _ _ (two_ne_zero (α := ℝ))]
    exact ⟨rfl, rfl⟩
  · simp
  · intro a b c
    rw [applyQuat_fin]
    congr 2
    have h1 : s 2 = 2 * (s 2 / 2) := by ring
    have hc := cos_two_mul (s 2 / 2)
    have hs := sin_two_mul (s 2 / 2)
    rw [← h1] at hc hs
    have hp := sin_sq_add_cos_sq (s 2 / 2)
    simp only [krot, turn, hc, hs, Matrix.cons_val]
    funext i
    fin_cases i
    · simp; linear_combination (-a) * hp
    · simp; linear_combination (-b) * hp
    · simp

/-- Two spacecraft that agree on everything but whose `theta` differ by an odd number of turns have the same orientation (their
quaternions rotate every vector alike) but opposite quaternions, and compare unequal. With an even number of turns they
compare equal. -/
theorem C37_double_cover (e e' : Entity realFmt) (s : Fin 6 → ℝ) (k : ℤ) (he : e.state = toFl s)
    (he' : e'.state = toFl (Function.update s 2 (s 2 + 2 * π * k))) :
    ∃ q q' : Fin 4 → ℝ, rot2dQuaternion e = .ok (toFl q) ∧ rot2dQuaternion e' = .ok (toFl q') ∧
      (∀ x : Fin 3 → ℝ, applyQuat (toFl x : Vec realFmt) (toFl q) = applyQuat (toFl x) (toFl q')) ∧
      (Odd k → q' = -q ∧ rot2dEq e (some e') = .ok false) ∧ (Even k → q' = q ∧ rot2dEq e (some e') = .ok true) := by
  have hq : ∀ (e : Entity realFmt) (s : Fin 6 → ℝ), e.state = toFl s → rot2dQuaternion e = .ok (toFl ![0, 0, sin (s 2 / 2), cos (s 2 / 2)]) := by
    intro e s he
    unfold rot2dQuaternion
    rw [he, toFl6, toFl4]
    simp [getIdx, bind, Except.bind, pure, Except.pure, Fl.sin, Fl.cos, Fl.fin_div_fin _ _ (two_ne_zero (α := ℝ))]
    exact ⟨rfl, rfl⟩
  have q1 := hq e s he
  have q2 := hq e' _ he'
  have hv : rot2dVelocity e = .ok [.fin (s 3), .fin (s 4), .fin 0] ∧ rot2dVelocity e' = .ok [.fin (s 3), .fin (s 4), .fin 0] := by
    unfold rot2dVelocity; rw [he, he', toFl6, toFl6]
    simp [getIdx, bind, Except.bind, pure, Except.pure, Function.update]
  have hp : rot2dPosition e = .ok [.fin (s 0), .fin (s 1), .fin 0] ∧ rot2dPosition e' = .ok [.fin (s 0), .fin (s 1), .fin 0] := by
    unfold rot2dPosition; rw [he, he', toFl6, toFl6]
    simp [getIdx, bind, Except.bind, pure, Except.pure, Function.update]
  have hw : rot2dAngularVelocity e = .ok [.fin 0, .fin 0, .fin (s 5)] ∧ rot2dAngularVelocity e' = .ok [.fin 0, .fin 0, .fin (s 5)] := by
    unfold rot2dAngularVelocity; rw [he, he', toFl6, toFl6]
    simp [getIdx, bind, Except.bind, pure, Except.pure, Function.update]
  have hself : ∀ a b c : ℝ, allEq ([.fin a, .fin b, .fin c] : Vec realFmt) [.fin a, .fin b, .fin c] = .ok true := by
    intro a b c; simp [allEq, bcast2, Fl.eqb]
  have harg : (s 2 + 2 * π * k) / 2 = s 2 / 2 + k * π := by ring
  simp only [Function.update_self, harg, sin_add_int_mul_pi, cos_add_int_mul_pi] at q2
  refine ⟨_, _, q1, q2, ?_, ?_, ?_⟩
  · intro x
    rw [applyQuat_fin, applyQuat_fin]
    congr 2
    have h1 : ((-1 : ℝ) ^ k) ^ 2 = 1 := by
      rw [← zpow_natCast, ← zpow_mul, mul_comm, zpow_mul]; norm_num
    have h2 : ((-1 : ℝ) ^ k * sin (s 2 / 2)) ^ 2 = sin (s 2 / 2) ^ 2 := by rw [mul_pow, h1, one_mul]
    have h3 : ((-1 : ℝ) ^ k * cos (s 2 / 2)) ^ 2 = cos (s 2 / 2) ^ 2 := by rw [mul_pow, h1, one_mul]
    have h4 : ((-1 : ℝ) ^ k * sin (s 2 / 2)) * ((-1) ^ k * cos (s 2 / 2)) = sin (s 2 / 2) * cos (s 2 / 2) := by
      linear_combination (sin (s 2 / 2) * cos (s 2 / 2)) * h1
    simp only [krot, Matrix.cons_val, h2, h3, h4]
    simp
  · intro hk
    have : ((-1 : ℝ) ^ k) = -1 := hk.neg_one_zpow
    rw [this] at q2 ⊢
    refine ⟨by funext i; fin_cases i <;> simp, ?_⟩
    simp only [rot2dEq, hv, hp, bind, Except.bind, hself, q1, q2]
    simp only [toFl4, Matrix.cons_val, allEq, bcast2, Fl.eqb, List.length_cons, List.length_nil]
    have hne : ¬ (sin (s 2 / 2) = -sin (s 2 / 2) ∧ cos (s 2 / 2) = - cos (s 2 / 2)) := by
      rintro ⟨h1, h2⟩
      have h1 : sin (s 2 / 2) = 0 := by linarith
      have h2 : cos (s 2 / 2) = 0 := by linarith
      have := sin_sq_add_cos_sq (s 2 / 2)
      rw [h1, h2] at this
      norm_num at this
    simp only [List.zipWith, List.all, id]
    simp
    rw [if_neg]
    · rfl
    · rintro ⟨-, h1, h2⟩
      exact hne ⟨by simpa [Fl.eqb] using h1, by simpa [Fl.eqb] using h2⟩
  · intro hk
    have : ((-1 : ℝ) ^ k) = 1 := hk.neg_one_zpow
    rw [this] at q2 ⊢
    refine ⟨by simp, ?_⟩
    simp only [rot2dEq, hv, hp, hw, bind, Except.bind, hself, q1, q2, if_true]
    simp [toFl4, allEq, bcast2, Fl.eqb]

/-- a state meeting the hypotheses -/
example : ∃ e : Entity realFmt, e.state = toFl ![1, 2, 3, 4, 5, 6] := ⟨{ Demo.entity "RK45" with state := toFl ![1, 2, 3, 4, 5, 6] }, rfl⟩

end
end SAD
