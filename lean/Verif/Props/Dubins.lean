import Verif.Lemmas.Dubins
import Verif.Lemmas.History
import Verif.Lemmas.Translate
import Verif.Props.Sun
import Verif.Props.State
import Mathlib.Analysis.SpecialFunctions.Trigonometric.Deriv

/-!
# C47 - C52: Dubins aircraft

State of the two-dimensional aircraft: `x, y, heading, v`; of the three-dimensional one: `x, y, z, heading, gamma, roll, v`.
-/

set_option linter.unusedSectionVars false

namespace SAD
open Spec

/-! ## C47 velocity -/

section
open Real

/-- the vector of length `v` pointing along `heading` and `gamma` (z down) -/
noncomputable def Spec.along (v heading gamma : ℝ) : Fin 3 → ℝ :=
  ![v * cos heading * cos gamma, v * sin heading * cos gamma, -(v * sin gamma)]

theorem dubinsVelocity_fin (v h γ : ℝ) : dubinsVelocity (.fin v : Fl realFmt) (.fin h) (.fin γ) = toFl (along v h γ) := by
  unfold dubinsVelocity
  simp only [Fl.sin, Fl.cos, Fl.fin_mul_fin, Fl.one_fin, List.map_cons, List.map_nil, toFl3, along]
  simp
  exact ⟨rfl, rfl, .inl rfl⟩

theorem along_sq (v h γ : ℝ) : along v h γ 0 ^ 2 + along v h γ 1 ^ 2 + along v h γ 2 ^ 2 = v ^ 2 := by
  simp [along]
  linear_combination v ^ 2 * cos γ ^ 2 * sin_sq_add_cos_sq h + v ^ 2 * sin_sq_add_cos_sq γ

/-- 2d: the reported velocity has magnitude `|v|`, lies in the plane, and is the rate of change of the position in the
derivative the dynamics compute, whatever the time and control. -/
theorem C47_velocity_2d (env : Env realFmt) (args : Dubins2dArgs realFmt) (p : Dubins2dParams ℝ) (hp : p.Of args) (e0 : Entity realFmt)
    (h0 : newDubins2d env args = .ok e0) (ops : List (Op realFmt)) (e : Entity realFmt) (he : e = e0.run env ops) (s : Fin 4 → ℝ)
    (hs : e.state = toFl s) (t : ℝ) (u : Fin 2 → ℝ) :
    ∃ (w : Fin 3 → ℝ) (d : Fin 4 → ℝ), dubins2dVelocity e = .ok (toFl w) ∧ w 0 ^ 2 + w 1 ^ 2 + w 2 ^ 2 = s 3 ^ 2 ∧
      e.dynamics.computeStateDot (.fin t) e.state (toFl u) = .ok (toFl d) ∧ d 0 = w 0 ∧ d 1 = w 1 ∧ w 2 = 0 := by
  have hr := (dubins2d_realised hp h0).congr (run_sameConfig env ops e0)
  rw [← he] at hr
  have hz : (0 : Fl realFmt) = .fin 0 := Fl.zero_fin
  refine ⟨along (s 3) (s 2) 0, _, ?_, along_sq _ _ _, by rw [hs]; exact computeStateDot_lift hr.dyn.lo hr.dyn.hi hr.dyn.dlo hr.dyn.dhi (hr.dyn.rhs t s u trivial), ?_, ?_, ?_⟩
  · unfold dubins2dVelocity
    rw [hs, toFl4]
    simp only [getIdx, bind, Except.bind, pure, Except.pure, List.getElem?_cons_succ, List.getElem?_cons_zero, hz, dubinsVelocity_fin]
  · simp [dubins2dModel, klimit_free, along]; simp [realFmt]
  · simp [dubins2dModel, klimit_free, along]; simp [realFmt]
  · simp [along]

/-- 3d: likewise, for every speed (zero included, where the turn rate is not finite). -/
theorem C47_velocity_3d (env : Env realFmt) (args : Dubins3dArgs realFmt) (p : Dubins3dParams ℝ) (hp : p.Of args) (e0 : Entity realFmt)
    (h0 : newDubins3d env args = .ok e0) (ops : List (Op realFmt)) (e : Entity realFmt) (he : e = e0.run env ops) (s : Fin 7 → ℝ)
    (hs : e.state = toFl s) (t : ℝ) (u : Fin 3 → ℝ) :
    ∃ (w : Fin 3 → ℝ) (rest : Vec realFmt), dubins3dVelocity e = .ok (toFl w) ∧ w 0 ^ 2 + w 1 ^ 2 + w 2 ^ 2 = s 6 ^ 2 ∧
      e.dynamics.computeStateDot (.fin t) e.state (toFl u) = .ok (.fin (w 0) :: .fin (w 1) :: .fin (w 2) :: rest) ∧ rest.length = 4 := by
  have hc := run_sameConfig env ops e0
  obtain ⟨a, b, hd⟩ : ∃ a b, (e0.run env ops).dynamics = { e0.dynamics with trajectory := a, trajectoryT := b } := by
    obtain ⟨-, -, -, -, -, h⟩ := hc
    exact ⟨(e0.run env ops).dynamics.trajectory, (e0.run env ops).dynamics.trajectoryT, by rw [← h]⟩
  obtain ⟨c1, c2, c3, c4, -, c6, -⟩ := dubins3d_config h0
  rw [← he] at hd
  have hv : dubins3dVelocity e = .ok (toFl (along (s 6) (s 3) (s 4))) := by
    unfold dubins3dVelocity
    rw [hs, toFl7]
    simp only [getIdx, bind, Except.bind, pure, Except.pure, List.getElem?_cons_succ, List.getElem?_cons_zero, dubinsVelocity_fin]
  have hm : (-1 : Fl realFmt) = .fin (-1) := by rw [Fl.one_fin]; rfl
  generalize hq : dubinsGravity / (.fin (s 6) : Fl realFmt) * Fl.tan (.fin (s 5)) = q
  have key : ∃ rest : Vec realFmt, e.dynamics.computeStateDot (.fin t) e.state (toFl u)
      = .ok (.fin (along (s 6) (s 3) (s 4) 0) :: .fin (along (s 6) (s 3) (s 4) 1) :: .fin (along (s 6) (s 3) (s 4) 2) :: rest) ∧
      rest.length = 4 := by
    rw [hs, hd]
    simp only [Dyn.computeStateDot, Dyn.clipStateDotDirect, Dyn.clipStateDotByStateLimits, c1, c2, c3, c4, c6, affineRhs, toFl7, toFl3, dubins3dF,
      hq]
    simp [dubins3dG, matVec, dot, bind, Except.bind, vadd, bcast2, Fl.sin, Fl.cos, npClip, npWhere, Arr.toVec, along, hm]
    simp only [npMax_ninf, npMin_pinf]
    exact ⟨rfl, rfl, rfl⟩
  obtain ⟨rest, k1, k2⟩ := key
  exact ⟨along (s 6) (s 3) (s 4), rest, hv, along_sq _ _ _, k1, k2⟩

/-- the default aircraft (parameters 200, 400 ft/s, ...) exists over the reals -/
example : ∃ e : Entity realFmt, newDubins2d Demo.env { kwargs := [("name", .str "a"), ("heading", .num 1)] } = .ok e := ⟨_, rfl⟩
example : ∃ e : Entity realFmt, newDubins3d Demo.env { kwargs := [("name", .str "a"), ("roll", .num 1)] } = .ok e := ⟨_, rfl⟩
example : Dubins2dParams.Of (R := realFmt) ⟨200, 400, -1, 1, -96, 96⟩
    { headingRateMin := -1, headingRateMax := 1, accMin := -96, accMax := 96, kwargs := [("name", .str "a")] } :=
  ⟨Fl.ofNat_fin 200, Fl.ofNat_fin 400, congrArg Fl.neg Fl.one_fin, Fl.one_fin, congrArg Fl.neg (Fl.ofNat_fin 96), Fl.ofNat_fin 96⟩
example (e : Entity realFmt) : (e.run Demo.env [.setState (toFl ![1, 2, 3, 4])]).state = toFl ![1, 2, 3, 4] := rfl

end

/-! ## C48 limits -/

section
variable {K : Type} {R : Fmt K} [Field K] [LinearOrder K] [IsStrictOrderedRing K] [FloorRing K]

/-- Any format and solver: after every history ending in a successful step the speed of the 2d aircraft is NaN or within
`v_min`, `v_max` (rounded to float32). -/
theorem C48_speed_2d (env : Env R) (args : Dubins2dArgs R) (e0 : Entity R) (h0 : newDubins2d env args = .ok e0)
    (hv : args.vMin.cast32 ≤ args.vMax.cast32) (ops : List (Op R)) (dt : Fl R) (a : Action R)
    (hok : ((e0.run env ops).step env dt a).outcome = .ok ()) (v : Fl R)
    (hs : ((e0.run env ops).step env dt a).entity.state[3]? = some v) :
    v = .nan ∨ Within args.vMin.cast32 args.vMax.cast32 v := by
  obtain ⟨g1, g2, -, -, g5, -⟩ := dubins2d_config h0
  have hord : Ordered e0.dynamics.stateMin e0.dynamics.stateMax := by
    rw [g1, g2]
    intro i l h hl hh
    rw [Arr.at_eq, Arr.toVec] at hl hh
    match i, hl, hh with
    | 0, hl, hh => cases hl; cases hh; simp
    | 1, hl, hh => cases hl; cases hh; simp
    | 2, hl, hh => cases hl; cases hh; simp
    | 3, hl, hh => cases hl; cases hh; exact hv
    | i + 4, hl, hh => simp [bget] at hl
  rcases C08_state_limits env e0 ops dt a hord hok 3 v hs (by intro cs h; rw [g5] at h; cases h; rfl) with h | ⟨lo, hi, k1, k2, h⟩
  · exact .inl h
  · rw [g1] at k1
    rw [g2] at k2
    cases k1
    cases k2
    exact .inr h

/-- The same for the 3d aircraft. -/
theorem C48_speed_3d (env : Env R) (args : Dubins3dArgs R) (e0 : Entity R) (h0 : newDubins3d env args = .ok e0)
    (hv : args.vMin.cast32 ≤ args.vMax.cast32) (hg : args.gammaMin.cast32 ≤ args.gammaMax.cast32)
    (hroll : args.rollMin.cast32 ≤ args.rollMax.cast32) (ops : List (Op R)) (dt : Fl R) (a : Action R)
    (hok : ((e0.run env ops).step env dt a).outcome = .ok ()) (v : Fl R)
    (hs : ((e0.run env ops).step env dt a).entity.state[6]? = some v) :
    v = .nan ∨ Within args.vMin.cast32 args.vMax.cast32 v := by
  obtain ⟨g1, g2, -, -, g5, -⟩ := dubins3d_config h0
  have hord : Ordered e0.dynamics.stateMin e0.dynamics.stateMax := by
    rw [g1, g2]
    intro i l h hl hh
    rw [Arr.at_eq, Arr.toVec] at hl hh
    match i, hl, hh with
    | 0, hl, hh => cases hl; cases hh; simp
    | 1, hl, hh => cases hl; cases hh; simp
    | 2, hl, hh => cases hl; cases hh; simp
    | 3, hl, hh => cases hl; cases hh; simp
    | 4, hl, hh => cases hl; cases hh; exact hg
    | 5, hl, hh => cases hl; cases hh; exact hroll
    | 6, hl, hh => cases hl; cases hh; exact hv
    | i + 7, hl, hh => simp [bget] at hl
  rcases C08_state_limits env e0 ops dt a hord hok 6 v hs (by intro cs h; rw [g5] at h; cases h; rfl) with h | ⟨lo, hi, k1, k2, h⟩
  · exact .inl h
  · rw [g1] at k1
    rw [g2] at k2
    cases k1
    cases k2
    exact .inr h

/-- Exact arithmetic: the heading is NaN or in `[-pi, pi)` after every history ending in a successful step. -/
theorem C48_heading [Exact R] (hpi : 0 < R.pi) (env : Env R) (e0 : Entity R) (i : Nat)
    (h0 : (i = 2 ∧ ∃ args, newDubins2d env args = .ok e0) ∨ (i = 3 ∧ ∃ args, newDubins3d env args = .ok e0))
    (ops : List (Op R)) (dt : Fl R) (a : Action R) (hok : ((e0.run env ops).step env dt a).outcome = .ok ()) (h : Fl R)
    (hs : ((e0.run env ops).step env dt a).entity.state[i]? = some h) : h = .nan ∨ ∃ x, h = .fin x ∧ -R.pi ≤ x ∧ x < R.pi := by
  have hw : WrappedAt e0.dynamics i (.fin 0) := by
    rcases h0 with ⟨rfl, args, h0⟩ | ⟨rfl, args, h0⟩
    · obtain ⟨-, -, -, -, g5, -⟩ := dubins2d_config h0
      exact ⟨_, g5, by simp [bget], by simp⟩
    · obtain ⟨-, -, -, -, g5, -⟩ := dubins3d_config h0
      exact ⟨_, g5, by simp [bget], by simp⟩
  simpa using C09_wrapped_range hpi env e0 ops dt a hok i h 0 hs hw

/-- Double precision (any sound rounding): in the closed interval `[-pi, pi]`. -/
theorem C48_heading_rounded (hR : Sound R) (env : Env R) (e0 : Entity R) (i : Nat)
    (h0 : (i = 2 ∧ ∃ args, newDubins2d env args = .ok e0) ∨ (i = 3 ∧ ∃ args, newDubins3d env args = .ok e0))
    (ops : List (Op R)) (dt : Fl R) (a : Action R) (hok : ((e0.run env ops).step env dt a).outcome = .ok ()) (h : Fl R)
    (hs : ((e0.run env ops).step env dt a).entity.state[i]? = some h) : h = .nan ∨ ∃ x, h = .fin x ∧ -R.pi ≤ x ∧ x ≤ R.pi := by
  have hz : (Fl.cast32 0 : Fl R) = .fin 0 := by rw [hR.rnd32_zero, Fl.zero_fin]
  have hw : WrappedAt e0.dynamics i (.fin 0) := by
    rcases h0 with ⟨rfl, args, h0⟩ | ⟨rfl, args, h0⟩
    · obtain ⟨-, -, -, -, g5, -⟩ := dubins2d_config h0
      exact ⟨_, g5, by rw [hz]; rfl, by simp⟩
    · obtain ⟨-, -, -, -, g5, -⟩ := dubins3d_config h0
      exact ⟨_, g5, by rw [hz]; rfl, by simp⟩
  exact C09_wrapped_range_rounded hR env e0 ops dt a hok i h hs hw

/-- index, limits of gamma and roll -/
def Spec.AngleLimits (args : Dubins3dArgs R) (i : Nat) (lo hi : Fl R) : Prop :=
  (i = 4 ∧ lo = args.gammaMin.cast32 ∧ hi = args.gammaMax.cast32) ∨ (i = 5 ∧ lo = args.rollMin.cast32 ∧ hi = args.rollMax.cast32)

theorem dubins3d_angle (hz : (Fl.cast32 0 : Fl R) = 0) {env : Env R} {args : Dubins3dArgs R} {e0 : Entity R} (h0 : newDubins3d env args = .ok e0)
    {i : Nat} {lo hi : Fl R} (hl : AngleLimits args i lo hi) :
    WrappedAt e0.dynamics i 0 ∧ e0.dynamics.stateMin.at i = some lo ∧ e0.dynamics.stateMax.at i = some hi := by
  obtain ⟨g1, g2, -, -, g5, -⟩ := dubins3d_config h0
  rw [g1, g2]
  rcases hl with ⟨rfl, rfl, rfl⟩ | ⟨rfl, rfl, rfl⟩
  · exact ⟨⟨_, g5, by rw [hz]; rfl, by simp [OfNat.ofNat]⟩, rfl, rfl⟩
  · exact ⟨⟨_, g5, by rw [hz]; rfl, by simp [OfNat.ofNat]⟩, rfl, rfl⟩

/-- Exact arithmetic: gamma and roll are NaN or inside their limits, when these lie in `[-pi, pi)`. -/
theorem C48_gamma_roll [Exact R] (hpi : 0 < R.pi) (env : Env R) (args : Dubins3dArgs R) (e0 : Entity R) (h0 : newDubins3d env args = .ok e0)
    (i : Nat) (lo hi : K) (hl : AngleLimits args i (.fin lo) (.fin hi)) (hle : lo ≤ hi) (h1 : -R.pi ≤ lo) (h2 : hi < R.pi)
    (ops : List (Op R)) (dt : Fl R) (a : Action R) (hok : ((e0.run env ops).step env dt a).outcome = .ok ()) (s : Fl R)
    (hs : ((e0.run env ops).step env dt a).entity.state[i]? = some s) : s = .nan ∨ ∃ x, s = .fin x ∧ lo ≤ x ∧ x ≤ hi := by
  obtain ⟨k1, k2, k3⟩ := dubins3d_angle (by simp) h0 hl
  exact C12_wrapped_within_limits hpi env e0 ops dt a hok i s lo hi hs (by rwa [Fl.zero_fin] at k1) k2 k3 hle h1 h2

/-- Double precision (any sound rounding): likewise for limits that the wrapping computation reproduces, in particular
the default ones. -/
theorem C48_gamma_roll_rounded (hR : Sound R) (env : Env R) (args : Dubins3dArgs R) (e0 : Entity R) (h0 : newDubins3d env args = .ok e0)
    (i : Nat) (lo hi : K) (hl : AngleLimits args i (.fin lo) (.fin hi)) (hle : lo ≤ hi) (h1 : -R.pi ≤ lo) (h2 : hi < R.pi)
    (hwlo : wrapElem (.fin lo : Fl R) 0 = .fin lo) (hwhi : wrapElem (.fin hi : Fl R) 0 = .fin hi)
    (ops : List (Op R)) (dt : Fl R) (a : Action R) (hok : ((e0.run env ops).step env dt a).outcome = .ok ()) (s : Fl R)
    (hs : ((e0.run env ops).step env dt a).entity.state[i]? = some s) : s = .nan ∨ ∃ x, s = .fin x ∧ lo ≤ x ∧ x ≤ hi := by
  obtain ⟨k1, k2, k3⟩ := dubins3d_angle hR.rnd32_zero h0 hl
  exact C12_wrapped_within_limits_rounded hR env e0 ops dt a hok i s lo hi hs k1 k2 k3 hle h1 h2 hwlo hwhi

/-- Default aircraft in double precision: a step at the speed limit with a violent action; the heading leaves `[-pi, pi)` and
is wrapped; gamma and roll limits are reproduced by the wrapping computation. -/
example : ∃ e : Entity b64, newDubins3d (R := b64) Demo.env { kwargs := [("name", .str "a"), ("heading", .num 3), ("roll", .num 1), ("v", .num 400)] } = .ok e ∧
    (decide ((e.step Demo.env 30 (.dict [("acceleration", .fin 1000), ("roll_rate", .fin 7)])).outcome = .ok ()) &&
     decide ((200 : Fl b64).cast32 ≤ (400 : Fl b64).cast32)) = true := Demo.of_okAnd (by decide +kernel)
example : ∃ e : Entity ratFmt, newDubins2d (R := ratFmt) Demo.env { kwargs := [("name", .str "a"), ("heading", .num 3)] } = .ok e ∧
    decide ((e.step Demo.env 30 (.dict [("acceleration", .fin 1000)])).outcome = .ok ()) = true := Demo.of_okAnd (by decide +kernel)
example : ∃ lo hi : ℚ, AngleLimits (R := b64) { kwargs := [] } 4 (.fin lo) (.fin hi) ∧ lo ≤ hi ∧ -b64.pi ≤ lo ∧ hi < b64.pi ∧
    wrapElem (.fin lo : Fl b64) 0 = .fin lo ∧ wrapElem (.fin hi : Fl b64) 0 = .fin hi :=
  ⟨-11712711 / 33554432, 11712711 / 33554432, .inl ⟨rfl, by decide +kernel, by decide +kernel⟩, by decide +kernel, by decide +kernel, by decide +kernel, by decide +kernel, by decide +kernel⟩
example : ∃ lo hi : ℚ, AngleLimits (R := b64) { kwargs := [] } 5 (.fin lo) (.fin hi) ∧ lo ≤ hi ∧ -b64.pi ≤ lo ∧ hi < b64.pi ∧
    wrapElem (.fin lo : Fl b64) 0 = .fin lo ∧ wrapElem (.fin hi : Fl b64) 0 = .fin hi :=
  ⟨-4392267 / 4194304, 4392267 / 4194304, .inr ⟨rfl, by decide +kernel, by decide +kernel⟩, by decide +kernel, by decide +kernel, by decide +kernel, by decide +kernel, by decide +kernel⟩

end

/-! ## C49 straight flight -/

section
variable {K : Type} {R : Fmt K} [Field K] [LinearOrder K] [IsStrictOrderedRing K] [FloorRing K] [Exact R]

/-- the format's trigonometric functions at zero -/
structure Spec.TrigZero (R : Fmt K) : Prop where
  sin : R.sin 0 = 0
  cos : R.cos 0 = 1
  tan : R.tan 0 = 0

theorem trigZero_real : TrigZero realFmt := ⟨Real.sin_zero, Real.cos_zero, Real.tan_zero⟩
theorem trigZero_rat : TrigZero ratFmt := ⟨rfl, rfl, rfl⟩

theorem klimit_zero (lo hi : Option K) (y : K) : klimit lo hi none none y 0 = 0 := by
  unfold klimit kclip
  simp

theorem wrap_zero_id (hpi : 0 < R.pi) {x : K} (h1 : -R.pi ≤ x) (h2 : x < R.pi) : x + 0 - 2 * R.pi * ⌊(x + R.pi) / (2 * R.pi)⌋ = x := by
  have : ⌊(x + R.pi) / (2 * R.pi)⌋ = 0 := by
    rw [Int.floor_eq_zero_iff, Set.mem_Ico, div_lt_one (by positivity)]
    exact ⟨div_nonneg (by linarith) (by positivity), by linarith⟩
  rw [this]; simp

theorem kclip_within {l h x : K} (h1 : l ≤ x) (h2 : x ≤ h) : kclip (some l) (some h) x = x := by simp [kclip, h1, h2]

/-- With zero controls a 2d aircraft within its limits flies straight: after any steps, under Euler and every Dormand-Prince
schedule, it has moved by its velocity times the time elapsed, and heading and speed are what they were. -/
theorem C49_straight_2d (hpi : 0 < R.pi) (hR : TrigZero R) (env : Env R) (henv : IsRk dopri env) (args : Dubins2dArgs R)
    (p : Dubins2dParams K) (hp : p.Of args) (hrate : p.headingRateMin ≤ 0 ∧ 0 ≤ p.headingRateMax) (hacc : p.accMin ≤ 0 ∧ 0 ≤ p.accMax)
    (e0 : Entity R) (h0 : newDubins2d env args = .ok e0) (hm : PlainMethod e0.dynamics) (ops : List (Op R)) (e : Entity R)
    (he : e = e0.run env ops) (x y heading v : K) (hs : e.state = [.fin x, .fin y, .fin heading, .fin v])
    (hh : -R.pi ≤ heading ∧ heading < R.pi) (hv : p.vMin ≤ v ∧ v ≤ p.vMax) (hist : List (K × Action R))
    (hu : ∀ h ∈ hist, Asks env e h.2 (fun _ : Fin 2 => 0)) :
    ∃ vx vy : K, dubins2dVelocity e = .ok [.fin vx, .fin vy, .fin 0] ∧
      (e.run env (stepsOf hist)).state
        = [.fin (x + elapsed env e hist * vx), .fin (y + elapsed env e hist * vy), .fin heading, .fin v] := by
  have hc := run_sameConfig env ops e0
  have hr := (dubins2d_realised hp h0).congr hc
  have hm' := plain_congr hc hm
  rw [← he] at hr hm'
  have hz : (0 : Fl R) = .fin 0 := Fl.zero_fin
  refine ⟨v * R.cos heading, v * R.sin heading, ?_, ?_⟩
  · unfold dubins2dVelocity
    rw [hs]
    simp [getIdx, bind, Except.bind, pure, Except.pure, dubinsVelocity, hz, Fl.sin, Fl.cos, hR.sin, hR.cos, -Fl.zero_fin]
  · set y0 : Fin 4 → K := ![x, y, heading, v] with hy0
    set w : Fin 4 → K := ![v * R.cos heading, v * R.sin heading, 0, 0] with hw
    have key := hr.run_line henv hpi (y0 := y0) (w := w) (fun c => trivial) ?_ hist hm' ?_ 0 (by rw [hs, toFl4]; simp [hy0])
    · rw [key, toFl4]; simp [hy0, hw]
    · intro c
      funext i
      fin_cases i
      · simp [KModel.post, dubins2dModel, kclip]
      · simp [KModel.post, dubins2dModel, kclip]
      · simpa [KModel.post, dubins2dModel, kclip, hy0, hw] using wrap_zero_id hpi hh.1 hh.2
      · simpa [KModel.post, dubins2dModel, hy0, hw] using kclip_within hv.1 hv.2
    · intro g hg
      refine ⟨_, hu g hg, ?_⟩
      intro t c
      have hsat : (dubins2dModel R p).sat (fun _ => 0) = fun _ => 0 := by
        funext i
        fin_cases i
        · exact kclip_within hrate.1 hrate.2
        · exact kclip_within hacc.1 hacc.2
      rw [hsat]
      funext i
      fin_cases i <;> simp [KModel.field, dubins2dModel, klimit_free, klimit_zero, hy0, hw]

/-- The 3d aircraft at zero roll, likewise (climbing at the angle gamma). -/
theorem C49_straight_3d (hpi : 0 < R.pi) (hR : TrigZero R) (env : Env R) (henv : IsRk dopri env) (args : Dubins3dArgs R)
    (p : Dubins3dParams K) (hp : p.Of args) (hg : p.gammaRateMin ≤ 0 ∧ 0 ≤ p.gammaRateMax) (hroll : p.rollRateMin ≤ 0 ∧ 0 ≤ p.rollRateMax)
    (hacc : p.accMin ≤ 0 ∧ 0 ≤ p.accMax) (e0 : Entity R) (h0 : newDubins3d env args = .ok e0) (hm : PlainMethod e0.dynamics)
    (ops : List (Op R)) (e : Entity R) (he : e = e0.run env ops) (x y z heading gamma v : K)
    (hs : e.state = [.fin x, .fin y, .fin z, .fin heading, .fin gamma, .fin 0, .fin v])
    (hh : -R.pi ≤ heading ∧ heading < R.pi) (hga : -R.pi ≤ gamma ∧ gamma < R.pi) (hgl : p.gammaMin ≤ gamma ∧ gamma ≤ p.gammaMax)
    (hrl : p.rollMin ≤ 0 ∧ 0 ≤ p.rollMax) (hv : p.vMin ≤ v ∧ v ≤ p.vMax) (hv0 : v ≠ 0)
    (hist : List (K × Action R)) (hu : ∀ h ∈ hist, Asks env e h.2 (fun _ : Fin 3 => 0)) :
    ∃ vx vy vz : K, dubins3dVelocity e = .ok [.fin vx, .fin vy, .fin vz] ∧
      (e.run env (stepsOf hist)).state
        = [.fin (x + elapsed env e hist * vx), .fin (y + elapsed env e hist * vy), .fin (z + elapsed env e hist * vz),
           .fin heading, .fin gamma, .fin 0, .fin v] := by
  have hc := run_sameConfig env ops e0
  have hr := (dubins3d_realised hp h0).congr hc
  have hm' := plain_congr hc hm
  rw [← he] at hr hm'
  refine ⟨v * R.cos heading * R.cos gamma, v * R.sin heading * R.cos gamma, -(v * R.sin gamma), ?_, ?_⟩
  · unfold dubins3dVelocity
    rw [hs]
    simp [getIdx, bind, Except.bind, pure, Except.pure, dubinsVelocity, Fl.sin, Fl.cos]
  · set y0 : Fin 7 → K := ![x, y, z, heading, gamma, 0, v] with hy0
    set w : Fin 7 → K := ![v * R.cos heading * R.cos gamma, v * R.sin heading * R.cos gamma, -(v * R.sin gamma), 0, 0, 0, 0] with hw
    have key := hr.run_line henv hpi (y0 := y0) (w := w) (fun c => by simpa [dubins3dModel, hy0, hw] using hv0) ?_ hist hm' ?_ 0
      (by rw [hs, toFl7]; simp [hy0])
    · rw [key, toFl7]; simp [hy0, hw]
    · intro c
      funext i
      fin_cases i
      · simp [KModel.post, dubins3dModel, kclip]
      · simp [KModel.post, dubins3dModel, kclip]
      · simp [KModel.post, dubins3dModel, kclip]
      · simpa [KModel.post, dubins3dModel, kclip, hy0, hw] using wrap_zero_id hpi hh.1 hh.2
      · simpa [KModel.post, dubins3dModel, hy0, hw, kclip_within hgl.1 hgl.2] using wrap_zero_id hpi hga.1 hga.2
      · simpa [KModel.post, dubins3dModel, hy0, hw, kclip_within hrl.1 hrl.2] using wrap_zero_id (x := 0) hpi (by linarith) hpi
      · simpa [KModel.post, dubins3dModel, hy0, hw] using kclip_within hv.1 hv.2
    · intro g hg'
      refine ⟨_, hu g hg', ?_⟩
      intro t c
      have hsat : (dubins3dModel R p).sat (fun _ => 0) = fun _ => 0 := by
        funext i
        fin_cases i
        · exact kclip_within hg.1 hg.2
        · exact kclip_within hroll.1 hroll.2
        · exact kclip_within hacc.1 hacc.2
      rw [hsat]
      funext i
      fin_cases i <;> simp [KModel.field, dubins3dModel, klimit_free, klimit_zero, hy0, hw, hR.tan]

/-- a straight flight of two steps with the default action and a zero vector -/
example : ∃ e : Entity ratFmt, newDubins3d (R := ratFmt) (rkEnv dopri (fun _ _ _ => [1, 2])) { kwargs := [("name", .str "a"), ("heading", .num 1)] } = .ok e ∧
    (decide (e.dynamics.integrationMethod = "RK45") && decide (e.state = [0, 0, 0, 1, 0, 0, 200]) &&
     decide (e.resolve (rkEnv dopri (fun _ _ _ => [1, 2])) .none = .ok (.f64, toFl (fun _ : Fin 3 => (0 : ℚ)))) &&
     decide (e.resolve (rkEnv dopri (fun _ _ _ => [1, 2])) (.ndarray .f32 [0, 0, 0]) = .ok (.f32, toFl (fun _ : Fin 3 => (0 : ℚ)))) &&
     decide ((e.run (rkEnv dopri (fun _ _ _ => [1, 2])) (stepsOf [(3, .none), (4, .ndarray .f32 [0, 0, 0])])).state = [1400, 0, 0, 1, 0, 0, 200])) = true :=
  Demo.of_okAnd (by decide +kernel)
example : Dubins3dParams.Of (R := ratFmt) ⟨200, 400, -0.349066, 0.349066, -1.047198, 1.047198, -0.174533, 0.174533, -0.087266, 0.087266, -96.5, 96.5⟩
    { kwargs := [("name", .str "a")] } := by
  refine ⟨?_, ?_, ?_, ?_, ?_, ?_, ?_, ?_, ?_, ?_, ?_, ?_⟩ <;> decide +kernel
example : ∃ e : Entity ratFmt, newDubins2d (R := ratFmt) (rkEnv dopri (fun _ _ _ => [1, 2])) { kwargs := [("name", .str "a"), ("heading", .num 1)] } = .ok e ∧
    (decide (e.dynamics.integrationMethod = "RK45") && decide (e.state = [0, 0, 1, 200]) &&
     decide (e.resolve (rkEnv dopri (fun _ _ _ => [1, 2])) .none = .ok (.f64, toFl (fun _ : Fin 2 => (0 : ℚ))))) = true :=
  Demo.of_okAnd (by decide +kernel)
example : IsRk dopri (rkEnv dopri (fun _ _ _ => [(1 : ℚ), 2]) : Env ratFmt) := rkEnv_isRk _

end

/-! ## C50 coordinated turn -/

section
open Real

/-- In 3d the heading rate is `32.17 tan(roll) / v`, whatever the position, heading, gamma, time and controls; for `v > 0` and
`|roll| < pi/2` it has the sign of roll. -/
theorem C50_turn_rate (env : Env realFmt) (args : Dubins3dArgs realFmt) (p : Dubins3dParams ℝ) (hp : p.Of args) (e0 : Entity realFmt)
    (h0 : newDubins3d env args = .ok e0) (ops : List (Op realFmt)) (e : Entity realFmt) (he : e = e0.run env ops) (s : Fin 7 → ℝ)
    (hv : s 6 ≠ 0) (t : ℝ) (u : Fin 3 → ℝ) :
    ∃ d : Fin 7 → ℝ, e.dynamics.computeStateDot (.fin t) (toFl s) (toFl u) = .ok (toFl d) ∧ d 3 = 32.17 * tan (s 5) / s 6 ∧
      (0 < s 6 → -(π / 2) < s 5 → s 5 < π / 2 → (0 < d 3 ↔ 0 < s 5) ∧ (d 3 < 0 ↔ s 5 < 0) ∧ (d 3 = 0 ↔ s 5 = 0)) := by
  have hr := (dubins3d_realised hp h0).congr (run_sameConfig env ops e0)
  rw [← he] at hr
  refine ⟨_, computeStateDot_lift hr.dyn.lo hr.dyn.hi hr.dyn.dlo hr.dyn.dhi (hr.dyn.rhs t s u hv), ?_⟩
  have hd : klimit ((dubins3dModel realFmt p).lo 3) ((dubins3dModel realFmt p).hi 3) ((dubins3dModel realFmt p).dlo 3)
      ((dubins3dModel realFmt p).dhi 3) (s 3) ((dubins3dModel realFmt p).rate t s u 3) = 32.17 * tan (s 5) / s 6 := by
    simp only [dubins3dModel, Matrix.cons_val, klimit_free]
    show 3217 / 100 / s 6 * tan (s 5) = _
    field_simp
    ring
  refine ⟨hd, ?_⟩
  intro h1 h2 h3
  simp only [hd]
  have k : ∀ x, -(π / 2) < x → x < π / 2 → 0 < x → 0 < tan x := fun x _ hx h => tan_pos_of_pos_of_lt_pi_div_two h hx
  have kn : ∀ x, -(π / 2) < x → x < π / 2 → x < 0 → tan x < 0 := fun x hx _ h => tan_neg_of_neg_of_pi_div_two_lt h hx
  have pos : 0 < s 5 → 0 < 32.17 * tan (s 5) / s 6 := fun h => div_pos (mul_pos (by norm_num) (k _ h2 h3 h)) h1
  have neg : s 5 < 0 → 32.17 * tan (s 5) / s 6 < 0 := fun h => div_neg_of_neg_of_pos (mul_neg_of_pos_of_neg (by norm_num) (kn _ h2 h3 h)) h1
  have zer : s 5 = 0 → 32.17 * tan (s 5) / s 6 = 0 := fun h => by simp [h]
  rcases lt_trichotomy (s 5) 0 with h | h | h
  · have := neg h
    exact ⟨⟨fun g => by linarith, fun g => by linarith⟩, ⟨fun _ => h, fun _ => this⟩, ⟨fun g => by linarith, fun g => by linarith⟩⟩
  · have := zer h
    exact ⟨⟨fun g => by linarith, fun g => by linarith⟩, ⟨fun g => by linarith, fun g => by linarith⟩, ⟨fun _ => h, fun _ => this⟩⟩
  · have := pos h
    exact ⟨⟨fun _ => h, fun _ => this⟩, ⟨fun g => by linarith, fun g => by linarith⟩, ⟨fun g => by linarith, fun g => by linarith⟩⟩

end

/-! ## C51 translation -/

section
variable {K : Type} {R : Fmt K} [Field K] [LinearOrder K] [IsStrictOrderedRing K] [FloorRing K] [Exact R]

theorem Fl.add_fin_le_ninf (x : Fl R) (c : K) : (x + .fin c ≤ (.ninf : Fl R)) ↔ x ≤ .ninf := by
  cases x <;> first | exact Iff.rfl | simp

theorem Fl.pinf_le_add_fin (x : Fl R) (c : K) : ((.pinf : Fl R) ≤ x + .fin c) ↔ .pinf ≤ x := by
  cases x <;> first | exact Iff.rfl | simp

/-- the stored trajectory plays no part in a step -/
theorem dynStep_trajectory (env : Env R) (d : Dyn R) (a : Option (List (Vec R))) (b : Option (Vec R)) (dt : Fl R) (y u : Vec R) :
    (({ d with trajectory := a, trajectoryT := b } : Dyn R).step env dt y u).2 = (d.step env dt y u).2 := by
  have h : (({ d with trajectory := a, trajectoryT := b } : Dyn R).rawStep env dt y u).2 = (d.rawStep env dt y u).2 := by
    unfold Dyn.rawStep Dyn.odeStep
    dsimp only
    have e : ∀ t y u, ({ d with trajectory := a, trajectoryT := b } : Dyn R).computeStateDot t y u = d.computeStateDot t y u := fun _ _ _ => rfl
    have e2 : ∀ t, ({ d with trajectory := a, trajectoryT := b } : Dyn R).tEval t = d.tEval t := fun _ => rfl
    simp only [e, e2]
    split
    · rfl
    · split
      · split <;> rfl
      · split
        · split
          · rfl
          · split <;> rfl
        · split
          · split <;> rfl
          · rfl
  unfold Dyn.step
  generalize ({ d with trajectory := a, trajectoryT := b } : Dyn R).rawStep env dt y u = p at h
  generalize d.rawStep env dt y u = q at h
  obtain ⟨p1, p2⟩ := p
  obtain ⟨q1, q2⟩ := q
  cases h
  rfl

/-- dynamics that do not see a translation of the state -/
structure Unmoved (n : Nat) (c : Fin n → K) (d : Dyn R) : Prop where
  custom : d.custom = none
  two : 2 ≤ n
  dot : ∀ t y u, y.length = n → d.computeStateDot t (translate c y) u = d.computeStateDot t y u
  clip : ∀ y, y.length = n → npClip (translate c y) d.stateMin d.stateMax = (npClip y d.stateMin d.stateMax).map (translate c)
  clipLen : ∀ y z, y.length = n → npClip y d.stateMin d.stateMax = .ok z → z.length = n
  wrap : ∀ y, y.length = n → d.wrapAngles (translate c y) = (d.wrapAngles y).map (translate c)
  wrapLen : ∀ y z, y.length = n → d.wrapAngles y = .ok z → z.length = n

theorem Unmoved.dynStep {n : Nat} {c : Fin n → K} {d : Dyn R} (h : Unmoved n c d) {policy : Rhs R → K → Vec R → List K}
    (hpol : ∀ f T y, y.length = n → policy f T (translate c y) = policy f T y) (dt : Fl R) (u : Vec R) {y : Vec R} (hy : y.length = n) :
    (d.step (rkEnv dopri policy) dt (translate c y) u).2
      = (d.step (rkEnv dopri policy) dt y u).2.map (fun p => (translate c p.1, p.2)) ∧
    ∀ p, (d.step (rkEnv dopri policy) dt y u).2 = .ok p → p.1.length = n := by
  obtain ⟨k1, k2⟩ := odeStep_translate hpol h.two (d := d) (u := u) (fun t y hy => h.dot t y u hy) dt hy
  unfold Dyn.step Dyn.rawStep
  simp only [h.custom]
  generalize d.odeStep (rkEnv dopri policy) dt (translate c y) u = p at k1
  generalize d.odeStep (rkEnv dopri policy) dt y u = q at k1 k2
  obtain ⟨p1, p2⟩ := p
  obtain ⟨q1, q2⟩ := q
  simp only at k1 k2 ⊢
  subst k1
  cases q2 with
  | error x => exact ⟨rfl, fun p h => by cases h⟩
  | ok r =>
    obtain ⟨s, sd⟩ := r
    have hs := k2 _ rfl
    simp only [Except.map, bind, Except.bind, h.clip s hs]
    cases hc : npClip s d.stateMin d.stateMax with
    | error x => exact ⟨rfl, fun p h => by cases h⟩
    | ok z =>
      have hz := h.clipLen _ _ hs hc
      simp only [h.wrap z hz]
      cases hw : d.wrapAngles z with
      | error x => exact ⟨rfl, fun p h => by cases h⟩
      | ok z' => exact ⟨rfl, fun p g => by cases g; exact h.wrapLen _ _ hz hw⟩

theorem SameConfig.symm {e e' : Entity R} (h : SameConfig e e') : SameConfig e' e := by
  obtain ⟨h1, h2, h3, h4, h5, h6⟩ := h
  exact ⟨h1.symm, h2.symm, h3.symm, h4.symm, h5.symm, by rw [← h6]⟩

/-- `e'` is `e` moved by `c` -/
structure Moved (n : Nat) (c : Fin n → K) (e e' : Entity R) : Prop where
  cfg : SameConfig e e'
  unm : Unmoved n c e.dynamics
  len : e.state.length = n
  state : e'.state = translate c e.state
  stateDot : e'.stateDot = e.stateDot

theorem Moved.step {n : Nat} {c : Fin n → K} {e e' : Entity R} (h : Moved n c e e') {policy : Rhs R → K → Vec R → List K}
    (hpol : ∀ f T y, y.length = n → policy f T (translate c y) = policy f T y) (dt : Fl R) (a : Action R) :
    Moved n c (e.step (rkEnv dopri policy) dt a).entity (e'.step (rkEnv dopri policy) dt a).entity ∧
    (e'.step (rkEnv dopri policy) dt a).outcome = (e.step (rkEnv dopri policy) dt a).outcome ∧
    (e'.step (rkEnv dopri policy) dt a).warned = (e.step (rkEnv dopri policy) dt a).warned := by
  have hc1 := step_sameConfig (rkEnv dopri policy) e dt a
  have hc2 := step_sameConfig (rkEnv dopri policy) e' dt a
  have hcfg : SameConfig (e.step (rkEnv dopri policy) dt a).entity (e'.step (rkEnv dopri policy) dt a).entity :=
    SAD.SameConfig.trans (SAD.SameConfig.symm hc1) (SAD.SameConfig.trans h.cfg hc2)
  have hunm : Unmoved n c (e.step (rkEnv dopri policy) dt a).entity.dynamics := by
    obtain ⟨p, q, hd⟩ := SameConfig.dyn hc1
    rw [hd]
    exact ⟨h.unm.custom, h.unm.two, h.unm.dot, h.unm.clip, h.unm.clipLen, h.unm.wrap, h.unm.wrapLen⟩
  obtain ⟨p, q, hd⟩ := SameConfig.dyn h.cfg
  obtain ⟨-, g2, g3, g4, g5, -⟩ := h.cfg
  have hres : e'.resolve (rkEnv dopri policy) a = e.resolve (rkEnv dopri policy) a := by
    unfold Entity.resolve; rw [g2, g5]
  refine ⟨⟨hcfg, hunm, ?_, ?_, ?_⟩, ?_, ?_⟩ <;> clear hcfg hunm hc1 hc2 <;>
  · unfold Entity.step
    try rw [hres, g3, g4]
    cases e.resolve (rkEnv dopri policy) a with
    | error x => first | exact h.len | exact h.state | exact h.stateDot | rfl
    | ok r =>
      obtain ⟨ty, u⟩ := r
      simp only
      cases exceeds u (e.controlMin.forDType ty) (e.controlMax.forDType ty) with
      | error x => first | exact h.len | exact h.state | exact h.stateDot | rfl
      | ok w =>
        simp only
        cases npClip u (e.controlMin.forDType ty) (e.controlMax.forDType ty) with
        | error x => first | exact h.len | exact h.state | exact h.stateDot | rfl
        | ok v =>
          simp only
          obtain ⟨k1, k2⟩ := h.unm.dynStep hpol dt v h.len
          have k3 := dynStep_trajectory (rkEnv dopri policy) e.dynamics p q dt (translate c e.state) v
          rw [← hd, ← h.state, h.state, k1] at k3
          try rw [h.state]
          try generalize e'.dynamics.step (rkEnv dopri policy) dt (translate c e.state) v = r' at k3
          generalize e.dynamics.step (rkEnv dopri policy) dt e.state v = r at k1 k2 k3
          obtain ⟨r1, r2⟩ := r
          obtain ⟨r1', r2'⟩ := r'
          simp only at k2 k3
          subst k3
          cases r2 with
          | error x => first | exact h.len | exact h.state | exact h.stateDot | rfl
          | ok z => first | exact k2 z rfl | rfl

theorem Moved.run {n : Nat} {c : Fin n → K} {policy : Rhs R → K → Vec R → List K}
    (hpol : ∀ f T y, y.length = n → policy f T (translate c y) = policy f T y) (hist : List (Fl R × Action R)) : ∀ {e e' : Entity R}, Moved n c e e' →
    Moved n c (e.run (rkEnv dopri policy) (hist.map fun h => .step h.1 h.2)) (e'.run (rkEnv dopri policy) (hist.map fun h => .step h.1 h.2)) := by
  induction hist with
  | nil => exact fun h => h
  | cons x hist ih => exact fun h => ih (h.step hpol x.1 x.2).1

theorem translate4 (cx cy : K) (x y h v : Fl R) : translate ![cx, cy, 0, 0] [x, y, h, v] = [x + .fin cx, y + .fin cy, h, v] := by
  simp [translate, toFl4, Fl.add_zero']

theorem dubins2d_unmoved {env : Env R} {args : Dubins2dArgs R} {e : Entity R} (h0 : newDubins2d env args = .ok e) (cx cy : K) :
    Unmoved 4 ![cx, cy, 0, 0] e.dynamics := by
  obtain ⟨h1, h2, h3, h4, h5, h6, h7, -⟩ := dubins2d_config h0
  refine ⟨h7, by norm_num, ?_, ?_, ?_, ?_, ?_⟩
  · intro t y u hy
    obtain ⟨x, y, hd, v, rfl⟩ : ∃ a b c d, y = [a, b, c, d] := by
      match y, hy with | [a, b, c, d], _ => exact ⟨a, b, c, d, rfl⟩
    rw [translate4]
    simp only [Dyn.computeStateDot, Dyn.clipStateDotDirect, Dyn.clipStateDotByStateLimits, h1, h2, h6]
    simp only [affineRhs, dubins2dF, dubins2dG, bind, Except.bind, Arr.toVec, bcast2, List.length_cons, List.length_nil, if_true,
      List.zipWith_cons_cons, Fl.add_fin_le_ninf, Fl.pinf_le_add_fin]
  · intro y hy
    obtain ⟨x, y, hd, v, rfl⟩ : ∃ a b c d, y = [a, b, c, d] := by
      match y, hy with | [a, b, c, d], _ => exact ⟨a, b, c, d, rfl⟩
    rw [translate4, h1, h2]
    have hci : ∀ x : Fl R, Fl.npMin (Fl.npMax x .ninf) .pinf = x := Fl.clip_inf
    simp only [npClip, bind, Except.bind, bcast2, Arr.toVec, Except.map, List.length_cons, List.length_nil, if_true, List.zipWith_cons_cons,
      List.zipWith_nil_left, hci, translate4]
  · intro y z hy h
    obtain ⟨x, y, hd, v, rfl⟩ : ∃ a b c d, y = [a, b, c, d] := by
      match y, hy with | [a, b, c, d], _ => exact ⟨a, b, c, d, rfl⟩
    rw [h1, h2] at h
    simp only [npClip, bind, Except.bind, bcast2, Arr.toVec, List.length_cons, List.length_nil, if_true, List.zipWith_cons_cons,
      List.zipWith_nil_left, Except.ok.injEq] at h
    rw [← h]; rfl
  · intro y hy
    obtain ⟨x, y, hd, v, rfl⟩ : ∃ a b c d, y = [a, b, c, d] := by
      match y, hy with | [a, b, c, d], _ => exact ⟨a, b, c, d, rfl⟩
    rw [translate4]
    simp [Dyn.wrapAngles, h5, bcast2, Except.map, translate4]
  · intro y z hy h
    obtain ⟨x, y, hd, v, rfl⟩ : ∃ a b c d, y = [a, b, c, d] := by
      match y, hy with | [a, b, c, d], _ => exact ⟨a, b, c, d, rfl⟩
    simp [Dyn.wrapAngles, h5, bcast2] at h
    rw [← h]; rfl

theorem translate7 (cx cy cz : K) (x y z h g r v : Fl R) :
    translate ![cx, cy, cz, 0, 0, 0, 0] [x, y, z, h, g, r, v] = [x + .fin cx, y + .fin cy, z + .fin cz, h, g, r, v] := by
  simp [translate, toFl7, Fl.add_zero']

theorem list7 {y : Vec R} (hy : y.length = 7) : ∃ a b c d e f g, y = [a, b, c, d, e, f, g] := by
  match y, hy with | [a, b, c, d, e, f, g], _ => exact ⟨a, b, c, d, e, f, g, rfl⟩

theorem dubins3d_unmoved {env : Env R} {args : Dubins3dArgs R} {e : Entity R} (h0 : newDubins3d env args = .ok e) (cx cy cz : K) :
    Unmoved 7 ![cx, cy, cz, 0, 0, 0, 0] e.dynamics := by
  obtain ⟨h1, h2, h3, h4, h5, h6, h7, -⟩ := dubins3d_config h0
  refine ⟨h7, by norm_num, ?_, ?_, ?_, ?_, ?_⟩
  · intro t y u hy
    obtain ⟨x, y, z, hd, g, r, v, rfl⟩ := list7 hy
    rw [translate7]
    simp only [Dyn.computeStateDot, Dyn.clipStateDotDirect, Dyn.clipStateDotByStateLimits, h1, h2, h6]
    simp only [affineRhs, dubins3dF, dubins3dG, bind, Except.bind, Arr.toVec, bcast2, List.length_cons, List.length_nil, if_true,
      List.zipWith_cons_cons, Fl.add_fin_le_ninf, Fl.pinf_le_add_fin]
  · intro y hy
    obtain ⟨x, y, z, hd, g, r, v, rfl⟩ := list7 hy
    rw [translate7, h1, h2]
    have hci : ∀ x : Fl R, Fl.npMin (Fl.npMax x .ninf) .pinf = x := Fl.clip_inf
    simp only [npClip, bind, Except.bind, bcast2, Arr.toVec, Except.map, List.length_cons, List.length_nil, if_true, List.zipWith_cons_cons,
      List.zipWith_nil_left, hci, translate7]
  · intro y z hy h
    obtain ⟨x, y, z', hd, g, r, v, rfl⟩ := list7 hy
    rw [h1, h2] at h
    simp only [npClip, bind, Except.bind, bcast2, Arr.toVec, List.length_cons, List.length_nil, if_true, List.zipWith_cons_cons,
      List.zipWith_nil_left, Except.ok.injEq] at h
    rw [← h]; rfl
  · intro y hy
    obtain ⟨x, y, z, hd, g, r, v, rfl⟩ := list7 hy
    rw [translate7]
    simp [Dyn.wrapAngles, h5, bcast2, Except.map, translate7]
  · intro y z hy h
    obtain ⟨x, y, z', hd, g, r, v, rfl⟩ := list7 hy
    simp [Dyn.wrapAngles, h5, bcast2] at h
    rw [← h]; rfl

/-- Two 2d aircraft of the same configuration, the second displaced by `(cx, cy)`, flown with the same actions (of any kind,
valid or not, any step sizes, any data including infinities and NaN), for Euler and any Dormand-Prince schedule that does not
depend on the position: after any history the second is still displaced by exactly `(cx, cy)`, heading, speed and the stored
derivative agree, and every further step has the same outcome and warning. -/
theorem C51_translation_2d (env : Env R) (args : Dubins2dArgs R) (e0 : Entity R) (h0 : newDubins2d env args = .ok e0)
    (ops : List (Op R)) (e : Entity R) (he : e = e0.run env ops) (cx cy : K) (x y h v : Fl R) (hs : e.state = [x, y, h, v])
    (e' : Entity R) (he' : e' = { e with state := [x + .fin cx, y + .fin cy, h, v] }) (policy : Rhs R → K → Vec R → List K)
    (hpol : ∀ f T x y h v, policy f T [x + .fin cx, y + .fin cy, h, v] = policy f T [x, y, h, v])
    (hist : List (Fl R × Action R)) (f f' : Entity R) (hf : f = e.run (rkEnv dopri policy) (hist.map fun g => .step g.1 g.2))
    (hf' : f' = e'.run (rkEnv dopri policy) (hist.map fun g => .step g.1 g.2)) :
    (∃ x1 y1 h1 v1 : Fl R, f.state = [x1, y1, h1, v1] ∧ f'.state = [x1 + .fin cx, y1 + .fin cy, h1, v1]) ∧ f'.stateDot = f.stateDot ∧
      ∀ dt a, (f'.step (rkEnv dopri policy) dt a).outcome = (f.step (rkEnv dopri policy) dt a).outcome ∧
        (f'.step (rkEnv dopri policy) dt a).warned = (f.step (rkEnv dopri policy) dt a).warned := by
  have hm : Moved 4 ![cx, cy, 0, 0] e e' := by
    refine ⟨he' ▸ ⟨rfl, rfl, rfl, rfl, rfl, rfl⟩, ?_, by rw [hs]; rfl, by rw [he', hs, translate4], by rw [he']⟩
    obtain ⟨p, q, hd⟩ := SameConfig.dyn (run_sameConfig env ops e0)
    have h := dubins2d_unmoved h0 cx cy
    rw [he, hd]
    exact ⟨h.custom, h.two, h.dot, h.clip, h.clipLen, h.wrap, h.wrapLen⟩
  have hpol' : ∀ f T (y : Vec R), y.length = 4 → policy f T (translate ![cx, cy, 0, 0] y) = policy f T y := by
    intro f T y hy
    match y, hy with | [a, b, c, d], _ => rw [translate4, hpol]
  have := hm.run hpol' hist
  rw [← hf, ← hf'] at this
  refine ⟨?_, this.stateDot, fun dt a => (this.step hpol' dt a).2⟩
  obtain ⟨a, b, c, d, h4⟩ : ∃ a b c d, f.state = [a, b, c, d] := by
    generalize f.state = y, this.len = hy
    match y, hy with | [a, b, c, d], _ => exact ⟨a, b, c, d, rfl⟩
  exact ⟨a, b, c, d, h4, by rw [this.state, h4, translate4]⟩

/-- The same in 3d. -/
theorem C51_translation_3d (env : Env R) (args : Dubins3dArgs R) (e0 : Entity R) (h0 : newDubins3d env args = .ok e0)
    (ops : List (Op R)) (e : Entity R) (he : e = e0.run env ops) (cx cy cz : K) (x y z h g r v : Fl R)
    (hs : e.state = [x, y, z, h, g, r, v]) (e' : Entity R)
    (he' : e' = { e with state := [x + .fin cx, y + .fin cy, z + .fin cz, h, g, r, v] }) (policy : Rhs R → K → Vec R → List K)
    (hpol : ∀ f T x y z h g r v, policy f T [x + .fin cx, y + .fin cy, z + .fin cz, h, g, r, v] = policy f T [x, y, z, h, g, r, v])
    (hist : List (Fl R × Action R)) (f f' : Entity R) (hf : f = e.run (rkEnv dopri policy) (hist.map fun g => .step g.1 g.2))
    (hf' : f' = e'.run (rkEnv dopri policy) (hist.map fun g => .step g.1 g.2)) :
    (∃ x1 y1 z1 h1 g1 r1 v1 : Fl R, f.state = [x1, y1, z1, h1, g1, r1, v1] ∧
      f'.state = [x1 + .fin cx, y1 + .fin cy, z1 + .fin cz, h1, g1, r1, v1]) ∧ f'.stateDot = f.stateDot ∧
      ∀ dt a, (f'.step (rkEnv dopri policy) dt a).outcome = (f.step (rkEnv dopri policy) dt a).outcome ∧
        (f'.step (rkEnv dopri policy) dt a).warned = (f.step (rkEnv dopri policy) dt a).warned := by
  have hm : Moved 7 ![cx, cy, cz, 0, 0, 0, 0] e e' := by
    refine ⟨he' ▸ ⟨rfl, rfl, rfl, rfl, rfl, rfl⟩, ?_, by rw [hs]; rfl, by rw [he', hs, translate7], by rw [he']⟩
    obtain ⟨p, q, hd⟩ := SameConfig.dyn (run_sameConfig env ops e0)
    have h := dubins3d_unmoved h0 cx cy cz
    rw [he, hd]
    exact ⟨h.custom, h.two, h.dot, h.clip, h.clipLen, h.wrap, h.wrapLen⟩
  have hpol' : ∀ f T (y : Vec R), y.length = 7 → policy f T (translate ![cx, cy, cz, 0, 0, 0, 0] y) = policy f T y := by
    intro f T y hy
    obtain ⟨a, b, c, d, e, g, h, rfl⟩ := list7 hy
    rw [translate7, hpol]
  have := hm.run hpol' hist
  rw [← hf, ← hf'] at this
  refine ⟨?_, this.stateDot, fun dt a => (this.step hpol' dt a).2⟩
  obtain ⟨a, b, c, d, e1, g1, h1, h4⟩ := list7 this.len
  exact ⟨a, b, c, d, e1, g1, h1, h4, by rw [this.state, h4, translate7]⟩

/-- a displaced pair, stepped with a dict, an invalid action and a vector over the limits -/
example : ∃ e : Entity ratFmt, newDubins2d (R := ratFmt) Demo.env { kwargs := [("name", .str "a"), ("x", .num 7)] } = .ok e ∧
    decide ((({ e with state := [7 + .fin 5, 0 + .fin (-3), 0, 200] } : Entity ratFmt).run (rkEnv dopri (fun _ _ _ => [1, 2]))
      ([((2 : Fl ratFmt), Action.dict [("acceleration", (3 : Fl ratFmt))]), (1, .other), (1, .ndarray .f64 [9, 9])].map fun g => .step g.1 g.2)).state
      = ((e.run (rkEnv dopri (fun _ _ _ => [1, 2]))
      ([((2 : Fl ratFmt), Action.dict [("acceleration", (3 : Fl ratFmt))]), (1, .other), (1, .ndarray .f64 [9, 9])].map fun g => .step g.1 g.2)).state.zipWith (· + ·) [5, -3, 0, 0])) = true :=
  Demo.of_okAnd (by decide +kernel)

end

/-! ## C52 acceleration -/

section
open Real

theorem dubinsAcceleration_exact (acc v : Fl realFmt) (vel : Vec realFmt) : dubinsAcceleration acc v vel = (vel.map (· / v)).map (acc * ·) := by
  unfold dubinsAcceleration scalarOp
  cases v.fits32 <;> cases acc.fits32 <;> simp

theorem dubins_acc (v h γ d : ℝ) (hv : v ≠ 0) :
    (((toFl (along v h γ) : Vec realFmt).map (· / .fin v)).map (.fin d * ·)) = toFl (fun i => d * (along v h γ i / v)) := by
  rw [toFl3, toFl3]
  simp [Fl.fin_div_fin _ _ hv]

/-- For every state with `v ≠ 0` and every stored derivative, the reported acceleration is parallel to the velocity and has
magnitude `|v_dot|` (2d). -/
theorem C52_acceleration_2d (e : Entity realFmt) (s d : Fin 4 → ℝ) (hs : e.state = toFl s) (hd : e.stateDot = toFl d) (hv : s 3 ≠ 0) :
    ∃ a w : Fin 3 → ℝ, dubins2dAcceleration e = .ok (toFl a) ∧ dubins2dVelocity e = .ok (toFl w) ∧
      a 0 ^ 2 + a 1 ^ 2 + a 2 ^ 2 = d 3 ^ 2 ∧ ∀ i, s 3 * a i = d 3 * w i := by
  have hz : (0 : Fl realFmt) = .fin 0 := Fl.zero_fin
  have hvel : dubins2dVelocity e = .ok (toFl (along (s 3) (s 2) 0)) := by
    unfold dubins2dVelocity
    rw [hs, toFl4]
    simp only [getIdx, bind, Except.bind, pure, Except.pure, List.getElem?_cons_succ, List.getElem?_cons_zero, hz, dubinsVelocity_fin]
  refine ⟨fun i => d 3 * (along (s 3) (s 2) 0 i / s 3), along (s 3) (s 2) 0, ?_, hvel, ?_, ?_⟩
  · unfold dubins2dAcceleration
    rw [hvel, hs, hd, toFl4 s, toFl4 d]
    simp only [getIdx, bind, Except.bind, pure, Except.pure, List.getElem?_cons_succ, List.getElem?_cons_zero, dubinsAcceleration_exact, dubins_acc _ _ _ _ hv]
  · have := along_sq (s 3) (s 2) 0
    field_simp
    linear_combination d 3 ^ 2 * this
  · intro i; field_simp

/-- The same in 3d. -/
theorem C52_acceleration_3d (e : Entity realFmt) (s d : Fin 7 → ℝ) (hs : e.state = toFl s) (hd : e.stateDot = toFl d) (hv : s 6 ≠ 0) :
    ∃ a w : Fin 3 → ℝ, dubins3dAcceleration e = .ok (toFl a) ∧ dubins3dVelocity e = .ok (toFl w) ∧
      a 0 ^ 2 + a 1 ^ 2 + a 2 ^ 2 = d 6 ^ 2 ∧ ∀ i, s 6 * a i = d 6 * w i := by
  have hvel : dubins3dVelocity e = .ok (toFl (along (s 6) (s 3) (s 4))) := by
    unfold dubins3dVelocity
    rw [hs, toFl7]
    simp only [getIdx, bind, Except.bind, pure, Except.pure, List.getElem?_cons_succ, List.getElem?_cons_zero, dubinsVelocity_fin]
  refine ⟨fun i => d 6 * (along (s 6) (s 3) (s 4) i / s 6), along (s 6) (s 3) (s 4), ?_, hvel, ?_, ?_⟩
  · unfold dubins3dAcceleration
    rw [hvel, hs, hd, toFl7 s, toFl7 d]
    simp only [getIdx, bind, Except.bind, pure, Except.pure, List.getElem?_cons_succ, List.getElem?_cons_zero, dubinsAcceleration_exact, dubins_acc _ _ _ _ hv]
  · have := along_sq (s 6) (s 3) (s 4)
    field_simp
    linear_combination d 6 ^ 2 * this
  · intro i; field_simp

/-- With `v = 0` all three components are NaN, whatever the stored derivative (2d and 3d). -/
theorem C52_acceleration_standstill (e : Entity realFmt) :
    (∀ (s : Fin 4 → ℝ) (d0 d1 d2 d3 : Fl realFmt), e.state = toFl s → e.stateDot = [d0, d1, d2, d3] → s 3 = 0 →
      dubins2dAcceleration e = .ok [.nan, .nan, .nan]) ∧
    (∀ (s : Fin 7 → ℝ) (d0 d1 d2 d3 d4 d5 d6 : Fl realFmt), e.state = toFl s → e.stateDot = [d0, d1, d2, d3, d4, d5, d6] → s 6 = 0 →
      dubins3dAcceleration e = .ok [.nan, .nan, .nan]) := by
  have hz : (0 : Fl realFmt) = .fin 0 := Fl.zero_fin
  have hnan : ∀ x : Fl realFmt, x * .nan = .nan := by intro x; cases x <;> rfl
  have h00 : (.fin 0 / .fin 0 : Fl realFmt) = .nan := by show Fl.div _ _ = _; simp [Fl.div, Fl.infSign]
  constructor
  · intro s d0 d1 d2 d3 hs hd hv
    unfold dubins2dAcceleration dubins2dVelocity
    rw [hs, hd, toFl4 s]
    simp only [getIdx, bind, Except.bind, pure, Except.pure, List.getElem?_cons_succ, List.getElem?_cons_zero, hz, dubinsVelocity_fin]
    simp [toFl3, along, hv, h00, hnan, dubinsAcceleration_exact]
  · intro s d0 d1 d2 d3 d4 d5 d6 hs hd hv
    unfold dubins3dAcceleration dubins3dVelocity
    rw [hs, hd, toFl7 s]
    simp only [getIdx, bind, Except.bind, pure, Except.pure, List.getElem?_cons_succ, List.getElem?_cons_zero, dubinsVelocity_fin]
    simp [toFl3, along, hv, h00, hnan, dubinsAcceleration_exact]

/-- What the property leaves out: along any motion `heading(t), v(t)` in the plane, the derivative of the velocity vector is the
reported (tangential) acceleration plus the normal term `v * heading_rate`. So, for `v ≠ 0`, the reported value is the
acceleration exactly when the aircraft is not turning. -/
theorem C52_normal_part_missing (H V : ℝ → ℝ) (t h' v' : ℝ) (hH : HasDerivAt H h' t) (hV : HasDerivAt V v' t) (hv : V t ≠ 0)
    (e : Entity realFmt) (x y d0 d1 : ℝ) (hs : e.state = toFl ![x, y, H t, V t]) (hd : e.stateDot = toFl ![d0, d1, h', v']) :
    ∃ a : Fin 3 → ℝ, dubins2dAcceleration e = .ok (toFl a) ∧
      HasDerivAt (fun τ => V τ * cos (H τ)) (a 0 - V t * h' * sin (H t)) t ∧
      HasDerivAt (fun τ => V τ * sin (H τ)) (a 1 + V t * h' * cos (H t)) t ∧
      (HasDerivAt (fun τ => V τ * cos (H τ)) (a 0) t ∧ HasDerivAt (fun τ => V τ * sin (H τ)) (a 1) t ↔ h' = 0) := by
  obtain ⟨a, w, h1, h2, -, h4⟩ := C52_acceleration_2d e _ _ hs hd hv
  have hz : (0 : Fl realFmt) = .fin 0 := Fl.zero_fin
  have hvel : dubins2dVelocity e = .ok (toFl (along (V t) (H t) 0)) := by
    unfold dubins2dVelocity
    rw [hs, toFl4]
    simp only [getIdx, bind, Except.bind, pure, Except.pure, List.getElem?_cons_succ, List.getElem?_cons_zero, hz, dubinsVelocity_fin]
    rfl
  have hw : w = along (V t) (H t) 0 := by
    rw [hvel, Except.ok.injEq, toFl3, toFl3] at h2
    simp at h2
    funext i
    fin_cases i
    · exact h2.1.symm
    · exact h2.2.1.symm
    · exact h2.2.2.symm
  subst hw
  simp only [Matrix.cons_val] at h4
  have a0 : a 0 = v' * cos (H t) := by
    have := h4 0
    simp [along] at this
    field_simp at this ⊢
    linear_combination this
  have a1 : a 1 = v' * sin (H t) := by
    have := h4 1
    simp [along] at this
    field_simp at this ⊢
    linear_combination this
  have e0 : HasDerivAt (fun τ => V τ * cos (H τ)) (a 0 - V t * h' * sin (H t)) t := by
    have := hV.mul hH.cos
    rwa [show a 0 - V t * h' * sin (H t) = v' * cos (H t) + V t * (-sin (H t) * h') by rw [a0]; ring]
  have e1 : HasDerivAt (fun τ => V τ * sin (H τ)) (a 1 + V t * h' * cos (H t)) t := by
    have := hV.mul hH.sin
    rwa [show a 1 + V t * h' * cos (H t) = v' * sin (H t) + V t * (cos (H t) * h') by rw [a1]; ring]
  refine ⟨a, h1, e0, e1, ?_, ?_⟩
  · rintro ⟨k0, k1⟩
    have r0 := k0.unique e0
    have r1 := k1.unique e1
    have : (V t * h') ^ 2 = 0 := by
      have s0 : V t * h' * sin (H t) = 0 := by linarith
      have s1 : V t * h' * cos (H t) = 0 := by linarith
      linear_combination (V t * h' * sin (H t)) * s0 + (V t * h' * cos (H t)) * s1 - (V t * h') ^ 2 * sin_sq_add_cos_sq (H t)
    rcases mul_eq_zero.1 (pow_eq_zero_iff (two_ne_zero)|>.1 this) with h | h
    · exact absurd h hv
    · exact h
  · rintro rfl
    constructor
    · simpa using e0
    · simpa using e1

example : ∃ e : Entity realFmt, e.state = toFl ![1, 2, 3, 4] ∧ e.stateDot = toFl ![5, 6, 7, 8] :=
  ⟨{ Demo.entity "RK45" with state := toFl ![1, 2, 3, 4], stateDot := toFl ![5, 6, 7, 8] }, rfl, rfl⟩

end

end SAD
