import Verif.Props.Spin
import Mathlib.Analysis.SpecialFunctions.Trigonometric.ArctanDeriv

/-!
# C124: a spinning spacecraft under Euler
-/

set_option linter.unusedSectionVars false

namespace SAD
open Spec Real Quaternion

/-- how long a spacecraft that turns at `w` appears to have turned after a call of `T` seconds with Euler -/
noncomputable def Spec.apparent (w : Fin 3 → ℝ) (T : ℝ) : ℝ := 2 * arctan (len3 w * T / 2) / len3 w

theorem arctan_bounds {x : ℝ} (hx : 0 ≤ x) : x - x ^ 3 / 3 ≤ arctan x ∧ arctan x ≤ x := by
  have d1 : ∀ x : ℝ, HasDerivAt (fun x => arctan x - (x - x ^ 3 / 3)) (1 / (1 + x ^ 2) - (1 - x ^ 2)) x := by
    intro x
    have h3 : HasDerivAt (fun x : ℝ => x ^ 3 / 3) (x ^ 2) x := by
      have := (hasDerivAt_pow 3 x).div_const 3
      have e : ((3 : ℕ) : ℝ) * x ^ (3 - 1) / 3 = x ^ 2 := by norm_num
      rwa [e] at this
    exact (hasDerivAt_arctan x).sub ((hasDerivAt_id x).sub h3)
  have d2 : ∀ x : ℝ, HasDerivAt (fun x => x - arctan x) (1 - 1 / (1 + x ^ 2)) x := fun x => (hasDerivAt_id x).sub (hasDerivAt_arctan x)
  have m1 : Monotone (fun x => arctan x - (x - x ^ 3 / 3)) := monotone_of_hasDerivAt_nonneg d1 (by
    intro x
    have h : 0 < 1 + x ^ 2 := by positivity
    show 0 ≤ 1 / (1 + x ^ 2) - (1 - x ^ 2)
    rw [show 1 / (1 + x ^ 2) - (1 - x ^ 2) = x ^ 4 / (1 + x ^ 2) by field_simp; ring]
    positivity)
  have m2 : Monotone (fun x => x - arctan x) := monotone_of_hasDerivAt_nonneg d2 (by
    intro x
    have h : 0 < 1 + x ^ 2 := by positivity
    show 0 ≤ 1 - 1 / (1 + x ^ 2)
    rw [show 1 - 1 / (1 + x ^ 2) = x ^ 2 / (1 + x ^ 2) by field_simp; ring]
    positivity)
  have a := m1 hx
  have b := m2 hx
  simp only [arctan_zero] at a b
  constructor <;> linarith

/-- C124: the apparent time is behind, by at most `|w|^2 T^3 / 12` -/
theorem C124_behind (w : Fin 3 → ℝ) (hw : len3 w ≠ 0) (T : ℝ) (hT : 0 ≤ T) : apparent w T ≤ T ∧ T - len3 w ^ 2 * T ^ 3 / 12 ≤ apparent w T := by
  have hL : 0 < len3 w := lt_of_le_of_ne (Real.sqrt_nonneg _) (Ne.symm hw)
  obtain ⟨a, b⟩ := arctan_bounds (x := len3 w * T / 2) (by positivity)
  rw [apparent, div_le_iff₀ hL, le_div_iff₀ hL]
  constructor
  · linarith
  · nlinarith

theorem euler_factor (θ : ℝ) : (⟨1, θ⟩ : ℂ) = (√(1 + θ ^ 2) : ℝ) • Complex.exp (Complex.I * (arctan θ : ℝ)) := by
  have h : 0 < √(1 + θ ^ 2) := Real.sqrt_pos.2 (by positivity)
  have hexp : Complex.exp (Complex.I * (arctan θ : ℝ)) = ⟨cos (arctan θ), sin (arctan θ)⟩ := by
    rw [mul_comm, Complex.exp_mul_I]
    apply Complex.ext <;> simp [Complex.cos_ofReal_re, Complex.sin_ofReal_re]
  rw [hexp, cos_arctan, sin_arctan]
  apply Complex.ext
  · simp [h.ne']
  · simp; field_simp

/-- C124: a spacecraft that turns at constant rates, within their limits, and is asked for no moments (and any thrusts) keeps those rates exactly
under Euler. In `k` calls of `T` seconds its quaternion is multiplied by exactly `(1 + (|w| T / 2)^2)^(k/2)` in length and turned about `w`,
exactly as far as the true one turns in the shorter time `k 2 arctan(|w| T / 2) / |w|`. -/
theorem C124_spin (env : Env realFmt) (henv : IsRk dopri env) (uninit : List Nat → Vec realFmt) (args : SixDofArgs realFmt) (p : SixDofParams ℝ)
    (hp : p.Of args) (hI : ∀ i, p.inertia i i ≠ 0) (hm : args.integrationMethod = "Euler") (hts : ∃ k ≤ 0, args.trajectorySamples = some k)
    (e0 : Entity realFmt) (h0 : newSixDof env uninit args = .ok e0)
    (hacc : ∀ i, 0 ≤ p.accLimit i * p.inertia i i) (ops : List (Op realFmt)) (e : Entity realFmt) (he : e = e0.run env ops)
    (y : Fin 13 → ℝ) (hs : e.state = toFl y) (w : Fin 3 → ℝ) (hw : rateOf y = w) (hlim : ∀ i, |w i| ≤ p.velLimit i)
    (hgyro : NoGyro (fun i => p.inertia i i) w) (T : ℝ) (hist : List (ℝ × Action realFmt))
    (hT : ∀ h ∈ hist, h.1 = T) (hu : ∀ h ∈ hist, ∃ fx fy fz : ℝ, Asks env e h.2 ![fx, fy, fz, 0, 0, 0]) :
    ∃ (y' : Fin 13 → ℝ) (k : ℕ), (e.run env (stepsOf hist)).state = toFl y' ∧ elapsed env e hist = k * T ∧ rateOf y' = w ∧
      quatLast (quatOf y') = √(1 + (len3 w * T / 2) ^ 2) ^ k • (quatLast (quatOf y) * turnAbout w (k * apparent w T)) := by
  have hc := run_sameConfig env ops e0
  obtain ⟨hr0, -, g1, g2⟩ := sixDof_realised hp hI h0
  have hr := hr0.congr hc
  have hplain : PlainMethod e0.dynamics := by
    obtain ⟨k, hk, hts⟩ := hts
    refine .inr ⟨by rw [g1, hm], ?_⟩
    rw [hts] at g2; cases g2; exact hk
  have hmeth : (e0.run env ops).dynamics.integrationMethod = "Euler" := by rw [(sameConfig_method hc).1, g1, hm]
  have hm' := plain_congr hc hplain
  rw [← he] at hr hm' hmeth
  obtain ⟨j, hj, hre, hpw, hturn⟩ := pureQ_unit w
  obtain ⟨M, hM⟩ : ∃ M, M = sixDofModel p args.bodyFrameThrust := ⟨_, rfl⟩
  have hsat : ∀ fx fy fz : ℝ, M.sat ![fx, fy, fz, 0, 0, 0] 3 = 0 ∧ M.sat ![fx, fy, fz, 0, 0, 0] 4 = 0 ∧ M.sat ![fx, fy, fz, 0, 0, 0] 5 = 0 := by
    intro fx fy fz
    rw [hM]
    refine ⟨?_, ?_, ?_⟩
    · exact kclip_within (neg_nonpos.2 (hacc 0)) (hacc 0)
    · exact kclip_within (neg_nonpos.2 (hacc 1)) (hacc 1)
    · exact kclip_within (neg_nonpos.2 (hacc 2)) (hacc 2)
  have hfield : ∀ fx fy fz t z, rateOf z = w → M.field (M.sat ![fx, fy, fz, 0, 0, 0]) t z 10 = 0 ∧
      M.field (M.sat ![fx, fy, fz, 0, 0, 0]) t z 11 = 0 ∧ M.field (M.sat ![fx, fy, fz, 0, 0, 0]) t z 12 = 0 ∧
      attitude (M.field (M.sat ![fx, fy, fz, 0, 0, 0]) t z) = attitude z * ((len3 w / 2) • j) := by
    intro fx fy fz t z hz
    obtain ⟨s3, s4, s5⟩ := hsat fx fy fz
    generalize M.sat ![fx, fy, fz, 0, 0, 0] = u at *
    have z0 : z 10 = w 0 := by rw [← hz]; rfl
    have z1 : z 11 = w 1 := by rw [← hz]; rfl
    have z2 : z 12 = w 2 := by rw [← hz]; rfl
    obtain ⟨k0, k1, k2⟩ := hgyro
    rw [hM]
    refine ⟨?_, ?_, ?_, ?_⟩
    · have : (sixDofModel p args.bodyFrameThrust).rate t z u 10 = 0 := by
        simp [sixDofModel, sixDofRate, z1, z2, s3, k0]
      simp only [KModel.field, this]
      exact klimit_zero _ _ _
    · have : (sixDofModel p args.bodyFrameThrust).rate t z u 11 = 0 := by
        simp [sixDofModel, sixDofRate, z0, z2, s4, k1]
      simp only [KModel.field, this]
      exact klimit_zero _ _ _
    · have : (sixDofModel p args.bodyFrameThrust).rate t z u 12 = 0 := by
        simp [sixDofModel, sixDofRate, z0, z1, s5, k2]
      simp only [KModel.field, this]
      exact klimit_zero _ _ _
    · have e1 : (len3 w / 2) • j = (1 / 2 : ℝ) • pureQ w := by rw [hpw, smul_smul]; congr 1; ring
      rw [e1]
      simp only [attitude, LinearMap.coe_mk, AddHom.coe_mk]
      ext
      all_goals
        simp [quatOf, sixDofModel_field_orbit, sixDofRate, z0, z1, z2]
        ring
  have hpostw : ∀ z : Fin 13 → ℝ, rateOf z = w → rateOf (M.post realFmt.pi z) = w := by
    intro z hz
    have z0 : z 10 = w 0 := by rw [← hz]; rfl
    have z1 : z 11 = w 1 := by rw [← hz]; rfl
    have z2 : z 12 = w 2 := by rw [← hz]; rfl
    rw [hM]
    funext i
    fin_cases i
    · show (sixDofModel p args.bodyFrameThrust).post realFmt.pi z 10 = w 0
      simp only [KModel.post, sixDofModel, z0, Matrix.cons_val]
      exact kclip_within (abs_le.1 (hlim 0)).1 (abs_le.1 (hlim 0)).2
    · show (sixDofModel p args.bodyFrameThrust).post realFmt.pi z 11 = w 1
      simp only [KModel.post, sixDofModel, z1, Matrix.cons_val]
      exact kclip_within (abs_le.1 (hlim 1)).1 (abs_le.1 (hlim 1)).2
    · show (sixDofModel p args.bodyFrameThrust).post realFmt.pi z 12 = w 2
      simp only [KModel.post, sixDofModel, z2, Matrix.cons_val]
      exact kclip_within (abs_le.1 (hlim 2)).1 (abs_le.1 (hlim 2)).2
  have hpostq : ∀ z : Fin 13 → ℝ, quatOf (M.post realFmt.pi z) = quatOf z := by
    intro z
    rw [hM]
    funext i
    fin_cases i
    · exact sixDofModel_post p args.bodyFrameThrust realFmt.pi z 3 (by decide)
    · exact sixDofModel_post p args.bodyFrameThrust realFmt.pi z 4 (by decide)
    · exact sixDofModel_post p args.bodyFrameThrust realFmt.pi z 5 (by decide)
    · exact sixDofModel_post p args.bodyFrameThrust realFmt.pi z 6 (by decide)
  rw [← hM] at hr
  obtain ⟨θ, hθ⟩ : ∃ θ, θ = len3 w * T / 2 := ⟨_, rfl⟩
  obtain ⟨y', r1, k, r2, r3, r4⟩ := Realises.run_timed henv pi_pos (M := M) (d := e.dynamics)
    (fun τ z => ∃ k : ℕ, τ = k * T ∧ rateOf z = w ∧ attitude z = attitude y * spinHom j hj (⟨1, θ⟩ ^ k))
    (fun t u => (∃ fx fy fz : ℝ, u = ![fx, fy, fz, 0, 0, 0]) ∧ t = T) (S := fun _ => True) (D := ⊤) (fun _ _ => by rw [hM]; trivial)
    (fun _ _ _ => Stable.univ _) (fun _ _ _ => trivial)
    (by
      rintro τ t u ⟨⟨fx, fy, fz, rfl⟩, rfl⟩ tab hs z hrun ⟨k, q0, q1, q2⟩
      obtain ⟨rfl, rfl⟩ : tab = keuler ∧ hs = [t] := by
        rcases hrun.kind with ⟨h, -⟩ | ⟨-, h⟩
        · rw [hmeth] at h; exact absurd h (by decide)
        · exact h
      rw [rkChain_keuler]
      obtain ⟨f0, f1, f2, f3⟩ := hfield fx fy fz 0 z q1
      generalize M.field (M.sat ![fx, fy, fz, 0, 0, 0]) 0 z = v at *
      refine ⟨k + 1, by rw [q0]; push_cast; ring, hpostw _ ?_, ?_⟩
      · rw [← q1]
        funext i
        fin_cases i <;> simp [rateOf, f0, f1, f2]
      · have e1 : attitude (M.post realFmt.pi (z + t • v)) = attitude (z + t • v) := by
          simp only [attitude, LinearMap.coe_mk, AddHom.coe_mk, hpostq]
        have e2 : spinHom j hj ⟨1, θ⟩ = 1 + θ • j := by rw [spinHom_apply]; simp
        rw [e1, map_add, map_smul, f3, q2, pow_succ, map_mul, e2, hθ, ← mul_assoc, mul_add, mul_one, mul_smul_comm, mul_smul_comm, smul_smul]
        congr 2
        ring)
    hist hr hm' rfl (fun h hh => by
      obtain ⟨fx, fy, fz, ha⟩ := hu h hh
      exact ⟨_, ha, ⟨fx, fy, fz, rfl⟩, hT h hh⟩) (τ := 0) (y := y) hs
    ⟨0, by simp, hw, by rw [pow_zero, map_one, mul_one]⟩
  rw [zero_add] at r2
  refine ⟨y', k, r1, r2, r3, ?_⟩
  have r4' : quatLast (quatOf y') = quatLast (quatOf y) * spinHom j hj (⟨1, θ⟩ ^ k) := r4
  have hang : len3 w * (k * apparent w T) / 2 = k * arctan θ := by
    rw [apparent, ← hθ]
    by_cases h : len3 w = 0
    · rw [hθ, h]; simp
    · field_simp
  rw [r4', hturn, hang, ← hθ, euler_factor, smul_pow, map_smul, mul_smul_comm, ← Complex.exp_nat_mul]
  congr 4
  push_cast
  ring

/-- C124: in general, whatever moments and thrusts are asked for, the quaternion never gets shorter under Euler, and in calls of at most `η`
seconds its squared length grows at most by the factor `exp(W η t / 4)`, where `W` is the sum of the squares of the rate limits. -/
theorem C124_length (env : Env realFmt) (henv : IsRk dopri env) (uninit : List Nat → Vec realFmt) (args : SixDofArgs realFmt) (p : SixDofParams ℝ)
    (hp : p.Of args) (hI : ∀ i, p.inertia i i ≠ 0) (hm : args.integrationMethod = "Euler") (hts : ∃ k ≤ 0, args.trajectorySamples = some k)
    (e0 : Entity realFmt) (h0 : newSixDof env uninit args = .ok e0)
    (ops : List (Op realFmt)) (e : Entity realFmt) (he : e = e0.run env ops)
    (y : Fin 13 → ℝ) (hs : e.state = toFl y) (hlim : ∀ i, |rateOf y i| ≤ p.velLimit i) (W : ℝ)
    (hW : W = p.velLimit 0 ^ 2 + p.velLimit 1 ^ 2 + p.velLimit 2 ^ 2) (η : ℝ) (hist : List (ℝ × Action realFmt))
    (hT : ∀ h ∈ hist, 0 ≤ h.1 ∧ h.1 ≤ η) (hu : ∀ h ∈ hist, ∃ u : Fin 6 → ℝ, Asks env e h.2 u) :
    ∃ y' : Fin 13 → ℝ, (e.run env (stepsOf hist)).state = toFl y' ∧ quatSq (quatOf y) ≤ quatSq (quatOf y') ∧
      quatSq (quatOf y') ≤ exp (W * η * elapsed env e hist / 4) * quatSq (quatOf y) := by
  have hc := run_sameConfig env ops e0
  obtain ⟨hr0, -, g1, g2⟩ := sixDof_realised hp hI h0
  have hr := hr0.congr hc
  have hplain : PlainMethod e0.dynamics := by
    obtain ⟨k, hk, hts⟩ := hts
    refine .inr ⟨by rw [g1, hm], ?_⟩
    rw [hts] at g2; cases g2; exact hk
  have hmeth : (e0.run env ops).dynamics.integrationMethod = "Euler" := by rw [(sameConfig_method hc).1, g1, hm]
  have hm' := plain_congr hc hplain
  rw [← he] at hr hm' hmeth
  have hv0 : ∀ i, 0 ≤ p.velLimit i := fun i => (abs_nonneg _).trans (hlim i)
  obtain ⟨y', r1, -, r2, r3⟩ := Realises.run_timed henv pi_pos (M := sixDofModel p args.bodyFrameThrust) (d := e.dynamics)
    (fun τ z => (∀ i, |rateOf z i| ≤ p.velLimit i) ∧ quatSq (quatOf y) ≤ quatSq (quatOf z) ∧
      quatSq (quatOf z) ≤ exp (W * η * τ / 4) * quatSq (quatOf y))
    (fun t _ => 0 ≤ t ∧ t ≤ η) (S := fun _ => True) (D := ⊤) (fun _ _ => trivial)
    (fun _ _ _ => Stable.univ _) (fun _ _ _ => trivial)
    (by
      rintro τ t u ⟨ht0, htη⟩ tab hs z hrun ⟨q0, q1, q2⟩
      obtain ⟨rfl, rfl⟩ : tab = keuler ∧ hs = [t] := by
        rcases hrun.kind with ⟨h, -⟩ | ⟨-, h⟩
        · rw [hmeth] at h; exact absurd h (by decide)
        · exact h
      rw [rkChain_keuler]
      have hq : quatSq (quatOf ((sixDofModel p args.bodyFrameThrust).post realFmt.pi
          (z + t • (sixDofModel p args.bodyFrameThrust).field ((sixDofModel p args.bodyFrameThrust).sat u) 0 z)))
          = (1 + t ^ 2 / 4 * inner3 (rateOf z) (rateOf z)) * quatSq (quatOf z) := by
        simp [quatSq, quatOf, rateOf, inner3, sixDofModel_post, sixDofModel_field_orbit, sixDofRate]
        ring
      have hz0 : 0 ≤ quatSq (quatOf z) := by simp only [quatSq]; positivity
      have hin : inner3 (rateOf z) (rateOf z) ≤ W := by
        have h : ∀ i, rateOf z i ^ 2 ≤ p.velLimit i ^ 2 := fun i => sq_le_sq' (by linarith [(abs_le.1 (q0 i)).1]) (abs_le.1 (q0 i)).2
        have := h 0
        have := h 1
        have := h 2
        rw [hW]; simp only [inner3]; nlinarith
      have hin0 : 0 ≤ inner3 (rateOf z) (rateOf z) := by
        simp only [inner3]; nlinarith [mul_self_nonneg (rateOf z 0), mul_self_nonneg (rateOf z 1), mul_self_nonneg (rateOf z 2)]
      refine ⟨?_, ?_, ?_⟩
      · intro i
        generalize z + t • (sixDofModel p args.bodyFrameThrust).field ((sixDofModel p args.bodyFrameThrust).sat u) 0 z = x
        have hcl : ∀ {v a : ℝ}, 0 ≤ v → |kclip (some (-v)) (some v) a| ≤ v := by
          intro v a hv
          rw [abs_le]
          simp only [kclip]
          constructor
          · exact le_min (le_max_right _ _) (by linarith)
          · exact min_le_right _ _
        fin_cases i
        · exact hcl (hv0 0)
        · exact hcl (hv0 1)
        · exact hcl (hv0 2)
      · rw [hq]
        have : 0 ≤ t ^ 2 / 4 * inner3 (rateOf z) (rateOf z) := by positivity
        nlinarith
      · rw [hq]
        have h1 : 1 + t ^ 2 / 4 * inner3 (rateOf z) (rateOf z) ≤ exp (W * η * t / 4) := by
          have a1 : t ^ 2 / 4 * inner3 (rateOf z) (rateOf z) ≤ W * η * t / 4 := by
            have b1 : t ^ 2 ≤ η * t := by nlinarith
            have b2 : t ^ 2 * inner3 (rateOf z) (rateOf z) ≤ η * t * W := mul_le_mul b1 hin hin0 (le_trans (sq_nonneg t) b1)
            linarith
          linarith [add_one_le_exp (W * η * t / 4)]
        calc _ ≤ exp (W * η * t / 4) * (exp (W * η * τ / 4) * quatSq (quatOf y)) := mul_le_mul h1 q2 hz0 (exp_pos _).le
          _ = _ := by rw [← mul_assoc, ← exp_add]; congr 2; ring)
    hist hr hm' rfl (fun h hh => by
      obtain ⟨u, ha⟩ := hu h hh
      exact ⟨_, ha, hT h hh⟩) (τ := 0) (y := y) hs
    ⟨hlim, le_rfl, by simp⟩
  rw [zero_add] at r3
  exact ⟨y', r1, r2, r3⟩

/-- the default spacecraft with Euler, spinning about its first axis: two calls of five seconds -/
example : ∃ e : Entity ratFmt, newSixDof (R := ratFmt) (rkEnv dopri (fun _ _ _ => [1])) (fun _ => [])
      { integrationMethod := "Euler", kwargs := [("name", .str "a"), ("q4", .num 1), ("wx", .num (.fin (1 / 100)))] } = .ok e ∧
    (decide (e.dynamics.integrationMethod = "Euler") && decide (e.dynamics.trajectorySamples ≤ 0) &&
    decide (e.state = toFl (![0, 0, 0, 0, 0, 0, 1, 0, 0, 0, 1 / 100, 0, 0] : Fin 13 → ℚ)) &&
    decide (e.resolve (rkEnv dopri (fun _ _ _ => [1])) (.dict [("thrust_x", 1)]) = .ok (.f64, toFl (![1, 0, 0, 0, 0, 0] : Fin 6 → ℚ))) &&
    decide (elapsed (rkEnv dopri (fun _ _ _ => [1])) e [(5, .dict [("thrust_x", 1)]), (5, .dict [("thrust_x", 1)])] = 10)) = true :=
  Demo.of_okAnd (by decide +kernel)
/-- the lag: at 5 radians per second a call of 0.4 seconds turns by 90 degrees, as the true attitude does in pi / 10 seconds -/
example : len3 ![3, 0, -4] = 5 ∧ apparent ![3, 0, -4] (2 / 5) = π / 10 := by
  have h : len3 ![3, 0, -4] = 5 := by
    rw [len3, Real.sqrt_eq_iff_mul_self_eq (by simp [inner3]; norm_num) (by norm_num)]
    simp [inner3]; norm_num
  refine ⟨h, ?_⟩
  rw [apparent, h, show (5 : ℝ) * (2 / 5) / 2 = 1 by norm_num, arctan_one]
  ring

end SAD
