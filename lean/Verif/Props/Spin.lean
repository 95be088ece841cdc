import Verif.Lemmas.Spin
import Verif.Lemmas.Timed
import Verif.Props.SixDof
import Verif.Props.Dubins

/-!
# C97: a spinning spacecraft under RK45
-/

set_option linter.unusedSectionVars false

namespace SAD
open Spec Real Quaternion

/-- length of a vector -/
noncomputable def Spec.len3 (w : Fin 3 → ℝ) : ℝ := √(inner3 w w)

/-- the quaternion of the rotation by the angle `|w| t` about `w` -/
noncomputable def Spec.turnAbout (w : Fin 3 → ℝ) (t : ℝ) : ℍ[ℝ] :=
  (cos (len3 w * t / 2) : ℍ[ℝ]) + (sin (len3 w * t / 2) / len3 w) • pureQ w

/-- no torque from the rotation itself: `w` is along a principal axis of the inertia, or the inertias that matter are equal -/
def Spec.NoGyro (J w : Fin 3 → ℝ) : Prop := (J 1 - J 2) * w 1 * w 2 = 0 ∧ (J 2 - J 0) * w 0 * w 2 = 0 ∧ (J 0 - J 1) * w 0 * w 1 = 0

theorem pureQ_unit (w : Fin 3 → ℝ) : ∃ (j : ℍ[ℝ]) (hj : j * j = -1), j.re = 0 ∧ pureQ w = len3 w • j ∧
    ∀ t, turnAbout w t = spinHom j hj (Complex.exp (Complex.I * (len3 w * t / 2 : ℝ))) := by
  have hsq : len3 w ^ 2 = w 0 ^ 2 + w 1 ^ 2 + w 2 ^ 2 := by
    rw [len3, Real.sq_sqrt]
    · simp [inner3]; ring
    · simp only [inner3]; nlinarith [mul_self_nonneg (w 0), mul_self_nonneg (w 1), mul_self_nonneg (w 2)]
  have hexp : ∀ x : ℝ, Complex.exp (Complex.I * x) = ⟨cos x, sin x⟩ := by
    intro x
    rw [mul_comm, Complex.exp_mul_I]
    apply Complex.ext <;> simp [Complex.cos_ofReal_re, Complex.sin_ofReal_re]
  by_cases h0 : len3 w = 0
  · have hw : pureQ w = 0 := by
      rw [h0] at hsq
      have h1 : w 0 = 0 := by nlinarith [sq_nonneg (w 0), sq_nonneg (w 1), sq_nonneg (w 2)]
      have h2 : w 1 = 0 := by nlinarith [sq_nonneg (w 0), sq_nonneg (w 1), sq_nonneg (w 2)]
      have h3 : w 2 = 0 := by nlinarith [sq_nonneg (w 0), sq_nonneg (w 1), sq_nonneg (w 2)]
      ext <;> simp [h1, h2, h3]
    refine ⟨pureQ ![1, 0, 0], by ext <;> simp, rfl, by rw [h0, hw, zero_smul], fun t => ?_⟩
    rw [hexp, spinHom_apply, turnAbout, h0, hw]
    simp
  · refine ⟨(len3 w)⁻¹ • pureQ w, ?_, by simp, by rw [smul_smul, mul_inv_cancel₀ h0, one_smul], fun t => ?_⟩
    · have h2 : (len3 w)⁻¹ ^ 2 * (w 0 ^ 2 + w 1 ^ 2 + w 2 ^ 2) = 1 := by rw [← hsq]; field_simp
      ext
      · simp; linear_combination -h2
      all_goals
        simp [h0]
        try ring
    · rw [hexp, spinHom_apply, turnAbout]
      simp [smul_smul, div_eq_mul_inv]

/-- the quaternion of a state -/
noncomputable def attitude : (Fin 13 → ℝ) →ₗ[ℝ] ℍ[ℝ] where
  toFun y := quatLast (quatOf y)
  map_add' a b := by ext <;> simp [quatOf]
  map_smul' c a := by ext <;> simp [quatOf]

theorem attitude_norm (y : Fin 13 → ℝ) : ‖quatLast (quatOf y)‖ ^ 2 = quatSq (quatOf y) := by
  rw [pow_two, ← Quaternion.normSq_eq_norm_mul_self, Quaternion.normSq_def']
  simp [quatOf, quatSq]
  ring

/-- C97: a spacecraft that turns at constant rates, within their limits, and is asked for no moments (and any thrusts) keeps those rates exactly
under RK45, whatever steps the solver takes. Its quaternion differs from the exact one, turned by `|w| t` about `w`, by an error that grows at most
linearly in time, with the fifth power of the angle turned per call; it gets shorter, never longer, and likewise at most linearly. -/
theorem C97_spin (env : Env realFmt) (henv : IsRk dopri env) (uninit : List Nat → Vec realFmt) (args : SixDofArgs realFmt) (p : SixDofParams ℝ)
    (hp : p.Of args) (hI : ∀ i, p.inertia i i ≠ 0) (hm : args.integrationMethod = "RK45") (e0 : Entity realFmt) (h0 : newSixDof env uninit args = .ok e0)
    (hacc : ∀ i, 0 ≤ p.accLimit i * p.inertia i i) (ops : List (Op realFmt)) (e : Entity realFmt) (he : e = e0.run env ops)
    (y : Fin 13 → ℝ) (hs : e.state = toFl y) (w : Fin 3 → ℝ) (hw : rateOf y = w) (hlim : ∀ i, |w i| ≤ p.velLimit i)
    (hgyro : NoGyro (fun i => p.inertia i i) w) (η : ℝ) (hη : len3 w * η ≤ 9 / 5) (hist : List (ℝ × Action realFmt))
    (hT : ∀ h ∈ hist, 0 ≤ h.1 ∧ h.1 ≤ η) (hu : ∀ h ∈ hist, ∃ fx fy fz : ℝ, Asks env e h.2 ![fx, fy, fz, 0, 0, 0]) :
    ∃ y' : Fin 13 → ℝ, (e.run env (stepsOf hist)).state = toFl y' ∧ rateOf y' = w ∧
      ‖quatLast (quatOf y') - quatLast (quatOf y) * turnAbout w (elapsed env e hist)‖
        ≤ len3 w * elapsed env e hist / 2 * (len3 w * η / 2) ^ 5 / 2100 * ‖quatLast (quatOf y)‖ ∧
      quatSq (quatOf y') ≤ quatSq (quatOf y) ∧
      (1 - len3 w * elapsed env e hist / 2 * (len3 w * η / 2) ^ 5 / 1800) * quatSq (quatOf y) ≤ quatSq (quatOf y') := by
  have hc := run_sameConfig env ops e0
  obtain ⟨hr0, -, g1, g2⟩ := sixDof_realised hp hI h0
  have hr := hr0.congr hc
  have hm0 : PlainMethod e0.dynamics := .inl (by rw [g1, hm])
  have hmeth : (e0.run env ops).dynamics.integrationMethod = "RK45" := by rw [(sameConfig_method hc).1, g1, hm]
  have hm' := plain_congr hc hm0
  rw [← he] at hr hm' hmeth
  obtain ⟨j, hj, hre, hpw, hturn⟩ := pureQ_unit w
  have hL0 : 0 ≤ len3 w := Real.sqrt_nonneg _
  obtain ⟨M, hM⟩ : ∃ M, M = sixDofModel p args.bodyFrameThrust := ⟨_, rfl⟩
  let D : Submodule ℝ (Fin 13 → ℝ) := LinearMap.ker (LinearMap.proj (R := ℝ) (φ := fun _ : Fin 13 => ℝ) 10) ⊓
    LinearMap.ker (LinearMap.proj (R := ℝ) (φ := fun _ : Fin 13 => ℝ) 11) ⊓ LinearMap.ker (LinearMap.proj (R := ℝ) (φ := fun _ : Fin 13 => ℝ) 12)
  have hsat : ∀ fx fy fz : ℝ, M.sat ![fx, fy, fz, 0, 0, 0] 3 = 0 ∧ M.sat ![fx, fy, fz, 0, 0, 0] 4 = 0 ∧ M.sat ![fx, fy, fz, 0, 0, 0] 5 = 0 := by
    intro fx fy fz
    rw [hM]
    refine ⟨?_, ?_, ?_⟩
    · exact kclip_within (neg_nonpos.2 (hacc 0)) (hacc 0)
    · exact kclip_within (neg_nonpos.2 (hacc 1)) (hacc 1)
    · exact kclip_within (neg_nonpos.2 (hacc 2)) (hacc 2)
  have hfield : ∀ fx fy fz t z, rateOf z = w → M.field (M.sat ![fx, fy, fz, 0, 0, 0]) t z 10 = 0 ∧
      M.field (M.sat ![fx, fy, fz, 0, 0, 0]) t z 11 = 0 ∧ M.field (M.sat ![fx, fy, fz, 0, 0, 0]) t z 12 = 0 ∧
      attitude (M.field (M.sat ![fx, fy, fz, 0, 0, 0]) t z) = attitude z * ((len3 w / 2) • j) := by
    intro fx fy fz t z hz
    obtain ⟨s3, s4, s5⟩ := hsat fx fy fz
    generalize M.sat ![fx, fy, fz, 0, 0, 0] = u at *
    have z0 : z 10 = w 0 := by rw [← hz]; rfl
    have z1 : z 11 = w 1 := by rw [← hz]; rfl
    have z2 : z 12 = w 2 := by rw [← hz]; rfl
    obtain ⟨k0, k1, k2⟩ := hgyro
    rw [hM]
    refine ⟨?_, ?_, ?_, ?_⟩
    · have : (sixDofModel p args.bodyFrameThrust).rate t z u 10 = 0 := by
        simp [sixDofModel, sixDofRate, z1, z2, s3, k0]
      simp only [KModel.field, this]
      exact klimit_zero _ _ _
    · have : (sixDofModel p args.bodyFrameThrust).rate t z u 11 = 0 := by
        simp [sixDofModel, sixDofRate, z0, z2, s4, k1]
      simp only [KModel.field, this]
      exact klimit_zero _ _ _
    · have : (sixDofModel p args.bodyFrameThrust).rate t z u 12 = 0 := by
        simp [sixDofModel, sixDofRate, z0, z1, s5, k2]
      simp only [KModel.field, this]
      exact klimit_zero _ _ _
    · have e1 : (len3 w / 2) • j = (1 / 2 : ℝ) • pureQ w := by rw [hpw, smul_smul]; congr 1; ring
      rw [e1]
      simp only [attitude, LinearMap.coe_mk, AddHom.coe_mk]
      ext
      all_goals
        simp [quatOf, sixDofModel_field_orbit, sixDofRate, z0, z1, z2]
        ring
  have hst : ∀ fx fy fz, Stable (M.field (M.sat ![fx, fy, fz, 0, 0, 0])) (fun z => rateOf z = w) D := by
    intro fx fy fz
    constructor
    · intro t z hz
      obtain ⟨a, b, c, -⟩ := hfield fx fy fz t z hz
      exact ⟨⟨a, b⟩, c⟩
    · intro a d ha hd
      obtain ⟨⟨d0, d1⟩, d2⟩ := hd
      change d 10 = 0 at d0
      change d 11 = 0 at d1
      change d 12 = 0 at d2
      rw [← ha]
      funext i
      fin_cases i <;> simp [rateOf, d0, d1, d2]
  have hpostw : ∀ z : Fin 13 → ℝ, rateOf z = w → rateOf (M.post realFmt.pi z) = w := by
    intro z hz
    have z0 : z 10 = w 0 := by rw [← hz]; rfl
    have z1 : z 11 = w 1 := by rw [← hz]; rfl
    have z2 : z 12 = w 2 := by rw [← hz]; rfl
    rw [hM]
    funext i
    fin_cases i
    · show (sixDofModel p args.bodyFrameThrust).post realFmt.pi z 10 = w 0
      simp only [KModel.post, sixDofModel, z0, Matrix.cons_val]
      exact kclip_within (abs_le.1 (hlim 0)).1 (abs_le.1 (hlim 0)).2
    · show (sixDofModel p args.bodyFrameThrust).post realFmt.pi z 11 = w 1
      simp only [KModel.post, sixDofModel, z1, Matrix.cons_val]
      exact kclip_within (abs_le.1 (hlim 1)).1 (abs_le.1 (hlim 1)).2
    · show (sixDofModel p args.bodyFrameThrust).post realFmt.pi z 12 = w 2
      simp only [KModel.post, sixDofModel, z2, Matrix.cons_val]
      exact kclip_within (abs_le.1 (hlim 2)).1 (abs_le.1 (hlim 2)).2
  have hpostq : ∀ z : Fin 13 → ℝ, quatOf (M.post realFmt.pi z) = quatOf z := by
    intro z
    rw [hM]
    funext i
    fin_cases i
    · exact sixDofModel_post p args.bodyFrameThrust realFmt.pi z 3 (by decide)
    · exact sixDofModel_post p args.bodyFrameThrust realFmt.pi z 4 (by decide)
    · exact sixDofModel_post p args.bodyFrameThrust realFmt.pi z 5 (by decide)
    · exact sixDofModel_post p args.bodyFrameThrust realFmt.pi z 6 (by decide)
  obtain ⟨c1, hc1⟩ : ∃ c, c = len3 w / 2 * (len3 w * η / 2) ^ 5 / 2100 := ⟨_, rfl⟩
  obtain ⟨c2, hc2⟩ : ∃ c, c = len3 w / 2 * (len3 w * η / 2) ^ 5 / 1800 := ⟨_, rfl⟩
  rw [← hM] at hr
  obtain ⟨y', r1, -, r2, z, r3, r4, r5, r6⟩ := Realises.run_timed henv pi_pos (M := M) (d := e.dynamics)
    (fun τ z => 0 ≤ τ ∧ rateOf z = w ∧ ∃ c : ℂ, attitude z = attitude y * spinHom j hj c ∧ ‖c‖ ≤ 1 ∧ 1 - c2 * τ ≤ ‖c‖ ^ 2 ∧
      ‖c - Complex.exp (Complex.I * (len3 w * τ / 2 : ℝ))‖ ≤ c1 * τ)
    (fun T u => (∃ fx fy fz : ℝ, u = ![fx, fy, fz, 0, 0, 0]) ∧ 0 ≤ T ∧ T ≤ η) (S := fun z => rateOf z = w) (D := D) (fun _ _ => by rw [hM]; trivial)
    (by rintro T u ⟨⟨fx, fy, fz, rfl⟩, -⟩; exact hst fx fy fz) (fun τ z h => h.2.1)
    (by
      rintro τ T u ⟨⟨fx, fy, fz, rfl⟩, hT0, hTη⟩ tab hs z hrun ⟨q0, q1, c, q2, q3, q4, q5⟩
      have hst := hst fx fy fz
      have hfield := hfield fx fy fz
      generalize M.sat ![fx, fy, fz, 0, 0, 0] = u at *
      have hb : ∀ h ∈ hs, 0 ≤ h ∧ h ≤ η := by
        intro h hh
        refine ⟨hrun.nonneg hT0 h hh, le_trans ?_ hTη⟩
        rw [← hrun.sum]
        exact List.single_le_sum (hrun.nonneg hT0) h hh
      have hsum := hrun.sum
      have htab : tab = kdopri := by
        rcases hrun.kind with ⟨-, h⟩ | ⟨h, -⟩
        · exact h
        · rw [hmeth] at h; exact absurd h (by decide)
      subst htab
      have hinv := rkChain_inv kdopri _ (fun z => rateOf z = w) D hst.field hst.move 0 z hs q1
      let G : ℝ → (Fin 13 → ℝ) → (Fin 13 → ℝ) := fun t z => if rateOf z = w then M.field u t z else
        ![0, 0, 0, (attitude z * ((len3 w / 2) • j)).imI, (attitude z * ((len3 w / 2) • j)).imJ, (attitude z * ((len3 w / 2) • j)).imK,
          (attitude z * ((len3 w / 2) • j)).re, 0, 0, 0, 0, 0, 0]
      have hcong := rkChain_congrOn kdopri (G := G) hst.field hst.move (fun t z hz => by simp only [G, if_pos hz]) 0 z hs q1
      have hmap := rkChain_map kdopri attitude G (fun _ q => q * ((len3 w / 2) • j)) (by
        intro t z
        by_cases hz : rateOf z = w
        · simp only [G, if_pos hz]; exact (hfield t z hz).2.2.2
        · simp only [G, if_neg hz]
          generalize attitude z * ((len3 w / 2) • j) = q
          ext <;> rfl) 0 z hs
      rw [← hcong, spin_chain j hj, q2, mul_assoc, ← map_mul] at hmap
      obtain ⟨b1, b2, b3⟩ := spinProd_bounds hL0 hη hs hb
      rw [hsum] at b2 b3
      generalize rkChain kdopri (M.field u) 0 z hs = z' at *
      generalize spinProd (len3 w) hs = P at *
      refine ⟨add_nonneg q0 hT0, hpostw _ hinv, c * P, ?_, ?_, ?_, ?_⟩
      · rw [← hmap]
        simp only [attitude, LinearMap.coe_mk, AddHom.coe_mk]
        rw [hpostq]
      · rw [norm_mul]; exact mul_le_one₀ q3 (norm_nonneg _) b1
      · rw [norm_mul, mul_pow]
        have e1 : ‖c‖ ^ 2 ≤ 1 := by nlinarith [norm_nonneg c]
        have e2 : ‖P‖ ^ 2 ≤ 1 := by nlinarith [norm_nonneg P]
        have e3 : len3 w * T / 2 * (len3 w * η / 2) ^ 5 / 1800 = c2 * T := by rw [hc2]; ring
        rw [e3] at b2
        nlinarith [mul_nonneg (sub_nonneg.2 e1) (sub_nonneg.2 e2)]
      · have e2 : Complex.exp (Complex.I * (len3 w * (τ + T) / 2 : ℝ))
            = Complex.exp (Complex.I * (len3 w * τ / 2 : ℝ)) * Complex.exp (Complex.I * (len3 w * T / 2 : ℝ)) := by
          rw [← Complex.exp_add]; congr 1; push_cast; ring
        have n1 : ‖Complex.exp (Complex.I * (len3 w * T / 2 : ℝ))‖ = 1 := by rw [mul_comm]; exact Complex.norm_exp_ofReal_mul_I _
        have e3 : len3 w * T / 2 * (len3 w * η / 2) ^ 5 / 2100 = c1 * T := by rw [hc1]; ring
        rw [e3] at b3
        rw [e2]
        generalize Complex.exp (Complex.I * (len3 w * τ / 2 : ℝ)) = E at *
        generalize Complex.exp (Complex.I * (len3 w * T / 2 : ℝ)) = E' at *
        rw [show c * P - E * E' = c * (P - E') + (c - E) * E' by ring]
        refine (norm_add_le _ _).trans ?_
        rw [norm_mul, norm_mul, n1, mul_one]
        have := mul_le_of_le_one_left (norm_nonneg (P - E')) q3
        linarith)
    hist hr hm' rfl (fun h hh => by
      obtain ⟨fx, fy, fz, ha⟩ := hu h hh
      exact ⟨_, ha, ⟨fx, fy, fz, rfl⟩, hT h hh⟩) (τ := 0) (y := y) hs
    ⟨le_rfl, hw, 1, by rw [map_one, mul_one], by simp, by simp, by simp⟩
  simp only [zero_add] at r5 r6
  have r3' : quatLast (quatOf y') = quatLast (quatOf y) * spinHom j hj z := r3
  refine ⟨y', r1, r2, ?_, ?_, ?_⟩
  · rw [r3', hturn, ← mul_sub, ← map_sub, norm_mul, spinHom_norm j hj hre, mul_comm]
    refine mul_le_mul_of_nonneg_right (r6.trans (le_of_eq ?_)) (norm_nonneg _)
    rw [hc1]; ring
  · rw [← attitude_norm, ← attitude_norm, r3', norm_mul, spinHom_norm j hj hre, mul_pow]
    exact mul_le_of_le_one_right (sq_nonneg _) (by nlinarith [norm_nonneg z])
  · rw [← attitude_norm, ← attitude_norm, r3', norm_mul, spinHom_norm j hj hre, mul_pow, mul_comm]
    refine mul_le_mul_of_nonneg_left (le_trans (le_of_eq ?_) r5) (sq_nonneg _)
    rw [hc2]; ring

/-- the default spacecraft, spinning about its first axis: constructed in exact arithmetic, one step with thrust keeps the rate -/
example : ∃ e : Entity ratFmt, newSixDof (R := ratFmt) (rkEnv dopri (fun _ _ _ => [1])) (fun _ => [])
      { kwargs := [("name", .str "a"), ("q4", .num 1), ("wx", .num (.fin (1 / 100)))] } = .ok e ∧
    (decide (e.dynamics.integrationMethod = "RK45") && decide (e.state = toFl (![0, 0, 0, 0, 0, 0, 1, 0, 0, 0, 1 / 100, 0, 0] : Fin 13 → ℚ)) &&
    decide (e.resolve (rkEnv dopri (fun _ _ _ => [1])) (.dict [("thrust_x", 1)]) = .ok (.f64, toFl (![1, 0, 0, 0, 0, 0] : Fin 6 → ℚ))) &&
    decide ((e.step (rkEnv dopri (fun _ _ _ => [1])) 1 (.dict [("thrust_x", 1)])).outcome = .ok ()) &&
    decide ((e.step (rkEnv dopri (fun _ _ _ => [1])) 1 (.dict [("thrust_x", 1)])).entity.state[10]? = some (.fin (1 / 100)))) = true :=
  Demo.of_okAnd (by decide +kernel)
/-- its three moments of inertia are equal, so that it may spin about any axis; the inertias of a box allow its principal axes -/
example : NoGyro (fun _ => 573 / 10000) ![1 / 100, 2 / 100, -1 / 100] ∧ NoGyro ![1, 2, 3] ![0, 1 / 100, 0] := by
  simp [NoGyro]
/-- `len3` and `turnAbout`: a turn by 180 degrees about the first axis -/
example : len3 ![3, 0, -4] = 5 ∧ turnAbout ![π, 0, 0] 1 = pureQ ![1, 0, 0] := by
  have h : len3 ![π, 0, 0] = π := by
    rw [len3]
    simp [inner3, Real.sqrt_mul_self pi_pos.le]
  constructor
  · rw [len3, Real.sqrt_eq_iff_mul_self_eq (by simp [inner3]; norm_num) (by norm_num)]
    simp [inner3]; norm_num
  · rw [turnAbout, h, mul_one, cos_pi_div_two, sin_pi_div_two]
    ext <;> simp [pi_ne_zero]
/-- the steps allowed: at the largest rate of the default spacecraft, up to half a minute -/
example : len3 ![34907 / 1000000, 34907 / 1000000, -34907 / 1000000] * 29 ≤ 9 / 5 := by
  have : len3 ![34907 / 1000000, 34907 / 1000000, -34907 / 1000000] ≤ 62 / 1000 := by
    rw [len3, Real.sqrt_le_left (by norm_num)]
    simp [inner3]; norm_num
  linarith

end SAD
