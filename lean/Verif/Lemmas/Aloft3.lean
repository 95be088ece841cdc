import Verif.Lemmas.Aloft2
import Verif.Props.DubinsPrecision3

/-! # The 3d aircraft in double precision, call by call -/

set_option linter.unusedSectionVars false

namespace SAD
open Spec

section
variable {w : Fin 7 → ℚ} {L X M s t : ℚ} {r : ℝ}

theorem aloft3_shift (U : Fin 3 → ℚ) (y : Fin 7 → ℝ) (k : ℤ) : aloft3 U (backBy 3 y k) = aloft3 U y := by
  have h1 : Real.cos (y 3 - 2 * Real.pi * k) = Real.cos (y 3) := by rw [mul_comm (2 * Real.pi), Real.cos_sub_int_mul_two_pi]
  have h2 : Real.sin (y 3 - 2 * Real.pi * k) = Real.sin (y 3) := by rw [mul_comm (2 * Real.pi), Real.sin_sub_int_mul_two_pi]
  unfold aloft3
  rw [backBy_self, backBy_ne (show (4 : Fin 7) ≠ 3 by decide), backBy_ne (show (5 : Fin 7) ≠ 3 by decide), backBy_ne (show (6 : Fin 7) ≠ 3 by decide), h1, h2]

/-- where the aircraft is -/
structure Aloft3 (w : Fin 7 → ℚ) (X s : ℚ) (r : ℝ) (y : Fin 7 → ℝ) : Prop where
  size : ∀ i, |y i| ≤ w i * X
  slow : s ≤ y 6
  roll : |y 5| ≤ r

theorem Spec.AloftUnits3.real (Z : AloftUnits3 w L X M s t) : 0 ≤ M ∧ (0 : ℝ) ≤ X ∧ (0 : ℝ) ≤ M ∧
    (w 6 + w 6 * X * (w 3 + w 4) : ℝ) ≤ L * w 0 ∧ (w 6 + w 6 * X * (w 3 + w 4) : ℝ) ≤ L * w 1 ∧ (w 6 + w 6 * X * w 4 : ℝ) ≤ L * w 2 ∧
    (33 / s * ((1 + t ^ 2) * w 5 + t / s * w 6) : ℝ) ≤ L * w 3 ∧ (0 : ℝ) < s ∧ (33 / s * (t + 1) : ℝ) ≤ w 3 * M := by
  have wp := Z.weights.pos
  have X0 := Z.size.1
  have M0 : 0 ≤ M := by
    have h1 : (0 : ℚ) ≤ w 0 * M := (by positivity : (0 : ℚ) ≤ 2⁻¹ ^ 40).trans (Z.rates 0).1
    by_contra h'
    nlinarith [wp 0]
  obtain ⟨l0, l1, l2, l3⟩ := Z.lip
  obtain ⟨s0, s1⟩ := Z.slow
  exact ⟨M0, by exact_mod_cast X0, by exact_mod_cast M0, by exact_mod_cast l0, by exact_mod_cast l1, by exact_mod_cast l2, by exact_mod_cast l3, by exact_mod_cast s0,
    by exact_mod_cast s1⟩

theorem Spec.AloftUnits3.lip0 (Z : AloftUnits3 w L X M s t) : 0 ≤ L ∧ (0 : ℝ) ≤ L := by
  have wp := Z.weights.pos
  have L0 : 0 ≤ L := by
    have h1 : 0 ≤ w 6 * X * w 4 := mul_nonneg (mul_nonneg (wp 6).le Z.size.1) (wp 4).le
    by_contra h'
    nlinarith [wp 6, wp 2, Z.lip.2.2.1]
  exact ⟨L0, by exact_mod_cast L0⟩

theorem unit_prod_diff {a b A B p q : ℝ} (ha : |a - A| ≤ p) (hb : |b - B| ≤ q) (hb1 : |b| ≤ 1) (hA : |A| ≤ 1) : |a * b - A * B| ≤ p + q := by
  rw [show a * b - A * B = (a - A) * b + A * (b - B) by ring]
  refine (abs_add_le _ _).trans ?_
  rw [abs_mul, abs_mul]
  have h1 : |a - A| * |b| ≤ p * 1 := mul_le_mul ha hb1 (abs_nonneg _) ((abs_nonneg _).trans ha)
  have h2 : |A| * |b - B| ≤ 1 * q := mul_le_mul hA hb (abs_nonneg _) zero_le_one
  linarith

theorem unit_prod {a b : ℝ} (ha : |a| ≤ 1) (hb : |b| ≤ 1) : |a * b| ≤ 1 := by
  rw [abs_mul]
  exact mul_le_one₀ ha (abs_nonneg _) hb

/-- the derivative is Lipschitz -/
theorem aloft3_lip (Z : AloftUnits3 w L X M s t) (hr : r < Real.pi / 2) (ht : Real.tan r ≤ t) {U : Fin 3 → ℚ} {y z : Fin 7 → ℝ} (hy : Aloft3 w X s r y)
    (hz : Aloft3 w X s r z) {e : ℝ} (h : ∀ i, |y i - z i| ≤ w i * e) (i : Fin 7) : |aloft3 U y i - aloft3 U z i| ≤ w i * (L * e) := by
  obtain ⟨-, -, -, l0, l1, l2, l3, s0, -⟩ := Z.real
  obtain ⟨-, L0⟩ := Z.lip0
  have wp := Z.weights.cast_pos
  have e0 : 0 ≤ e := by
    by_contra h'
    have := (abs_nonneg _).trans (h 0)
    nlinarith [wp 0]
  have we : ∀ i, 0 ≤ (w i : ℝ) * e := fun i => mul_nonneg (wp i).le e0
  have c3 : |Real.cos (y 3) - Real.cos (z 3)| ≤ w 3 * e := (Real.abs_cos_sub_cos_le _ _).trans (h 3)
  have s3 : |Real.sin (y 3) - Real.sin (z 3)| ≤ w 3 * e := (Real.abs_sin_sub_sin_le _ _).trans (h 3)
  have c4 : |Real.cos (y 4) - Real.cos (z 4)| ≤ w 4 * e := (Real.abs_cos_sub_cos_le _ _).trans (h 4)
  have s4 : |Real.sin (y 4) - Real.sin (z 4)| ≤ w 4 * e := (Real.abs_sin_sub_sin_le _ _).trans (h 4)
  have z0 : ∀ i : Fin 7, 0 ≤ (w i : ℝ) * (L * e) := fun i => mul_nonneg (wp i).le (mul_nonneg L0 e0)
  have same : ∀ (i : Fin 7) (u : ℝ), |u - u| ≤ w i * (L * e) := fun i u => by
    rw [sub_self, abs_zero]
    exact z0 _
  fin_cases i
  · have k1 := velocity_diff (h 6) (unit_prod_diff c3 c4 (Real.abs_cos_le_one _) (Real.abs_cos_le_one _)) (unit_prod (Real.abs_cos_le_one _) (Real.abs_cos_le_one _))
      (hz.size 6) (add_nonneg (we 3) (we 4))
    have k2 := mul_le_mul_of_nonneg_right l0 e0
    show |y 6 * Real.cos (y 3) * Real.cos (y 4) - z 6 * Real.cos (z 3) * Real.cos (z 4)| ≤ (w 0 : ℝ) * (L * e)
    rw [mul_assoc, mul_assoc (z 6)]
    linarith
  · have k1 := velocity_diff (h 6) (unit_prod_diff s3 c4 (Real.abs_cos_le_one _) (Real.abs_sin_le_one _)) (unit_prod (Real.abs_sin_le_one _) (Real.abs_cos_le_one _))
      (hz.size 6) (add_nonneg (we 3) (we 4))
    have k2 := mul_le_mul_of_nonneg_right l1 e0
    show |y 6 * Real.sin (y 3) * Real.cos (y 4) - z 6 * Real.sin (z 3) * Real.cos (z 4)| ≤ (w 1 : ℝ) * (L * e)
    rw [mul_assoc, mul_assoc (z 6)]
    linarith
  · have k1 := velocity_diff (h 6) s4 (Real.abs_sin_le_one _) (hz.size 6) (we 4)
    have k2 := mul_le_mul_of_nonneg_right l2 e0
    show |-(y 6 * Real.sin (y 4)) - -(z 6 * Real.sin (z 4))| ≤ (w 2 : ℝ) * (L * e)
    rw [← abs_neg, neg_sub_neg, neg_sub]
    linarith
  · have k1 := turn_diff hr ht hy.roll hz.roll s0 hy.slow hz.slow (h 5) (h 6)
    have k2 := mul_le_mul_of_nonneg_right l3 e0
    refine k1.trans (le_trans (le_of_eq ?_) (k2.trans (le_of_eq ?_)))
    · ring
    · show _ = (w 3 : ℝ) * (L * e)
      ring
  · exact same 4 _
  · exact same 5 _
  · exact same 6 _

theorem Spec.AloftUnits3.speed (Z : AloftUnits3 w L X M s t) :
    (w 6 : ℝ) * X ≤ w 0 * (L * X) ∧ (w 6 : ℝ) * X ≤ w 1 * (L * X) ∧ (w 6 : ℝ) * X ≤ w 2 * (L * X) := by
  obtain ⟨-, X0, -, l0, l1, l2, -⟩ := Z.real
  have wp := Z.weights.cast_pos
  have h1 : 0 ≤ (w 6 : ℝ) * X * w 3 := mul_nonneg (mul_nonneg (wp 6).le X0) (wp 3).le
  have h2 : 0 ≤ (w 6 : ℝ) * X * w 4 := mul_nonneg (mul_nonneg (wp 6).le X0) (wp 4).le
  have k0 := mul_le_mul_of_nonneg_right l0 X0
  have k1 := mul_le_mul_of_nonneg_right l1 X0
  have k2 := mul_le_mul_of_nonneg_right l2 X0
  have k3 := mul_nonneg h1 X0
  have k4 := mul_nonneg h2 X0
  exact ⟨by linarith, by linarith, by linarith⟩

/-- the turn rate -/
theorem turn_rate_le (Z : AloftUnits3 w L X M s t) {v f : ℝ} (hv : s ≤ v) (hf : |Real.tan f| ≤ t) : |32.17 / v * Real.tan f| ≤ w 3 * M := by
  obtain ⟨-, -, -, -, -, -, -, s0, h1⟩ := Z.real
  have v0 : 0 < v := s0.trans_le hv
  have t0 : (0 : ℝ) ≤ t := (abs_nonneg _).trans hf
  rw [abs_mul, abs_of_pos (by positivity : 0 < 32.17 / v)]
  have a0 : 32.17 / v ≤ 33 / s := div_le_div₀ (by norm_num) (by norm_num) s0 hv
  have a1 := mul_le_mul a0 hf (abs_nonneg _) (by positivity)
  have a2 : (0 : ℝ) ≤ 33 / s := by positivity
  linarith

/-- and not large -/
theorem aloft3_size (Z : AloftUnits3 w L X M s t) (hr : r < Real.pi / 2) (ht : Real.tan r ≤ t) {U : Fin 3 → ℚ}
    (hU : |U 0| ≤ w 4 * M ∧ |U 1| ≤ w 5 * M ∧ |U 2| ≤ w 6 * M) {y : Fin 7 → ℝ} (hy : Aloft3 w X s r y) (i : Fin 7) : |aloft3 U y i| ≤ w i * (L * X + M) := by
  obtain ⟨-, X0, M0, -⟩ := Z.real
  obtain ⟨-, L0⟩ := Z.lip0
  obtain ⟨s0, s1, s2⟩ := Z.speed
  have wp := Z.weights.cast_pos
  have u0 : |(U 0 : ℝ)| ≤ w 4 * M := by exact_mod_cast hU.1
  have u1 : |(U 1 : ℝ)| ≤ w 5 * M := by exact_mod_cast hU.2.1
  have u2 : |(U 2 : ℝ)| ≤ w 6 * M := by exact_mod_cast hU.2.2
  have wM : ∀ i, 0 ≤ (w i : ℝ) * M := fun i => mul_nonneg (wp i).le M0
  have wL : ∀ i, 0 ≤ (w i : ℝ) * (L * X) := fun i => mul_nonneg (wp i).le (mul_nonneg L0 X0)
  have one : ∀ c : ℝ, |c| ≤ 1 → |y 6 * c| ≤ w 6 * X := fun c hc => by
    rw [abs_mul]
    exact (mul_le_of_le_one_right (abs_nonneg _) hc).trans (hy.size 6)
  rw [mul_add]
  fin_cases i
  · show |y 6 * Real.cos (y 3) * Real.cos (y 4)| ≤ w 0 * _ + w 0 * _
    rw [mul_assoc]
    exact (one _ (unit_prod (Real.abs_cos_le_one _) (Real.abs_cos_le_one _))).trans (by have := wM 0; linarith)
  · show |y 6 * Real.sin (y 3) * Real.cos (y 4)| ≤ w 1 * _ + w 1 * _
    rw [mul_assoc]
    exact (one _ (unit_prod (Real.abs_sin_le_one _) (Real.abs_cos_le_one _))).trans (by have := wM 1; linarith)
  · show |-(y 6 * Real.sin (y 4))| ≤ w 2 * _ + w 2 * _
    rw [abs_neg]
    exact (one _ (Real.abs_sin_le_one _)).trans (by have := wM 2; linarith)
  · exact (turn_rate_le Z hy.slow (tan_le hr ht hy.roll)).trans (by have := wL 3; show _ ≤ (w 3 : ℝ) * _ + (w 3 : ℝ) * _; linarith)
  · exact u0.trans (by have := wL 4; show _ ≤ (w 4 : ℝ) * _ + (w 4 : ℝ) * _; linarith)
  · exact u1.trans (by have := wL 5; show _ ≤ (w 5 : ℝ) * _ + (w 5 : ℝ) * _; linarith)
  · exact u2.trans (by have := wL 6; show _ ≤ (w 6 : ℝ) * _ + (w 6 : ℝ) * _; linarith)

end

section
variable {libm : Fmt ℚ} {w : Fin 7 → ℚ} {L X M s t : ℚ} {r : ℝ} {l : AloftLimits}

/-- what a 3d aircraft computes, with any method -/
structure Flyer3 (d : Dyn (b64Of libm)) (l : AloftLimits) : Prop where
  stateMin : d.stateMin = .vec [.ninf, .ninf, .ninf, .ninf, .fin (l.lo 0), .fin (l.lo 1), .fin (l.lo 2)]
  stateMax : d.stateMax = .vec [.pinf, .pinf, .pinf, .pinf, .fin (l.hi 0), .fin (l.hi 1), .fin (l.hi 2)]
  dotMin : d.stateDotMin = .scalar .ninf
  dotMax : d.stateDotMax = .scalar .pinf
  wrap : d.angleWrapCenters = some [.nan, .nan, .nan, .fin 0, .fin 0, .fin 0, .nan]
  custom : d.custom = none
  rhs : d.rhs = affineRhs (dubins3dF dubinsGravity) dubins3dG

theorem dubins3d_flyer {env env' : Env (b64Of libm)} {args : Dubins3dArgs (b64Of libm)} {e0 : Entity (b64Of libm)} (h0 : newDubins3d env args = .ok e0)
    (hl : args.gammaMin.cast32 = .fin (l.lo 0) ∧ args.rollMin.cast32 = .fin (l.lo 1) ∧ args.vMin.cast32 = .fin (l.lo 2))
    (hh : args.gammaMax.cast32 = .fin (l.hi 0) ∧ args.rollMax.cast32 = .fin (l.hi 1) ∧ args.vMax.cast32 = .fin (l.hi 2)) (ops : List (Op (b64Of libm))) :
    Flyer3 (e0.run env' ops).dynamics l ∧ (e0.run env' ops).dynamics.integrationMethod = args.integrationMethod ∧
      some (e0.run env' ops).dynamics.trajectorySamples = args.trajectorySamples := by
  obtain ⟨h1, h2, h3, h4, h5, h6, h7, -, h9, h10, -⟩ := dubins3d_config h0
  rw [hl.1, hl.2.1, hl.2.2] at h1
  rw [hh.1, hh.2.1, hh.2.2] at h2
  rw [cast32_zero] at h5
  obtain ⟨t, t', ht⟩ := SameConfig.dyn (run_sameConfig env' ops e0)
  rw [ht]
  exact ⟨⟨h1, h2, h3, h4, h5, h7, h6⟩, h9, h10⟩

/-- the bound on the error of a component of the velocity -/
theorem small_component {q c C ε τ δ κ : ℝ} (hε : 0 ≤ ε) (hτ : 30 * τ ≤ κ) (h1 : |c - C| ≤ κ * (3 * δ + 6 * ε)) (h2 : |c| ≤ 2 * κ)
    (hq : |q - c| ≤ 3 * ε * (|c| + 2 * τ)) : |q - C| ≤ (16 * ε + 3 * δ) * κ := by
  have e1 := abs_add_le (q - c) (c - C)
  rw [sub_add_sub_cancel] at e1
  have k0 : 0 ≤ κ := by linarith [abs_nonneg c]
  have e2 : 3 * ε * (|c| + 2 * τ) ≤ 3 * ε * (3 * κ) := mul_le_mul_of_nonneg_left (by linarith) (by linarith)
  have e3 := mul_nonneg hε k0
  linarith

/-- the computed derivative -/
theorem Flyer3.dot {d : Dyn (b64Of libm)} (hd : Flyer3 d l) (Z : AloftUnits3 w L X M s t) (hr : r < Real.pi / 2) (ht : Real.tan r ≤ t) {δ : ℝ}
    (hlibm : TrigWithin libm (w 3 * X) δ) (hlibm' : TrigWithin libm (w 4 * X) δ) (htan : Tangent libm r δ) (hδ : δ ≤ 1 / 8) {y : Fin 7 → ℚ}
    (hy : Aloft3 w X s r (fun i => y i)) {U : Fin 3 → ℚ} (hU : |U 0| ≤ w 4 * M ∧ |U 1| ≤ w 5 * M ∧ |U 2| ≤ w 6 * M)
    (hg : (l.lo 0 < y 4 ∧ y 4 < l.hi 0) ∨ U 0 = 0) (hp : (l.lo 1 < y 5 ∧ y 5 < l.hi 1) ∨ U 1 = 0) (hv : (l.lo 2 < y 6 ∧ y 6 < l.hi 2) ∨ U 2 = 0)
    (τ : Fl (b64Of libm)) : ∃ v : Fin 7 → ℚ, d.computeStateDot τ (toFl y) (toFl U) = .ok (toFl v) ∧
      ∀ i, |(v i : ℝ) - aloft3 U (fun j => y j) i| ≤ w i * ((2⁻¹ ^ 49 + 3 * δ) * (L * X + M)) := by
  obtain ⟨M0, X0R, M0R, -, -, -, -, s0, hW⟩ := Z.real
  obtain ⟨-, L0R⟩ := Z.lip0
  obtain ⟨s0', s1', s2'⟩ := Z.speed
  have wp := Z.weights.cast_pos
  have b : ∀ i, |y i| ≤ w i * X := fun i => by exact_mod_cast hy.size i
  have wM : ∀ i, 0 ≤ (w i : ℝ) * M := fun i => mul_nonneg (wp i).le M0R
  have wL : ∀ i, 0 ≤ (w i : ℝ) * (L * X) := fun i => mul_nonneg (wp i).le (mul_nonneg L0R X0R)
  have big : ∀ i, (w i : ℝ) * X ≤ 2 ^ 30 := fun i => by exact_mod_cast Z.size.2 i
  have bigM : ∀ i, (w i : ℝ) * M ≤ 2 ^ 30 := fun i => by exact_mod_cast (Z.rates i).2
  have tinyM : ∀ i, (2⁻¹ : ℝ) ^ 40 ≤ w i * M := fun i => by
    have := Rat.cast_le (K := ℝ).2 (Z.rates i).1
    push_cast at this
    exact this
  obtain ⟨-, -, t1, t2⟩ := hlibm (y 3) (b 3)
  obtain ⟨-, -, t3, t4⟩ := hlibm' (y 4) (b 4)
  have d0 : 0 ≤ δ := (abs_nonneg _).trans t1
  have S1 : ∀ i, (2⁻¹ : ℝ) ^ 900 ≤ w 6 * X + w i * M := fun i => by
    have h1 : (2⁻¹ : ℝ) ^ 900 ≤ 2⁻¹ ^ 40 := pow_le_pow_of_le_one (by norm_num) (by norm_num) (by norm_num)
    have h2 : 0 ≤ (w 6 : ℝ) * X := mul_nonneg (wp 6).le X0R
    exact h1.trans ((tinyM i).trans (le_add_of_nonneg_left h2))
  have S2 : ∀ i, (w 6 : ℝ) * X + w i * M ≤ 2 ^ 200 := fun i => by
    have h1 : (2 : ℝ) ^ 30 + 2 ^ 30 ≤ 2 ^ 200 := by norm_num
    linarith [big 6, bigM i]
  have S3 : ∀ i, |(y 6 : ℝ)| ≤ w 6 * X + w i * M := fun i => by
    exact (hy.size 6).trans (le_add_of_nonneg_right (wM i))
  obtain ⟨P0, u0, d0', n0, k0, k0'⟩ := component (libm := libm) hδ (S1 0) (S2 0) (S3 0) t2 t4 (Real.abs_cos_le_one _) (Real.abs_cos_le_one _)
  obtain ⟨P1, u1, d1, n1, k1, k1'⟩ := component (libm := libm) hδ (S1 1) (S2 1) (S3 1) t1 t4 (Real.abs_sin_le_one _) (Real.abs_cos_le_one _)
  obtain ⟨P2, u2, d2, n2, k2, k2'⟩ := component (libm := libm) (C1 := -1) (K1 := -1) hδ (S1 2) (S2 2) (S3 2) (by simpa using d0) t3 (by simp) (Real.abs_sin_le_one _)
  obtain ⟨γ, v0, v1, v2, v3⟩ := gravity64 (libm := libm)
  have n30 : (2 : ℝ) ^ 30 ≤ 2 ^ 200 := by norm_num
  obtain ⟨Q, u3, d3, n3, k3, k3'⟩ := turn_component (libm := libm) hδ v1 v2 v3 s0 (hy.slow.trans ((le_abs_self _).trans ((S3 0).trans (S2 0)))) hy.slow (tan_le hr ht hy.roll)
    (htan _ hy.roll) (hW.trans ((bigM 3).trans n30))
  obtain ⟨r0, r1, r2, r3, r4, r5, r6, hrr, b0, b1, b2, b3, b4, b5, b6⟩ := affine_rate3 (b64_rounds libm) (by norm_num)
    (by show rndBin 53 (-1022) 1023 0 = _; decide +kernel) (dubins3dF dubinsGravity) τ [.fin (y 0), .fin (y 1), .fin (y 2), .fin (y 3), .fin (y 4), .fin (y 5), .fin (y 6)]
    _ _ _ _ _ _ _ _ (U 0) (U 1) (U 2) (by
      show Except.ok [(.fin (y 6) * .fin (libm.cos (y 3)) : Fl (b64Of libm)) * .fin (libm.cos (y 4)), .fin (y 6) * .fin (libm.sin (y 3)) * .fin (libm.cos (y 4)),
        .fin (-((1 : ℕ) : ℚ)) * .fin (y 6) * .fin (libm.sin (y 4)), dubinsGravity / .fin (y 6) * .fin (libm.tan (y 5)), 0, 0, 0] = _
      have u2' : (.fin (-((1 : ℕ) : ℚ)) * .fin (y 6) : Fl (b64Of libm)) = .fin P2 := by
        rw [← u2]
        show Fl.round (-((1 : ℕ) : ℚ) * y 6) = Fl.round (y 6 * -1)
        rw [Nat.cast_one, mul_comm]
      rw [u0, u1, u2', v0, u3]) n0 n1 n2 n3 (by
      have e : 4 * (2 ^ 201 + 2 ^ 201 + 2 ^ 201 + 2 ^ 201 + 2 ^ 30 + 2 ^ 30 + 2 ^ 30 + 5 * 2 ^ (-1022 : ℤ)) ≤ (2 : ℚ) ^ (1023 : ℤ) := by decide +kernel
      refine le_trans (mul_le_mul_of_nonneg_left ?_ (by norm_num)) e
      exact add_le_add (add_le_add (add_le_add (add_le_add (add_le_add (add_le_add (add_le_add k0 k1) k2) k3) (hU.1.trans (Z.rates 4).2)) (hU.2.1.trans (Z.rates 5).2))
        (hU.2.2.trans (Z.rates 6).2)) le_rfl)
  have hr' : d.rhs τ (toFl y) (toFl U) = .ok (toFl ![r0, r1, r2, r3, r4, r5, r6]) := by
    rw [hd.rhs, toFl_seven]
    exact hrr
  have hlift := computeStateDot_lift (R := b64Of libm) (d := d) (lo := ![none, none, none, none, some (l.lo 0), some (l.lo 1), some (l.lo 2)])
    (hi := ![none, none, none, none, some (l.hi 0), some (l.hi 1), some (l.hi 2)])
    (dlo := fun _ => none) (dhi := fun _ => none) (.inl hd.stateMin) (.inl hd.stateMax) (.inr ⟨_, hd.dotMin, fun _ => rfl⟩) (.inr ⟨_, hd.dotMax, fun _ => rfl⟩) hr'
  refine ⟨_, hlift, ?_⟩
  clear hlift hr' hrr n0 n1 n2 n3 u0 u1 u2 u3 k0 k1 k2 k3 S1 S2
  obtain ⟨ε, hε⟩ : ∃ ε : ℝ, ε = 2⁻¹ ^ 53 := ⟨_, rfl⟩
  have ε0 : 0 ≤ ε := by rw [hε]; positivity
  have ε16 : (2⁻¹ : ℝ) ^ 49 = 16 * ε := by rw [hε]; norm_num
  obtain ⟨θ, hθ⟩ : ∃ τ : ℝ, τ = 2 ^ (-1022 : ℤ) := ⟨_, rfl⟩
  have tiny : ∀ i, 30 * θ ≤ w i * M := fun i => by
    have h1 : (30 * 2 ^ (-1022 : ℤ) : ℚ) ≤ w i * M := le_trans (by decide +kernel) (Z.rates i).1
    have h2 := Rat.cast_le (K := ℝ).2 h1
    push_cast at h2
    rw [hθ]
    exact h2
  have c0 := Rat.cast_le (K := ℝ).2 b0
  have c1 := Rat.cast_le (K := ℝ).2 b1
  have c2 := Rat.cast_le (K := ℝ).2 b2
  have c3 := Rat.cast_le (K := ℝ).2 b3
  have c4 := Rat.cast_le (K := ℝ).2 b4
  have c5 := Rat.cast_le (K := ℝ).2 b5
  have c6 := Rat.cast_le (K := ℝ).2 b6
  have e4 := Rat.cast_le (K := ℝ).2 (limited_rate (r := r4) hg)
  have e5 := Rat.cast_le (K := ℝ).2 (limited_rate (r := r5) hp)
  have e6 := Rat.cast_le (K := ℝ).2 (limited_rate (r := r6) hv)
  have u0R := Rat.cast_le (K := ℝ).2 hU.1
  have u1R := Rat.cast_le (K := ℝ).2 hU.2.1
  have u2R := Rat.cast_le (K := ℝ).2 hU.2.2
  push_cast at c0 c1 c2 c3 c4 c5 c6 e4 e5 e6 u0R u1R u2R d0' d1 d2 d3 k0' k1' k2' k3'
  rw [← hε, ← hθ] at c0 c1 c2 c3 c4 c5 c6
  rw [← hε] at d0' d1 d2 d3
  clear b0 b1 b2 b3 b4 b5 b6 hε hθ v0 v1 v2 v3 t1 t2 t3 t4
  have κ0 : ∀ {κ A : ℝ} {i : Fin 7}, κ ≤ w i * (L * X + M) → A ≤ (16 * ε + 3 * δ) * κ → A ≤ w i * ((16 * ε + 3 * δ) * (L * X + M)) := fun hκ hA =>
    hA.trans ((mul_le_mul_of_nonneg_left hκ (by linarith)).trans (le_of_eq (by ring)))
  have vel : ∀ i : Fin 7, (w 6 : ℝ) * X ≤ w i * (L * X) → (w 6 : ℝ) * X + w i * M ≤ w i * (L * X + M) := fun i hi => by linarith
  have tinyv : ∀ i, 30 * θ ≤ w 6 * X + w i * M := fun i => by
    have h2 : 0 ≤ (w 6 : ℝ) * X := mul_nonneg (wp 6).le X0R
    linarith [tiny i]
  have rate : ∀ {i : Fin 7} {A : ℝ}, A ≤ 8 * ε * (w i * M) → A ≤ w i * ((16 * ε + 3 * δ) * (L * X + M)) := fun {i A} hA => by
    have h1 := mul_nonneg ε0 (wL i)
    have h2 := mul_nonneg d0 (wL i)
    have h3 := mul_nonneg d0 (wM i)
    have h4 := mul_nonneg ε0 (wM i)
    linarith
  rw [ε16]
  intro i
  fin_cases i
  · show |((klimit none none none none (y 0) r0 : ℚ) : ℝ) - y 6 * Real.cos (y 3) * Real.cos (y 4)| ≤ w 0 * _
    rw [klimit_free]
    exact κ0 (vel 0 s0') (small_component ε0 (tinyv 0) d0' k0' c0)
  · show |((klimit none none none none (y 1) r1 : ℚ) : ℝ) - y 6 * Real.sin (y 3) * Real.cos (y 4)| ≤ w 1 * _
    rw [klimit_free]
    exact κ0 (vel 1 s1') (small_component ε0 (tinyv 1) d1 k1' c1)
  · show |((klimit none none none none (y 2) r2 : ℚ) : ℝ) - -(y 6 * Real.sin (y 4))| ≤ w 2 * _
    rw [klimit_free, show -((y 6 : ℝ) * Real.sin (y 4)) = y 6 * -1 * Real.sin (y 4) by ring]
    exact κ0 (vel 2 s2') (small_component ε0 (tinyv 2) d2 k2' c2)
  · show |((klimit none none none none (y 3) r3 : ℚ) : ℝ) - 32.17 / y 6 * Real.tan (y 5)| ≤ w 3 * _
    rw [klimit_free]
    obtain ⟨W, hWe⟩ : ∃ W : ℝ, W = 33 / s * (t + 1) := ⟨_, rfl⟩
    rw [← hWe] at hW d3 k3'
    have W0 : 0 ≤ W := by linarith [abs_nonneg ((Q : ℝ) * libm.tan (y 5))]
    refine κ0 (κ := w 3 * M) (by linarith [wL 3]) (small_component ε0 (tiny 3) (d3.trans ?_) (k3'.trans (by linarith)) c3)
    have g1 := mul_le_mul_of_nonneg_right hW (show 0 ≤ 3 * δ + 6 * ε by linarith)
    have g2 := mul_nonneg W0 ε0
    have g3 := mul_nonneg W0 d0
    linarith
  · show |((klimit (some (l.lo 0)) (some (l.hi 0)) none none (y 4) r4 : ℚ) : ℝ) - U 0| ≤ w 4 * _
    exact rate (e4.trans (c4.trans (small_rate ε0 u0R (tiny 4))))
  · show |((klimit (some (l.lo 1)) (some (l.hi 1)) none none (y 5) r5 : ℚ) : ℝ) - U 1| ≤ w 5 * _
    exact rate (e5.trans (c5.trans (small_rate ε0 u1R (tiny 5))))
  · show |((klimit (some (l.lo 2)) (some (l.hi 2)) none none (y 6) r6 : ℚ) : ℝ) - U 2| ≤ w 6 * _
    exact rate (e6.trans (c6.trans (small_rate ε0 u2R (tiny 6))))

theorem Flyer3.shadows {d : Dyn (b64Of libm)} (hd : Flyer3 d l) (Z : AloftUnits3 w L X M s t) (hr : r < Real.pi / 2) (ht : Real.tan r ≤ t) {δ : ℝ}
    (hlibm : TrigWithin libm (w 3 * X) δ) (hlibm' : TrigWithin libm (w 4 * X) δ) (htan : Tangent libm r δ) (hδ0 : 0 ≤ δ) (hδ : δ ≤ 1 / 8)
    {U : Fin 3 → ℚ} {φ : ℝ → Fin 7 → ℝ} {T ρ : ℝ} (hU : |U 0| ≤ w 4 * M ∧ |U 1| ≤ w 5 * M ∧ |U 2| ≤ w 6 * M)
    (hφ : ∀ t ∈ Set.Icc 0 T, HasDerivWithinAt φ (aloft3 U (φ t)) (Set.Icc 0 T) t) (hs : ∀ t ∈ Set.Icc 0 T, (∀ i, |φ t i| + w i * ρ ≤ w i * X))
    (hG : ∀ t ∈ Set.Icc 0 T, AloftRoom3 w l ρ r X M s U (φ t)) :
    Shadows w d U (aloft3 U) φ L ((2⁻¹ ^ 49 + 3 * δ) * (L * X + M)) ρ (2 * (L * X + M)) X T := by
  have size : ∀ y, Around w φ ρ T y → Aloft3 w X s r y := fun y ⟨t, ht, hy⟩ => by
    obtain ⟨-, -, g3, g4, -⟩ := hG t ht
    refine ⟨fun i => ?_, ?_, ?_⟩
    · have := abs_sub_abs_le_abs_sub (y i) (φ t i)
      have := hs t ht i
      have := hy i
      linarith
    · have := (abs_le.1 (hy 6)).1
      linarith
    · have := abs_sub_abs_le_abs_sub (y 5) (φ t 5)
      have := hy 5
      linarith
  obtain ⟨-, X0, M0, -⟩ := Z.real
  obtain ⟨-, L0⟩ := Z.lip0
  have S0 : 0 ≤ (L : ℝ) * X + M := by positivity
  refine ⟨hφ, fun t y hy => ?_, fun y z e hy hz he i => aloft3_lip Z hr ht (size y hy) (size z hz) he i, fun y hy i => ?_, fun y hy => (size y hy).size⟩
  · have h1 := size _ hy
    obtain ⟨t', ht', hy'⟩ := hy
    obtain ⟨-, -, -, -, g5, g6, g7⟩ := hG t' ht'
    obtain ⟨v, v1, v2⟩ := hd.dot Z hr ht hlibm hlibm' htan hδ (y := y) h1 hU (g5.near (hy' 4)) (g6.near (hy' 5)) (g7.near (hy' 6)) t
    refine ⟨v, v1, fun i => ⟨v2 i, ?_⟩⟩
    have b1 := aloft3_size Z hr ht hU h1 i
    have b2 := abs_sub_abs_le_abs_sub (v i : ℝ) (aloft3 U (fun j => (y j : ℝ)) i)
    have b3 : (2⁻¹ ^ 49 + 3 * δ) * ((L : ℝ) * X + M) ≤ 1 * (L * X + M) := mul_le_mul_of_nonneg_right (by norm_num; linarith) S0
    have b4 := mul_le_mul_of_nonneg_left b3 (Z.weights.cast_pos i).le
    have : |(v i : ℝ)| ≤ w i * (2 * (L * X + M)) := by linarith [v2 i]
    exact_mod_cast this
  · refine (aloft3_size Z hr ht hU (size y hy) i).trans ?_
    push_cast
    exact mul_le_mul_of_nonneg_left (by linarith) (Z.weights.cast_pos i).le

/-- the end of a call: flight path angle, roll and speed are clipped and the angles wrapped -/
theorem Flyer3.finish {d : Dyn (b64Of libm)} (hd : Flyer3 d l) {y : Fin 7 → ℚ} (hb : |y 3| ≤ 2 ^ 30) (hg : |min (max (y 4) (l.lo 0)) (l.hi 0)| ≤ 2)
    (hp : |min (max (y 5) (l.lo 1)) (l.hi 1)| ≤ 2) :
    ∃ (a g p : ℚ) (k : ℤ), Finished d y ![y 0, y 1, y 2, a, g, p, min (max (y 6) (l.lo 2)) (l.hi 2)] ∧ |a| ≤ 4 ∧
      |(a : ℝ) - (y 3 - 2 * Real.pi * k)| ≤ 2⁻¹ ^ 50 * (|(y 3 : ℝ)| + 20) ∧ |g - min (max (y 4) (l.lo 0)) (l.hi 0)| ≤ 22 * 2⁻¹ ^ 53 ∧
      |p - min (max (y 5) (l.lo 1)) (l.hi 1)| ≤ 22 * 2⁻¹ ^ 53 := by
  obtain ⟨a, k, w1, w2, w3⟩ := wrap_heading (libm := libm) hb
  obtain ⟨g, g1, g2⟩ := wrap_angle_small (libm := libm) hg
  obtain ⟨p, p1, p2⟩ := wrap_angle_small (libm := libm) hp
  refine ⟨a, g, p, k, ⟨toFl ![y 0, y 1, y 2, y 3, min (max (y 4) (l.lo 0)) (l.hi 0), min (max (y 5) (l.lo 1)) (l.hi 1), min (max (y 6) (l.lo 2)) (l.hi 2)], ?_, ?_⟩,
    w2, w3, g2, p2⟩
  · have := npClip_toFl (R := b64Of libm) y (lo := d.stateMin) (hi := d.stateMax) (l := ![none, none, none, none, some (l.lo 0), some (l.lo 1), some (l.lo 2)])
      (h := ![none, none, none, none, some (l.hi 0), some (l.hi 1), some (l.hi 2)]) (.inl hd.stateMin) (.inl hd.stateMax)
    rw [this]
    congr 2
    funext i
    fin_cases i <;> simp [kclip]
  · simp only [Dyn.wrapAngles, hd.wrap]
    have e1 : ([.nan, .nan, .nan, .fin 0, .fin 0, .fin 0, .nan] : Vec (b64Of libm))
        = List.ofFn (![.nan, .nan, .nan, .fin 0, .fin 0, .fin 0, .nan] : Fin 7 → Fl (b64Of libm)) := rfl
    rw [e1, toFl, bcast2_ofFn]
    congr 2
    funext i
    fin_cases i <;> simp [Fl.isNan, w1, g1, p1]

theorem Spec.Keeps.inside {lo hi u : ℚ} {r v : ℝ} (h : Keeps lo hi u r v) (hr : 0 ≤ r) (h1 : -2 ≤ lo) (h2 : hi ≤ 2) (y : ℚ) : |min (max y lo) hi| ≤ 2 := by
  have h3 : (lo : ℝ) ≤ hi := by
    rcases h with ⟨h1, h2⟩ | ⟨-, h1, h2⟩ <;> linarith
  have h4 : lo ≤ hi := by exact_mod_cast h3
  rw [abs_le]
  exact ⟨h1.trans (le_min (le_max_right _ _) h4), (min_le_right _ _).trans h2⟩

/-- a clipped and wrapped angle -/
theorem small_angle {lo hi u g y : ℚ} {r v E ω c X : ℝ} (h : Keeps lo hi u r v) (hr : 0 ≤ r) (hg : |g - min (max y lo) hi| ≤ 22 * 2⁻¹ ^ 53) (hE : |(y : ℝ) - v| ≤ c * E)
    (hc : 0 < c) (hX : 0 ≤ X) (hω : 2⁻¹ ^ 50 * (X + 20 / c) ≤ ω) : |(g : ℝ) - v| ≤ c * (E + ω) := by
  have g1 := Rat.cast_le (K := ℝ).2 hg
  push_cast at g1
  have g2 := h.clip hr y
  push_cast at g2
  have g3 := abs_add_le ((g : ℝ) - min (max (y : ℝ) lo) hi) (min (max (y : ℝ) lo) hi - v)
  rw [sub_add_sub_cancel] at g3
  have g4 := mul_le_mul_of_nonneg_left hω hc.le
  have g5 : c * (2⁻¹ ^ 50 * (X + 20 / c)) = 2⁻¹ ^ 50 * (c * X) + 2⁻¹ ^ 50 * 20 := by
    field_simp
  have g6 : 0 ≤ (2⁻¹ : ℝ) ^ 50 * (c * X) := by positivity
  have g7 : (22 : ℝ) * 2⁻¹ ^ 53 ≤ 2⁻¹ ^ 50 * 20 := by norm_num
  linarith

/-- what is needed of the 3d aircraft -/
theorem Flyer3.upTo {env : Env (b64Of libm)} {e : Entity (b64Of libm)} (hd : Flyer3 e.dynamics l) (Z : AloftUnits3 w L X M s t) (hr : r < Real.pi / 2)
    (ht : Real.tan r ≤ t) (hl : -2 ≤ l.lo 0 ∧ l.hi 0 ≤ 2 ∧ -2 ≤ l.lo 1 ∧ l.hi 1 ≤ 2) {δ : ℝ}
    (hlibm : TrigWithin libm (w 3 * X) δ) (hlibm' : TrigWithin libm (w 4 * X) δ) (htan : Tangent libm r δ) (hδ0 : 0 ≤ δ) (hδ : δ ≤ 1 / 8) {ρ ω : ℝ} (hρ0 : 0 ≤ ρ)
    (hρ3 : w 3 * ρ ≤ 1) {H : ℚ} (hX3 : 7 + w 3 * M * H ≤ w 3 * X) (hω : ω = 2⁻¹ ^ 50 * (X + 20 / w 3 + 20 / w 4 + 20 / w 5))
    {hist : List (ℚ × Action (b64Of libm))} {y z : Fin 7 → ℝ} (hH : ∀ p ∈ hist, p.1 ≤ H) (hm : MovesUnder env e aloft3 (AloftRoom3 w l ρ r X M s) hist y z)
    (hy3 : |y 3| ≤ 6) : FollowsUpTo env e w aloft3 L ((2⁻¹ ^ 49 + 3 * δ) * (L * X + M)) ρ ω (2 * (L * X + M)) X
      (fun z' => ∃ k : ℤ, z' = backBy 3 z k) hist y := by
  obtain ⟨-, X0, M0, -⟩ := Z.real
  have wp := Z.weights.cast_pos
  have q3 : (0 : ℝ) ≤ 20 / w 3 := by have := wp 3; positivity
  have q4 : (0 : ℝ) ≤ 20 / w 4 := by have := wp 4; positivity
  have q5 : (0 : ℝ) ≤ 20 / w 5 := by have := wp 5; positivity
  have ω3 : 2⁻¹ ^ 50 * ((X : ℝ) + 20 / w 3) ≤ ω := by rw [hω]; exact mul_le_mul_of_nonneg_left (by linarith) (by positivity)
  have ω4 : 2⁻¹ ^ 50 * ((X : ℝ) + 20 / w 4) ≤ ω := by rw [hω]; exact mul_le_mul_of_nonneg_left (by linarith) (by positivity)
  have ω5 : 2⁻¹ ^ 50 * ((X : ℝ) + 20 / w 5) ≤ ω := by rw [hω]; exact mul_le_mul_of_nonneg_left (by linarith) (by positivity)
  have om : 0 ≤ ω := by rw [hω]; positivity
  have hX3R : 7 + (w 3 : ℝ) * M * H ≤ w 3 * X := by exact_mod_cast hX3
  have room : ∀ (U : Fin 3 → ℚ) (y : Fin 7 → ℝ), AloftRoom3 w l ρ r X M s U y → |y 3| ≤ 6 + w 3 * M * H → ∀ i, |y i| + w i * ρ ≤ w i * X := by
    intro U y hG h3 i
    by_cases hi : i = 3
    · subst hi
      linarith
    · exact hG.2.1 i hi
  have wr : ∀ i, 0 ≤ (w i : ℝ) * ρ := fun i => mul_nonneg (wp i).le hρ0
  have := Spec.MovesUnder.upTo (j := 3) (H := H) (ρ := ρ) (L := L) (Δ := (2⁻¹ ^ 49 + 3 * δ) * (L * X + M)) (ω := ω) (D := 2 * (L * X + M)) (X := X)
    (R := w 3 * M) (w := w) (f := aloft3) aloft3_shift ?_ (mul_nonneg (wp 3).le M0) ?_ ?_ ?_ (fun p hp => by exact_mod_cast hH p hp) hm 0 (by simpa using hy3)
  · rwa [backBy_zero] at this
  · rintro U y k ⟨g1, g2, g3, g4, g5, g6, g7⟩
    have e4 : backBy 3 y k 4 = y 4 := backBy_ne (by decide)
    have e5 : backBy 3 y k 5 = y 5 := backBy_ne (by decide)
    have e6 : backBy 3 y k 6 = y 6 := backBy_ne (by decide)
    refine ⟨g1, fun i hi => ?_, by rw [e6]; exact g3, by rw [e5]; exact g4, by rw [e4]; exact g5, by rw [e5]; exact g6, by rw [e6]; exact g7⟩
    rw [backBy_ne hi]
    exact g2 i hi
  · intro U y hG
    refine turn_rate_le Z (le_trans ?_ hG.2.2.1) (tan_le hr ht (le_trans ?_ hG.2.2.2.1))
    · exact le_add_of_nonneg_right (wr 6)
    · exact le_add_of_nonneg_right (wr 5)
  · intro U φ T hT hφ hG
    exact hd.shadows Z hr ht hlibm hlibm' htan hδ0 hδ (hG 0 ⟨le_rfl, hT⟩).1.1 hφ (fun t ht => room _ _ (hG t ht).1 (hG t ht).2) fun t ht => (hG t ht).1
  · intro U y y1 hG h3 hy1
    have hrm := room U y hG h3
    obtain ⟨-, -, -, -, k4, k5, k6⟩ := hG
    have b2 : |(y1 3 : ℝ)| ≤ w 3 * X := by
      have := abs_sub_abs_le_abs_sub (y1 3 : ℝ) (y 3)
      have := hy1 3
      have := hrm 3
      linarith
    have b3 : (w 3 : ℝ) * X ≤ 2 ^ 30 := by exact_mod_cast Z.size.2 3
    have b4 : |(y1 3 : ℝ)| ≤ 2 ^ 30 := b2.trans b3
    obtain ⟨a, c, p, k, f1, f2, f3, f4, f5⟩ := hd.finish (y := y1) (by exact_mod_cast b4) (k4.inside (wr 4) hl.1 hl.2.1 _) (k5.inside (wr 5) hl.2.2.1 hl.2.2.2 _)
    have g : ∀ E, (∀ i, |y1 i - y i| ≤ w i * E) → |(a : ℝ) - (y 3 - 2 * Real.pi * k)| ≤ w 3 * E + 2⁻¹ ^ 50 * (w 3 * X + 20) := by
      intro E hE
      have g1 := abs_add_le ((a : ℝ) - (y1 3 - 2 * Real.pi * k)) (y1 3 - y 3)
      rw [show (a : ℝ) - (y1 3 - 2 * Real.pi * k) + (y1 3 - y 3) = a - (y 3 - 2 * Real.pi * k) by ring] at g1
      have g2 := hE 3
      have g3 : (2⁻¹ : ℝ) ^ 50 * (|(y1 3 : ℝ)| + 20) ≤ 2⁻¹ ^ 50 * (w 3 * X + 20) := by gcongr
      linarith
    refine ⟨_, k, f1, ?_, fun E hE0 hE i => ?_⟩
    · have g1 := g ρ hy1
      have f2' : |(a : ℝ)| ≤ 4 := by exact_mod_cast f2
      have g2 := abs_sub_abs_le_abs_sub (y 3 - 2 * Real.pi * k) (a : ℝ)
      rw [abs_sub_comm _ (a : ℝ)] at g2
      have g3 : (2⁻¹ : ℝ) ^ 50 * (w 3 * X + 20) ≤ 2⁻¹ ^ 50 * (2 ^ 30 + 20) := by gcongr
      have g4 : (2⁻¹ : ℝ) ^ 50 * (2 ^ 30 + 20) ≤ 1 := by norm_num
      linarith
    · have up : ∀ i, (w i : ℝ) * E ≤ w i * (E + ω) := fun i => mul_le_mul_of_nonneg_left (by linarith) (wp i).le
      fin_cases i
      · show |(y1 0 : ℝ) - backBy 3 y k 0| ≤ _
        rw [backBy_ne (by decide)]
        exact (hE 0).trans (up 0)
      · show |(y1 1 : ℝ) - backBy 3 y k 1| ≤ _
        rw [backBy_ne (by decide)]
        exact (hE 1).trans (up 1)
      · show |(y1 2 : ℝ) - backBy 3 y k 2| ≤ _
        rw [backBy_ne (by decide)]
        exact (hE 2).trans (up 2)
      · show |(a : ℝ) - backBy 3 y k 3| ≤ w 3 * _
        rw [backBy_self]
        refine (g E hE).trans ?_
        have h1 := mul_le_mul_of_nonneg_left ω3 (wp 3).le
        have h2 : (w 3 : ℝ) * (2⁻¹ ^ 50 * (X + 20 / w 3)) = 2⁻¹ ^ 50 * (w 3 * X + 20) := by
          have := (wp 3).ne'
          field_simp
        linarith
      · show |(c : ℝ) - backBy 3 y k 4| ≤ _
        rw [backBy_ne (by decide)]
        exact small_angle k4 (wr 4) f4 (hE 4) (wp 4) X0 ω4
      · show |(p : ℝ) - backBy 3 y k 5| ≤ _
        rw [backBy_ne (by decide)]
        exact small_angle k5 (wr 5) f5 (hE 5) (wp 5) X0 ω5
      · show |((min (max (y1 6) (l.lo 2)) (l.hi 2) : ℚ) : ℝ) - backBy 3 y k 6| ≤ _
        rw [backBy_ne (by decide)]
        exact (k6.clip (wr 6) _).trans ((hE 6).trans (up 6))

end
end SAD
