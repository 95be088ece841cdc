import Verif.Lemmas.AloftRun
import Verif.Lemmas.Dubins

/-! # The 2d aircraft in double precision, call by call -/

set_option linter.unusedSectionVars false

namespace SAD
open Spec

section
variable {w : Fin 4 → ℚ} {L X M : ℚ}

theorem aloft2_shift (U : Fin 2 → ℚ) (y : Fin 4 → ℝ) (k : ℤ) : aloft2 U (backBy 2 y k) = aloft2 U y := by
  have h1 : Real.cos (y 2 - 2 * Real.pi * k) = Real.cos (y 2) := by rw [mul_comm (2 * Real.pi), Real.cos_sub_int_mul_two_pi]
  have h2 : Real.sin (y 2 - 2 * Real.pi * k) = Real.sin (y 2) := by rw [mul_comm (2 * Real.pi), Real.sin_sub_int_mul_two_pi]
  unfold aloft2
  rw [backBy_self, backBy_ne (by decide), h1, h2]

theorem Spec.AloftUnits2.real (Z : AloftUnits2 w L X M) : 0 ≤ L ∧ 0 ≤ M ∧ (0 : ℝ) ≤ L ∧ (0 : ℝ) ≤ X ∧ (0 : ℝ) ≤ M ∧
    (w 3 + w 3 * X * w 2 : ℝ) ≤ L * w 0 ∧ (w 3 + w 3 * X * w 2 : ℝ) ≤ L * w 1 := by
  have wp := Z.weights.pos
  have X0 := Z.size.1
  have L0 : 0 ≤ L := by
    have h1 : 0 ≤ w 3 * X * w 2 := mul_nonneg (mul_nonneg (wp 3).le X0) (wp 2).le
    by_contra h'
    nlinarith [wp 3, wp 0, Z.lip.1]
  have M0 : 0 ≤ M := by
    have h1 : (0 : ℚ) ≤ w 0 * M := (by positivity : (0 : ℚ) ≤ 2⁻¹ ^ 40).trans (Z.rates 0).1
    by_contra h'
    nlinarith [wp 0]
  exact ⟨L0, M0, by exact_mod_cast L0, by exact_mod_cast X0, by exact_mod_cast M0, by exact_mod_cast Z.lip.1, by exact_mod_cast Z.lip.2⟩

/-- the derivative is Lipschitz -/
theorem aloft2_lip (Z : AloftUnits2 w L X M) {U : Fin 2 → ℚ} {y z : Fin 4 → ℝ} (hz : |z 3| ≤ w 3 * X) {e : ℝ} (h : ∀ i, |y i - z i| ≤ w i * e) (i : Fin 4) :
    |aloft2 U y i - aloft2 U z i| ≤ w i * (L * e) := by
  obtain ⟨-, -, L0, -, -, l0, l1⟩ := Z.real
  have wp := Z.weights.cast_pos
  have e0 : 0 ≤ e := by
    by_contra h'
    have := (abs_nonneg _).trans (h 0)
    nlinarith [wp 0]
  have w2e : 0 ≤ (w 2 : ℝ) * e := mul_nonneg (wp 2).le e0
  have c2 : |Real.cos (y 2) - Real.cos (z 2)| ≤ w 2 * e := (Real.abs_cos_sub_cos_le _ _).trans (h 2)
  have s2 : |Real.sin (y 2) - Real.sin (z 2)| ≤ w 2 * e := (Real.abs_sin_sub_sin_le _ _).trans (h 2)
  have z0 : ∀ i : Fin 4, 0 ≤ (w i : ℝ) * (L * e) := fun i => mul_nonneg (wp i).le (mul_nonneg L0 e0)
  fin_cases i
  · have k1 := velocity_diff (h 3) c2 (Real.abs_cos_le_one _) hz w2e
    have k2 := mul_le_mul_of_nonneg_right l0 e0
    show |y 3 * Real.cos (y 2) - z 3 * Real.cos (z 2)| ≤ (w 0 : ℝ) * (L * e)
    linarith
  · have k1 := velocity_diff (h 3) s2 (Real.abs_sin_le_one _) hz w2e
    have k2 := mul_le_mul_of_nonneg_right l1 e0
    show |y 3 * Real.sin (y 2) - z 3 * Real.sin (z 2)| ≤ (w 1 : ℝ) * (L * e)
    linarith
  · show |(U 0 : ℝ) - U 0| ≤ _
    rw [sub_self, abs_zero]
    exact z0 _
  · show |(U 1 : ℝ) - U 1| ≤ _
    rw [sub_self, abs_zero]
    exact z0 _

theorem Spec.AloftUnits2.speed (Z : AloftUnits2 w L X M) : (w 3 : ℝ) * X ≤ w 0 * (L * X) ∧ (w 3 : ℝ) * X ≤ w 1 * (L * X) := by
  obtain ⟨-, -, L0, X0, -, l0, l1⟩ := Z.real
  have wp := Z.weights.cast_pos
  have h1 : 0 ≤ (w 3 : ℝ) * X * w 2 := mul_nonneg (mul_nonneg (wp 3).le X0) (wp 2).le
  have k0 := mul_le_mul_of_nonneg_right l0 X0
  have k1 := mul_le_mul_of_nonneg_right l1 X0
  have k2 := mul_nonneg h1 X0
  exact ⟨by linarith, by linarith⟩

/-- and not large -/
theorem aloft2_size (Z : AloftUnits2 w L X M) {U : Fin 2 → ℚ} (hU0 : |U 0| ≤ w 2 * M) (hU1 : |U 1| ≤ w 3 * M) {y : Fin 4 → ℝ} (h : |y 3| ≤ w 3 * X) (i : Fin 4) :
    |aloft2 U y i| ≤ w i * (L * X + M) := by
  obtain ⟨-, -, L0, X0, M0, -⟩ := Z.real
  obtain ⟨s0, s1⟩ := Z.speed
  have wp := Z.weights.cast_pos
  have hU0R : |(U 0 : ℝ)| ≤ w 2 * M := by exact_mod_cast hU0
  have hU1R : |(U 1 : ℝ)| ≤ w 3 * M := by exact_mod_cast hU1
  have wM : ∀ i, 0 ≤ (w i : ℝ) * M := fun i => mul_nonneg (wp i).le M0
  have wL : ∀ i, 0 ≤ (w i : ℝ) * (L * X) := fun i => mul_nonneg (wp i).le (mul_nonneg L0 X0)
  have one : ∀ c : ℝ, |c| ≤ 1 → |y 3 * c| ≤ w 3 * X := fun c hc => by
    rw [abs_mul]
    exact (mul_le_of_le_one_right (abs_nonneg _) hc).trans h
  rw [mul_add]
  fin_cases i
  · exact (one _ (Real.abs_cos_le_one _)).trans (by have := wM 0; simp only [Fin.zero_eta]; linarith)
  · exact (one _ (Real.abs_sin_le_one _)).trans (by have := wM 1; simp only [Fin.mk_one]; linarith)
  · exact hU0R.trans (by have := wL 2; simp only [Fin.reduceFinMk]; linarith)
  · exact hU1R.trans (by have := wL 3; simp only [Fin.reduceFinMk]; linarith)

end

section
variable {libm : Fmt ℚ} {w : Fin 4 → ℚ} {L X M lo hi : ℚ}

/-- what a 2d aircraft computes, with any method -/
structure Flyer2 (d : Dyn (b64Of libm)) (lo hi : ℚ) : Prop where
  stateMin : d.stateMin = .vec [.ninf, .ninf, .ninf, .fin lo]
  stateMax : d.stateMax = .vec [.pinf, .pinf, .pinf, .fin hi]
  dotMin : d.stateDotMin = .scalar .ninf
  dotMax : d.stateDotMax = .scalar .pinf
  wrap : d.angleWrapCenters = some [.nan, .nan, .fin 0, .nan]
  custom : d.custom = none
  rhs : d.rhs = affineRhs dubins2dF dubins2dG

theorem cast32_zero : Fl.cast32 (0 : Fl (b64Of libm)) = .fin 0 := by
  show Fl.ofExt (rndBin 24 (-126) 127 (((0 : ℕ) : ℚ))) = _
  rw [show rndBin 24 (-126) 127 (((0 : ℕ) : ℚ)) = .val 0 by decide +kernel]
  rfl

theorem dubins2d_flyer {env env' : Env (b64Of libm)} {args : Dubins2dArgs (b64Of libm)} {e0 : Entity (b64Of libm)} (h0 : newDubins2d env args = .ok e0)
    (hlo : args.vMin.cast32 = .fin lo) (hhi : args.vMax.cast32 = .fin hi) (ops : List (Op (b64Of libm))) :
    Flyer2 (e0.run env' ops).dynamics lo hi ∧ (e0.run env' ops).dynamics.integrationMethod = args.integrationMethod ∧
      some (e0.run env' ops).dynamics.trajectorySamples = args.trajectorySamples := by
  obtain ⟨h1, h2, h3, h4, h5, h6, h7, -, h9, h10, -⟩ := dubins2d_config h0
  rw [hlo] at h1
  rw [hhi] at h2
  rw [cast32_zero] at h5
  obtain ⟨t, t', ht⟩ := SameConfig.dyn (run_sameConfig env' ops e0)
  rw [ht]
  exact ⟨⟨h1, h2, h3, h4, h5, h7, h6⟩, h9, h10⟩

/-- the bound on the error of a rate -/
theorem small_rate {a ε τ κ : ℝ} (hε : 0 ≤ ε) (ha : |a| ≤ κ) (hτ : 30 * τ ≤ κ) : 6 * ε * (|a| + 5 * τ) ≤ 8 * ε * κ := by
  have h1 := mul_le_mul_of_nonneg_left ha hε
  have h2 := mul_le_mul_of_nonneg_left hτ hε
  have h3 : 0 ≤ ε * κ := mul_nonneg hε ((abs_nonneg _).trans ha)
  linarith

theorem small_velocity {r v c C ε τ δ κ μ : ℝ} (hε : 0 ≤ ε) (hc : |c| ≤ 1) (hcC : |c - C| ≤ δ) (hv : |v| ≤ κ) (hτ : 30 * τ ≤ μ) (hμ : 0 ≤ μ)
    (hr : |r - v * c| ≤ 3 * ε * (|v * c| + 2 * τ)) : |r - v * C| ≤ (8 * ε + δ) * (κ + μ) := by
  have e1 := abs_add_le (r - v * c) (v * (c - C))
  rw [show r - v * c + v * (c - C) = r - v * C by ring, abs_mul v] at e1
  rw [abs_mul] at hr
  have d0 : 0 ≤ δ := (abs_nonneg _).trans hcC
  have k0 : 0 ≤ κ := (abs_nonneg _).trans hv
  have e2 : |v| * |c - C| ≤ κ * δ := mul_le_mul hv hcC (abs_nonneg _) k0
  have e3 : |v| * |c| ≤ κ := (mul_le_of_le_one_right (abs_nonneg _) hc).trans hv
  have e4 : 3 * ε * (|v| * |c| + 2 * τ) ≤ 3 * ε * (κ + μ) := mul_le_mul_of_nonneg_left (by linarith) (by linarith)
  have e5 : 0 ≤ ε * (κ + μ) := mul_nonneg hε (by linarith)
  have e6 : 0 ≤ δ * μ := mul_nonneg d0 hμ
  linarith

/-- the computed derivative -/
theorem Flyer2.dot {d : Dyn (b64Of libm)} (hd : Flyer2 d lo hi) (Z : AloftUnits2 w L X M) {δ : ℝ} (hlibm : TrigWithin libm (w 2 * X) δ) {y : Fin 4 → ℚ}
    (hy : ∀ i, |y i| ≤ w i * X) {U : Fin 2 → ℚ} (hU0 : |U 0| ≤ w 2 * M) (hU1 : |U 1| ≤ w 3 * M) (hv : (lo < y 3 ∧ y 3 < hi) ∨ U 1 = 0) (t : Fl (b64Of libm)) :
    ∃ v : Fin 4 → ℚ, d.computeStateDot t (toFl y) (toFl U) = .ok (toFl v) ∧
      ∀ i, |(v i : ℝ) - aloft2 U (fun j => y j) i| ≤ w i * ((2⁻¹ ^ 50 + δ) * (L * X + M)) := by
  obtain ⟨-, M0, L0R, X0R, M0R, -⟩ := Z.real
  obtain ⟨s0, s1⟩ := Z.speed
  have wp := Z.weights.cast_pos
  obtain ⟨t1, t2, t3, t4⟩ := hlibm (y 2) (hy 2)
  have b3 : |y 3| ≤ 2 ^ 30 := (hy 3).trans (Z.size.2 3)
  have one : ∀ c : ℚ, |c| ≤ 1 → |y 3 * c| ≤ 2 ^ 30 := fun c hc => by
    rw [abs_mul]
    exact (mul_le_of_le_one_right (abs_nonneg _) hc).trans b3
  obtain ⟨r0, r1, r2, r3, hr, b0, b1, b2, b3'⟩ := dubins2d_rate (b64_rounds libm) (by norm_num)
    (by show rndBin 53 (-1022) 1023 0 = _; decide +kernel) t (y 0) (y 1) (y 2) (y 3) (U 0) (U 1) (by
      have e : 4 * (2 ^ 30 + 2 ^ 30 + 2 ^ 30 + 2 ^ 30 + 5 * 2 ^ (-1022 : ℤ)) ≤ (2 : ℚ) ^ (1023 : ℤ) := by decide +kernel
      refine le_trans (mul_le_mul_of_nonneg_left ?_ (by norm_num)) e
      exact add_le_add (add_le_add (add_le_add (add_le_add (one _ t2) (one _ t1)) (hU0.trans (Z.rates 2).2)) (hU1.trans (Z.rates 3).2)) le_rfl)
  have hr' : d.rhs t (toFl y) (toFl U) = .ok (toFl ![r0, r1, r2, r3]) := by
    rw [hd.rhs, toFl_four]
    exact hr
  have hlift := computeStateDot_lift (R := b64Of libm) (d := d) (lo := ![none, none, none, some lo]) (hi := ![none, none, none, some hi])
    (dlo := fun _ => none) (dhi := fun _ => none) (.inl hd.stateMin) (.inl hd.stateMax) (.inr ⟨_, hd.dotMin, fun _ => rfl⟩) (.inr ⟨_, hd.dotMax, fun _ => rfl⟩) hr'
  refine ⟨_, hlift, ?_⟩
  obtain ⟨ε, hε⟩ : ∃ ε : ℝ, ε = 2⁻¹ ^ 53 := ⟨_, rfl⟩
  have ε0 : 0 ≤ ε := by rw [hε]; positivity
  have ε8 : (2⁻¹ : ℝ) ^ 50 = 8 * ε := by rw [hε]; norm_num
  obtain ⟨τ, hτ⟩ : ∃ τ : ℝ, τ = 2 ^ (-1022 : ℤ) := ⟨_, rfl⟩
  have tiny : ∀ i, 30 * τ ≤ w i * M := fun i => by
    have h1 : (30 * 2 ^ (-1022 : ℤ) : ℚ) ≤ w i * M := le_trans (by decide +kernel) (Z.rates i).1
    have h2 := Rat.cast_le (K := ℝ).2 h1
    push_cast at h2
    rw [hτ]
    exact h2
  have c0 := Rat.cast_le (K := ℝ).2 b0
  have c1 := Rat.cast_le (K := ℝ).2 b1
  have c2 := Rat.cast_le (K := ℝ).2 b2
  have c3 := Rat.cast_le (K := ℝ).2 b3'
  have c4 := Rat.cast_le (K := ℝ).2 (limited_rate (r := r3) hv)
  have y3R := Rat.cast_le (K := ℝ).2 (hy 3)
  have u0R := Rat.cast_le (K := ℝ).2 hU0
  have u1R := Rat.cast_le (K := ℝ).2 hU1
  have t1R := Rat.cast_le (K := ℝ).2 t1
  have t2R := Rat.cast_le (K := ℝ).2 t2
  push_cast at c0 c1 c2 c3 c4 y3R u0R u1R t1R t2R
  rw [← hε, ← hτ] at c0 c1 c2 c3
  have wM : ∀ i, 0 ≤ (w i : ℝ) * M := fun i => mul_nonneg (wp i).le M0R
  have wL : ∀ i, 0 ≤ (w i : ℝ) * (L * X) := fun i => mul_nonneg (wp i).le (mul_nonneg L0R X0R)
  have d0 : 0 ≤ δ := (abs_nonneg _).trans t3
  have grow : ∀ i : Fin 4, 8 * ε * (w i * M) ≤ w i * ((8 * ε + δ) * (L * X + M)) := fun i => by
    have h1 := mul_nonneg ε0 (wL i)
    have h2 := mul_nonneg d0 (wL i)
    have h3 := mul_nonneg d0 (wM i)
    linarith
  rw [ε8]
  intro i
  fin_cases i
  · show |((klimit none none none none (y 0) r0 : ℚ) : ℝ) - y 3 * Real.cos (y 2)| ≤ w 0 * _
    rw [klimit_free]
    refine (small_velocity ε0 t2R t4 y3R (tiny 0) (wM 0) c0).trans ?_
    rw [mul_left_comm]
    refine mul_le_mul_of_nonneg_left ?_ (by linarith)
    rw [mul_add]
    linarith
  · show |((klimit none none none none (y 1) r1 : ℚ) : ℝ) - y 3 * Real.sin (y 2)| ≤ w 1 * _
    rw [klimit_free]
    refine (small_velocity ε0 t1R t3 y3R (tiny 1) (wM 1) c1).trans ?_
    rw [mul_left_comm]
    refine mul_le_mul_of_nonneg_left ?_ (by linarith)
    rw [mul_add]
    linarith
  · show |((klimit none none none none (y 2) r2 : ℚ) : ℝ) - U 0| ≤ w 2 * _
    rw [klimit_free]
    exact c2.trans ((small_rate ε0 u0R (tiny 2)).trans (grow 2))
  · show |((klimit (some lo) (some hi) none none (y 3) r3 : ℚ) : ℝ) - U 1| ≤ w 3 * _
    exact c4.trans (c3.trans ((small_rate ε0 u1R (tiny 3)).trans (grow 3)))

theorem Flyer2.shadows {d : Dyn (b64Of libm)} (hd : Flyer2 d lo hi) (Z : AloftUnits2 w L X M) {δ : ℝ} (hlibm : TrigWithin libm (w 2 * X) δ) (hδ0 : 0 ≤ δ)
    (hδ : δ ≤ 1 / 2) {U : Fin 2 → ℚ} {φ : ℝ → Fin 4 → ℝ} {T ρ : ℝ} (hU0 : |U 0| ≤ w 2 * M) (hU1 : |U 1| ≤ w 3 * M)
    (hφ : ∀ t ∈ Set.Icc 0 T, HasDerivWithinAt φ (aloft2 U (φ t)) (Set.Icc 0 T) t)
    (hs : ∀ t ∈ Set.Icc 0 T, (∀ i, |φ t i| + w i * ρ ≤ w i * X) ∧ Keeps lo hi (U 1) (w 3 * ρ) (φ t 3)) :
    Shadows w d U (aloft2 U) φ L ((2⁻¹ ^ 50 + δ) * (L * X + M)) ρ (2 * (L * X + M)) X T := by
  have size : ∀ y, Around w φ ρ T y → ∀ i, |y i| ≤ w i * X := fun y ⟨t, ht, hy⟩ i => by
    have := abs_sub_abs_le_abs_sub (y i) (φ t i)
    have := (hs t ht).1 i
    have := hy i
    linarith
  obtain ⟨-, -, L0, X0, M0, -⟩ := Z.real
  have S0 : 0 ≤ (L : ℝ) * X + M := by positivity
  refine ⟨hφ, fun t y hy => ?_, fun y z e hy hz he i => aloft2_lip Z (size z hz 3) he i, fun y hy i => ?_, size⟩
  · have h1 := size _ hy
    obtain ⟨t', ht', hy'⟩ := hy
    obtain ⟨v, v1, v2⟩ := hd.dot Z hlibm (y := y) (fun i => by exact_mod_cast h1 i) hU0 hU1 ((hs t' ht').2.near (hy' 3)) t
    refine ⟨v, v1, fun i => ⟨v2 i, ?_⟩⟩
    have b1 := aloft2_size Z hU0 hU1 (y := fun j => (y j : ℝ)) (h1 3) i
    have b2 := abs_sub_abs_le_abs_sub (v i : ℝ) (aloft2 U (fun j => (y j : ℝ)) i)
    have b3 : (2⁻¹ ^ 50 + δ) * ((L : ℝ) * X + M) ≤ 1 * (L * X + M) := mul_le_mul_of_nonneg_right (by norm_num; linarith) S0
    have b4 := mul_le_mul_of_nonneg_left b3 (Z.weights.cast_pos i).le
    have : |(v i : ℝ)| ≤ w i * (2 * (L * X + M)) := by linarith [v2 i]
    exact_mod_cast this
  · refine (aloft2_size Z hU0 hU1 (size y hy 3) i).trans ?_
    push_cast
    exact mul_le_mul_of_nonneg_left (by linarith) (Z.weights.cast_pos i).le

/-- the end of a call: the speed is clipped and the heading wrapped -/
theorem Flyer2.finish {d : Dyn (b64Of libm)} (hd : Flyer2 d lo hi) {y : Fin 4 → ℚ} (hb : |y 2| ≤ 2 ^ 30) :
    ∃ (a : ℚ) (k : ℤ), Finished d y ![y 0, y 1, a, min (max (y 3) lo) hi] ∧ |a| ≤ 4 ∧ |(a : ℝ) - (y 2 - 2 * Real.pi * k)| ≤ 2⁻¹ ^ 50 * (|(y 2 : ℝ)| + 20) := by
  obtain ⟨a, k, w1, w2, w3⟩ := wrap_heading (libm := libm) hb
  refine ⟨a, k, ⟨toFl ![y 0, y 1, y 2, min (max (y 3) lo) hi], ?_, ?_⟩, w2, w3⟩
  · have := npClip_toFl (R := b64Of libm) y (lo := d.stateMin) (hi := d.stateMax) (l := ![none, none, none, some lo])
      (h := ![none, none, none, some hi]) (.inl hd.stateMin) (.inl hd.stateMax)
    rw [this]
    congr 2
    funext i
    fin_cases i <;> simp [kclip]
  · simp only [Dyn.wrapAngles, hd.wrap]
    have e1 : ([.nan, .nan, .fin 0, .nan] : Vec (b64Of libm)) = List.ofFn (![.nan, .nan, .fin 0, .nan] : Fin 4 → Fl (b64Of libm)) := rfl
    rw [e1, toFl, bcast2_ofFn]
    congr 2
    funext i
    fin_cases i <;> simp [Fl.isNan, w1]

/-- what is needed of the 2d aircraft -/
theorem Flyer2.upTo {env : Env (b64Of libm)} {e : Entity (b64Of libm)} (hd : Flyer2 e.dynamics lo hi) (Z : AloftUnits2 w L X M) {δ : ℝ}
    (hlibm : TrigWithin libm (w 2 * X) δ) (hδ0 : 0 ≤ δ) (hδ : δ ≤ 1 / 2) {ρ : ℝ} (hρ0 : 0 ≤ ρ) (hρ2 : w 2 * ρ ≤ 1) {H : ℚ} (hX2 : 7 + w 2 * M * H ≤ w 2 * X)
    {hist : List (ℚ × Action (b64Of libm))} {y z : Fin 4 → ℝ} (hH : ∀ p ∈ hist, p.1 ≤ H) (hm : MovesUnder env e aloft2 (AloftRoom2 w lo hi ρ X M) hist y z)
    (hy2 : |y 2| ≤ 6) : FollowsUpTo env e w aloft2 L ((2⁻¹ ^ 50 + δ) * (L * X + M)) ρ (2⁻¹ ^ 50 * (X + 20 / w 2)) (2 * (L * X + M)) X
      (fun z' => ∃ k : ℤ, z' = backBy 2 z k) hist y := by
  obtain ⟨-, -, L0, X0, M0, -⟩ := Z.real
  have wp := Z.weights.cast_pos
  have hX2R : 7 + (w 2 : ℝ) * M * H ≤ w 2 * X := by exact_mod_cast hX2
  have room : ∀ (U : Fin 2 → ℚ) (y : Fin 4 → ℝ), AloftRoom2 w lo hi ρ X M U y → |y 2| ≤ 6 + w 2 * M * H → ∀ i, |y i| + w i * ρ ≤ w i * X := by
    intro U y hG h2 i
    by_cases hi : i = 2
    · subst hi
      linarith
    · exact hG.2.2.1 i hi
  have := Spec.MovesUnder.upTo (j := 2) (H := H) (ρ := ρ) (L := L) (Δ := (2⁻¹ ^ 50 + δ) * (L * X + M)) (ω := 2⁻¹ ^ 50 * (X + 20 / w 2)) (D := 2 * (L * X + M)) (X := X)
    (R := w 2 * M) (w := w) (f := aloft2) aloft2_shift ?_ (mul_nonneg (wp 2).le M0) ?_ ?_ ?_ (fun p hp => by exact_mod_cast hH p hp) hm 0 (by simpa using hy2)
  · rwa [backBy_zero] at this
  · rintro U y k ⟨g1, g2, g3, g4⟩
    refine ⟨g1, g2, fun i hi => ?_, ?_⟩
    · rw [backBy_ne hi]
      exact g3 i hi
    · rw [backBy_ne (by decide)]
      exact g4
  · intro U y hG
    have : |(U 0 : ℝ)| ≤ w 2 * M := by exact_mod_cast hG.1
    exact this
  · intro U φ T hT hφ hG
    have h0 := (hG 0 ⟨le_rfl, hT⟩).1
    exact hd.shadows Z hlibm hδ0 hδ h0.1 h0.2.1 hφ fun t ht => ⟨room _ _ (hG t ht).1 (hG t ht).2, (hG t ht).1.2.2.2⟩
  · intro U y y1 hG h2 hy1
    have hr := room U y hG h2
    have b2 : |(y1 2 : ℝ)| ≤ w 2 * X := by
      have := abs_sub_abs_le_abs_sub (y1 2 : ℝ) (y 2)
      have := hy1 2
      have := hr 2
      linarith
    have b3 : (w 2 : ℝ) * X ≤ 2 ^ 30 := by exact_mod_cast Z.size.2 2
    have b4 : |(y1 2 : ℝ)| ≤ 2 ^ 30 := b2.trans b3
    obtain ⟨a, k, f1, f2, f3⟩ := hd.finish (y := y1) (by exact_mod_cast b4)
    have g : ∀ E, (∀ i, |y1 i - y i| ≤ w i * E) → |(a : ℝ) - (y 2 - 2 * Real.pi * k)| ≤ w 2 * E + 2⁻¹ ^ 50 * (w 2 * X + 20) := by
      intro E hE
      have g1 := abs_add_le ((a : ℝ) - (y1 2 - 2 * Real.pi * k)) (y1 2 - y 2)
      rw [show (a : ℝ) - (y1 2 - 2 * Real.pi * k) + (y1 2 - y 2) = a - (y 2 - 2 * Real.pi * k) by ring] at g1
      have g2 := hE 2
      have g3 : (2⁻¹ : ℝ) ^ 50 * (|(y1 2 : ℝ)| + 20) ≤ 2⁻¹ ^ 50 * (w 2 * X + 20) := by gcongr
      linarith
    refine ⟨_, k, f1, ?_, fun E hE0 hE i => ?_⟩
    · have g1 := g ρ hy1
      have f2' : |(a : ℝ)| ≤ 4 := by exact_mod_cast f2
      have g2 := abs_sub_abs_le_abs_sub (y 2 - 2 * Real.pi * k) (a : ℝ)
      rw [abs_sub_comm _ (a : ℝ)] at g2
      have g3 : (2⁻¹ : ℝ) ^ 50 * (w 2 * X + 20) ≤ 2⁻¹ ^ 50 * (2 ^ 30 + 20) := by gcongr
      have g4 : (2⁻¹ : ℝ) ^ 50 * (2 ^ 30 + 20) ≤ 1 := by norm_num
      linarith
    · have om : (0 : ℝ) ≤ 2⁻¹ ^ 50 * (X + 20 / w 2) := by
        have := wp 2
        positivity
      have up : ∀ i, (w i : ℝ) * E ≤ w i * (E + 2⁻¹ ^ 50 * (X + 20 / w 2)) := fun i => mul_le_mul_of_nonneg_left (by linarith) (wp i).le
      fin_cases i
      · show |(y1 0 : ℝ) - backBy 2 y k 0| ≤ _
        rw [backBy_ne (by decide)]
        exact (hE 0).trans (up 0)
      · show |(y1 1 : ℝ) - backBy 2 y k 1| ≤ _
        rw [backBy_ne (by decide)]
        exact (hE 1).trans (up 1)
      · show |(a : ℝ) - backBy 2 y k 2| ≤ w 2 * _
        rw [backBy_self]
        refine (g E hE).trans (le_of_eq ?_)
        have := (wp 2).ne'
        field_simp
      · show |((min (max (y1 3) lo) hi : ℚ) : ℝ) - backBy 2 y k 3| ≤ _
        rw [backBy_ne (by decide)]
        exact (hG.2.2.2.clip (mul_nonneg (wp 3).le hρ0) _).trans ((hE 3).trans (up 3))

end
end SAD
