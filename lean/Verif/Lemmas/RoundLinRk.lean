import Verif.Lemmas.CwhRkError
import Verif.Spec.Linear

/-! # Linear models under RK45, in weighted norms and in double precision -/

set_option linter.unusedSectionVars false

namespace SAD
open Spec

section field
variable {K : Type} {R : Fmt K} [Field K] [LinearOrder K] [IsStrictOrderedRing K] {ε τ M θ Q : K} [FloorRing K]

/-- the derivative of a linear model whose matrices hold `k` roundings -/
theorem lin_nearField {n m k kmax : ℕ} {w : Fin n → K} (hr : Roomy R ε τ M θ Q w kmax) {env : Env R} {args : DynArgs R} {d : Dyn R}
    {zA : Fin n → Fin n → Fl R} {zB : Fin n → Fin m → Fl R} (hd : mkLinearDyn env args (flMat zA) (flMat zB) = .ok d) (hu : Unlimited d)
    {A a : Fin n → Fin n → K} {B b : Fin n → Fin m → K} (hA : ∀ i j, Near ε k (zA i j) (A i j) (a i j))
    (hB : ∀ i j, Near ε k (zB i j) (B i j) (b i j)) {α μ : K} {U : Fin m → K} (hα : ∀ i, ∑ j, a i j * w j ≤ α * w i)
    (hμ : ∀ i, ∑ j, b i j * |U j| + (2 * n + 2 * m + 1) * τ ≤ w i * μ) (hα0 : 0 ≤ α) (hμ0 : 0 ≤ μ)
    (hM : ∀ i, (1 + ε) ^ kmax * (w i * (α * Q + μ)) ≤ M) :
    NearField R ε w kmax Q α μ (k + 2 + max n m) (fun t y => d.computeStateDot t y (toFl U)) (fun y => linear A B U y) := by
  have hε := hr.rounds.eps
  have hτ := hr.rounds.tau
  intro t l z x Y hkq hz hY0 hYQ
  obtain ⟨zx, rfl, hzx⟩ := hz
  have hmag : ∀ i, rowMag τ a b (fun j => w j * Y) U i ≤ w i * (α * Y + μ) := fun i => by
    have e1 : ∑ j, (a i j * |w j * Y| + 2 * τ) = (∑ j, a i j * w j) * Y + n * (2 * τ) := by
      rw [Finset.sum_add_distrib, Finset.sum_const, Finset.card_univ, Fintype.card_fin, nsmul_eq_mul, Finset.sum_mul]
      congr 1
      exact Finset.sum_congr rfl fun j _ => by rw [abs_of_nonneg (mul_nonneg (hr.pos j) hY0)]; ring
    have e2 : ∑ j, (b i j * |U j| + 2 * τ) = ∑ j, b i j * |U j| + m * (2 * τ) := by
      rw [Finset.sum_add_distrib, Finset.sum_const, Finset.card_univ, Fintype.card_fin, nsmul_eq_mul]
    unfold rowMag
    rw [e1, e2]
    have h1 := mul_le_mul_of_nonneg_right (hα i) hY0
    have h2 := hμ i
    nlinarith
  have hmag0 : ∀ i, 0 ≤ rowMag τ a b (fun j => w j * Y) U i := fun i => by
    unfold rowMag
    have q1 : 0 ≤ ∑ j, (a i j * |w j * Y| + 2 * τ) := Finset.sum_nonneg fun j _ => by
      have := mul_nonneg (hA i j).nonneg (abs_nonneg (w j * Y)); positivity
    have q2 : 0 ≤ ∑ j, (b i j * |U j| + 2 * τ) := Finset.sum_nonneg fun j _ => by
      have := mul_nonneg (hB i j).nonneg (abs_nonneg (U j)); positivity
    positivity
  obtain ⟨zz, g1, g2⟩ := near_affineV hr.rounds hA hB t hzx U (fun i => by
    refine le_trans (mul_le_mul (pow_le_pow_right₀ (by linarith) (show k + l + 2 + max n m ≤ kmax by omega)) ((hmag i).trans ?_) (hmag0 i) (by positivity)) (hM i)
    exact mul_le_mul_of_nonneg_left (by gcongr) (hr.pos i))
  have hzz : ∀ i, Near ε (l + (k + 2 + max n m)) (zz i) (linear A B U x i) (w i * (α * Y + μ)) := fun i => by
    have := g2 i
    rw [show k + l + 2 + max n m = l + (k + 2 + max n m) by omega] at this
    exact this.mono hε le_rfl (hmag i)
  have hlin : d.rhs t (List.ofFn zx) (toFl U) = .ok (List.ofFn zz) := by rw [linear_rhs hd]; exact g1
  obtain ⟨v, e1, -⟩ := near_ofFn hzz
  obtain ⟨y, e2, -⟩ := near_ofFn hzx
  refine ⟨_, ?_, zz, rfl, hzz⟩
  rw [e1]
  show d.computeStateDot t (List.ofFn zx) (toFl U) = _
  rw [e2]
  rw [e1, e2] at hlin
  exact computeStateDot_unlimited hu hlin

end field

/-! ### one step in double precision -/

theorem pow_sub_one_le {ε : ℚ} (hε : 0 ≤ ε) : ∀ k : ℕ, 2 * (k * ε) ≤ 1 → (1 + ε) ^ k - 1 ≤ 2 * (k * ε)
  | 0, _ => by simp
  | k + 1, h => by
    push_cast at h ⊢
    have hk : 0 ≤ (k : ℚ) * ε := by positivity
    have ih := pow_sub_one_le hε k (by linarith)
    rw [pow_succ]
    nlinarith

section b64
variable {libm : Fmt ℚ} {n q : ℕ} {w : Fin n → ℚ} {a μ γ : ℚ} {F : (Fin n → ℚ) → Fin n → ℚ} {g : Rhs (b64Of libm)}

theorem b64_roomyV (hw1 : ∀ i, 2⁻¹ ^ 100 ≤ w i) (hw2 : ∀ i, w i ≤ 2 ^ 50) (hγ : (1 + (2⁻¹ : ℚ) ^ 53) ^ (6 * (q + 11)) - 1 ≤ γ) (hγ1 : γ ≤ 1) {θ τ : ℚ}
    (hθ : θ = 2⁻¹ ^ 600) (hτ : τ = 2 ^ (-1022 : ℤ)) :
    Roomy (b64Of libm) (2⁻¹ ^ 53) τ (2 ^ (1023 : ℤ)) θ (2 ^ 240) w (6 * (q + 11)) ∧ τ ≤ 1 / 10000 ∧ 0 ≤ τ ∧ 0 ≤ θ := by
  have hτ0 : 0 ≤ τ := by rw [hτ]; positivity
  have hθ0 : 0 ≤ θ := by rw [hθ]; exact pow_nonneg (by norm_num) _
  have hp : ∀ i, 0 ≤ w i := fun i => (pow_nonneg (by norm_num) _).trans (hw1 i)
  refine ⟨⟨?_, hp, fun i => ?_, ?_, fun i => ?_⟩, ?_, hτ0, hθ0⟩
  · rw [hτ]; exact b64_rounds libm
  · exact le_trans (by rw [hτ, hθ]; decide +kernel) (mul_le_mul_of_nonneg_right (hw1 i) hθ0)
  · rw [hτ, hθ]; decide +kernel
  · have h1 : (1 + (2⁻¹ : ℚ) ^ 53) ^ (6 * (q + 11)) ≤ 2 := by linarith
    calc _ ≤ 2 * (2 ^ 50 * 2 ^ 240 : ℚ) := mul_le_mul h1 (mul_le_mul_of_nonneg_right (hw2 i) (by positivity)) (mul_nonneg (hp i) (by positivity)) (by norm_num)
      _ ≤ _ := by decide +kernel
  · rw [hτ]; decide +kernel

/-- one accepted step of the solver -/
theorem b64_lin_rkStep (hw1 : ∀ i, 2⁻¹ ^ 100 ≤ w i) (hw2 : ∀ i, w i ≤ 2 ^ 50) (hγ : (1 + (2⁻¹ : ℚ) ^ 53) ^ (6 * (q + 11)) - 1 ≤ γ) (hγ1 : γ ≤ 1)
    (hf : NearField (b64Of libm) (2⁻¹ ^ 53) w (6 * (q + 11)) (2 ^ 240) a (μ + 2⁻¹ ^ 600) q g F) (ha0 : 0 ≤ a) (ha3 : a ≤ 2 ^ 50)
    (hμ0 : 0 ≤ μ) (hμ1 : μ ≤ 2 ^ 50) {η : ℚ} (hη : η ≤ 2 ^ 50) (haη : 2 * a * η ≤ 1) {y : Fin n → ℚ} {X t t' h : ℚ}
    (hX0 : 0 ≤ X) (hX : X ≤ 2 ^ 100) (hy : ∀ i, |y i| ≤ w i * X) (hh : h = t' - t) (hh0 : 0 ≤ h) (hhη : h ≤ η) :
    ∃ y' : Fin n → ℚ, rkStepFl dopri g (.fin t) (.fin t' - .fin t) (toFl y) = .ok (toFl y') ∧
      ∀ i, |y' i - rkStep kdopri (fun _ => F) 0 h y i| ≤ w i * (γ * (X + 74 * h * (a * X + μ) + 2⁻¹ ^ 500)) := by
  obtain ⟨τ, hτ⟩ : ∃ τ : ℚ, τ = 2 ^ (-1022 : ℤ) := ⟨_, rfl⟩
  obtain ⟨θ, hθ⟩ : ∃ θ : ℚ, θ = 2⁻¹ ^ 600 := ⟨_, rfl⟩
  obtain ⟨κ, hκ⟩ : ∃ κ : ℚ, κ = 2⁻¹ ^ 500 := ⟨_, rfl⟩
  obtain ⟨hr, hτ1, hτ0, hθ0⟩ := b64_roomyV (libm := libm) hw1 hw2 hγ hγ1 hθ hτ
  rw [← hθ] at hf
  have hθ1 : θ ≤ 1 := by rw [hθ]; decide +kernel
  have hz := near_fin_sub hr.rounds (t := t) (t' := t') (by
    rw [← hh, abs_of_nonneg hh0]
    exact (hhη.trans hη).trans (by decide +kernel))
  rw [← hh, abs_of_nonneg hh0] at hz
  have hH : h + τ ≤ 2 ^ 51 := by linarith [hhη.trans hη]
  have haτ : τ * a ≤ 1 / 2 := by
    calc τ * a ≤ τ * 2 ^ 50 := mul_le_mul_of_nonneg_left ha3 hτ0
      _ ≤ 1 / 2 := by rw [hτ]; decide +kernel
  have hHa : (h + τ) * a ≤ 1 := by
    have : h * a ≤ η * a := mul_le_mul_of_nonneg_right hhη ha0
    rw [add_mul]; linarith
  have hμθ : μ + θ ≤ 2 ^ 51 := by linarith
  obtain ⟨z', h1, h2⟩ := near_dopriStep hr hτ1 (by decide +kernel) ha0 (add_nonneg hμ0 hθ0) hf le_rfl hX0 hz hHa rfl rfl
    (b64_room ha0 ha3 (add_nonneg hμ0 hθ0) hμθ (by positivity) hH hX0 hX hθ0 hθ1 rfl rfl) (nearV_toFl (libm := libm) hr.rounds.eps hy) (.fin t)
  obtain ⟨y', rfl, h3⟩ := h2.toFl
  refine ⟨y', h1, fun i => (h3 i).trans ?_⟩
  have hp := hr.pos i
  rw [show w i * (γ * (X + 74 * h * (a * X + μ) + 2⁻¹ ^ 500)) = γ * (w i * (X + 74 * h * (a * X + μ) + 2⁻¹ ^ 500)) by ring]
  have hrest : 74 * (h * θ) + 74 * (τ * (a * X + (μ + θ))) + 900 * (1 + (h + τ)) * θ ≤ κ := by
    have e1 : a * X ≤ 2 ^ 50 * 2 ^ 100 := mul_le_mul ha3 hX hX0 (by norm_num)
    calc 74 * (h * θ) + 74 * (τ * (a * X + (μ + θ))) + 900 * (1 + (h + τ)) * θ
        ≤ 74 * (2 ^ 50 * θ) + 74 * (τ * (2 ^ 50 * 2 ^ 100 + 2 ^ 51)) + 900 * (1 + 2 ^ 51) * θ := by
          have := hhη.trans hη
          gcongr
      _ ≤ κ := by rw [hτ, hθ, hκ]; decide +kernel
  rw [← hκ]
  have hγ0 : 0 ≤ γ := le_trans (sub_nonneg.2 (one_le_pow₀ (by norm_num))) hγ
  refine mul_le_mul hγ (mul_le_mul_of_nonneg_left ?_ hp) ?_ hγ0
  · calc X + 74 * ((h + τ) * (a * X + (μ + θ))) + 900 * (1 + (h + τ)) * θ
        = X + 74 * h * (a * X + μ) + (74 * (h * θ) + 74 * (τ * (a * X + (μ + θ))) + 900 * (1 + (h + τ)) * θ) := by ring
      _ ≤ _ := by linarith
  · refine mul_nonneg hp ?_
    positivity

end b64

/-! ### the method -/

section weighted
variable {n m : ℕ} {w : Fin n → ℝ} {a : ℝ} {A : Fin n → Fin n → ℝ} {B : Fin n → Fin m → ℝ} {U : Fin m → ℝ}

/-- the matrix in units of `w` -/
noncomputable def linScaled (w : Fin n → ℝ) (A : Fin n → Fin n → ℝ) : (Fin n → ℝ) →L[ℝ] (Fin n → ℝ) :=
  LinearMap.toContinuousLinearMap
    { toFun := fun v i => (∑ j, A i j * (w j * v j)) / w i
      map_add' := fun v v' => by
        funext i
        simp only [Pi.add_apply, mul_add, Finset.sum_add_distrib, add_div]
      map_smul' := fun c v => by
        funext i
        simp only [Pi.smul_apply, smul_eq_mul, RingHom.id_apply]
        rw [mul_div_assoc', Finset.mul_sum]
        congr 1
        exact Finset.sum_congr rfl fun j _ => by ring }

theorem linScaled_apply (v : Fin n → ℝ) (i : Fin n) : linScaled w A v i = (∑ j, A i j * (w j * v j)) / w i := rfl

theorem linScaled_norm (hw : ∀ i, 0 < w i) (ha0 : 0 ≤ a) (ha : ∀ i, ∑ j, |A i j| * w j ≤ a * w i) (v : Fin n → ℝ) : ‖linScaled w A v‖ ≤ a * ‖v‖ := by
  rw [pi_norm_le_iff_of_nonneg (by positivity)]
  intro i
  rw [linScaled_apply, Real.norm_eq_abs, abs_div, abs_of_pos (hw i), div_le_iff₀ (hw i)]
  calc |∑ j, A i j * (w j * v j)| ≤ ∑ j, |A i j * (w j * v j)| := Finset.abs_sum_le_sum_abs _ _
    _ ≤ ∑ j, |A i j| * w j * ‖v‖ := Finset.sum_le_sum fun j _ => by
      rw [abs_mul, abs_mul, abs_of_pos (hw j), ← mul_assoc]
      exact mul_le_mul_of_nonneg_left (norm_le_pi_norm v j) (mul_nonneg (abs_nonneg _) (hw j).le)
    _ = (∑ j, |A i j| * w j) * ‖v‖ := (Finset.sum_mul _ _ _).symm
    _ ≤ a * w i * ‖v‖ := mul_le_mul_of_nonneg_right (ha i) (norm_nonneg v)
    _ = _ := by ring

/-- division by the weights -/
noncomputable def unweightV (w : Fin n → ℝ) : (Fin n → ℝ) →ₗ[ℝ] (Fin n → ℝ) where
  toFun := fun v i => v i / w i
  map_add' := fun v v' => by funext i; simp [add_div]
  map_smul' := fun c v => by funext i; simp [mul_div_assoc]

theorem unweightV_linear (hw : ∀ i, 0 < w i) (v : Fin n → ℝ) :
    unweightV w (linear A B U v) = linScaled w A (unweightV w v) + fun i => (∑ j, B i j * U j) / w i := by
  funext i
  have key : ∑ j, A i j * v j = ∑ j, A i j * (w j * unweightV w v j) := Finset.sum_congr rfl fun j _ => by
    show A i j * v j = A i j * (w j * (v j / w j))
    rw [mul_div_cancel₀ _ (hw j).ne']
  show (∑ j, A i j * v j + ∑ j, B i j * U j) / w i = linScaled w A (unweightV w v) i + (∑ j, B i j * U j) / w i
  rw [linScaled_apply, ← add_div, key]

theorem weighted_normV (hw : ∀ i, 0 < w i) {v : Fin n → ℝ} {E : ℝ} (hE : 0 ≤ E) : ‖unweightV w v‖ ≤ E ↔ ∀ i, |v i| ≤ w i * E := by
  rw [pi_norm_le_iff_of_nonneg hE]
  refine forall_congr' fun i => ?_
  show |v i / w i| ≤ E ↔ _
  rw [abs_div, abs_of_pos (hw i), div_le_iff₀ (hw i), mul_comm]

/-- a step of Dormand-Prince amplifies differences by at most `exp (2 a h)` -/
theorem lin_rk_growth (hw : ∀ i, 0 < w i) (ha0 : 0 ≤ a) (ha : ∀ i, ∑ j, |A i j| * w j ≤ a * w i) {h E : ℝ} (hh : 0 ≤ h) (hE0 : 0 ≤ E) {x y : Fin n → ℝ}
    (hE : ∀ i, |x i - y i| ≤ w i * E) (i : Fin n) :
    |rkStep kdopri (fun _ y => linear A B U y) 0 h x i - rkStep kdopri (fun _ y => linear A B U y) 0 h y i| ≤ w i * (Real.exp (2 * (a * h)) * E) := by
  have hA := linScaled_norm hw ha0 ha
  obtain ⟨b, hb⟩ : ∃ b : Fin n → ℝ, b = fun i => (∑ j, B i j * U j) / w i := ⟨_, rfl⟩
  have hmap : ∀ (t : ℝ) y, unweightV w ((fun (_ : ℝ) y => linear A B U y) t y) = (fun (_ : ℝ) y => linScaled w A y + b) t (unweightV w y) :=
    fun _ y => by rw [hb]; exact unweightV_linear hw y
  have g := kdopri_taylor.growth (by norm_num) (by norm_num [Nat.factorial]) ha0 hA b 0 hh (unweightV w x) (unweightV w y)
  have hy : ‖unweightV w x - unweightV w y‖ ≤ E := by
    rw [← map_sub]
    exact (weighted_normV hw hE0).2 hE
  have key : ‖unweightV w (rkStep kdopri (fun _ y => linear A B U y) 0 h x - rkStep kdopri (fun _ y => linear A B U y) 0 h y)‖ ≤ Real.exp (2 * (a * h)) * E := by
    rw [map_sub, rkStep_map kdopri (unweightV w) (fun _ y => linear A B U y) (fun _ y => linScaled w A y + b) hmap,
      rkStep_map kdopri (unweightV w) (fun _ y => linear A B U y) (fun _ y => linScaled w A y + b) hmap]
    exact g.trans (mul_le_mul_of_nonneg_left hy (Real.exp_pos _).le)
  exact (weighted_normV hw (by positivity)).1 key i

/-- a step of Dormand-Prince from a point of the exact solution -/
theorem lin_rk_local (hw : ∀ i, 0 < w i) (ha0 : 0 ≤ a) (ha : ∀ i, ∑ j, |A i j| * w j ≤ a * w i) {f : ℝ → Fin n → ℝ}
    (hf : ∀ t, HasDerivAt f (linear A B U (f t)) t) {t h δ : ℝ} (hh : 0 ≤ h) (hδ0 : 0 ≤ δ)
    (hδ : ∀ s, 0 ≤ s → s ≤ h → ∀ i, |linear A B U (f (t + s)) i| ≤ w i * δ) (i : Fin n) :
    |rkStep kdopri (fun _ y => linear A B U y) 0 h (f t) i - f (t + h) i| ≤ w i * (2 * a ^ 5 * δ * h ^ 6) := by
  have hA := linScaled_norm hw ha0 ha
  obtain ⟨b, hb⟩ : ∃ b : Fin n → ℝ, b = fun i => (∑ j, B i j * U j) / w i := ⟨_, rfl⟩
  have hun : ∀ v, unweightV w (linear A B U v) = linScaled w A (unweightV w v) + b := fun v => by rw [hb]; exact unweightV_linear hw v
  have hmap : ∀ (t : ℝ) y, unweightV w ((fun (_ : ℝ) y => linear A B U y) t y) = (fun (_ : ℝ) y => linScaled w A y + b) t (unweightV w y) := fun _ y => hun y
  have hf' : ∀ t, HasDerivAt (fun t => unweightV w (f t)) (linScaled w A (unweightV w (f t)) + b) t := fun t => by
    rw [← hun]
    refine hasDerivAt_pi.2 fun j => ?_
    exact (hasDerivAt_pi.1 (hf t) j).div_const _
  have l := kdopri_taylor.local (by norm_num) (by norm_num) ha0 hA hf' (M := δ) (t := t) hh (fun s h0 h1 => by
    rw [← hun]
    exact (weighted_normV hw hδ0).2 (hδ s h0 h1)) 0
  have key : ‖unweightV w (rkStep kdopri (fun _ y => linear A B U y) 0 h (f t) - f (t + h))‖ ≤ 2 * a ^ 5 * δ * h ^ 6 := by
    rw [map_sub, rkStep_map kdopri (unweightV w) (fun _ y => linear A B U y) (fun _ y => linScaled w A y + b) hmap]
    exact l
  exact (weighted_normV hw (by positivity)).1 key i

theorem linear_le (hw : ∀ i, 0 < w i) (ha : ∀ i, ∑ j, |A i j| * w j ≤ a * w i) {μ Φ : ℝ} (hΦ : 0 ≤ Φ) (hμ : ∀ i, |∑ j, B i j * U j| ≤ w i * μ) {v : Fin n → ℝ}
    (hv : ∀ i, |v i| ≤ w i * Φ) (i : Fin n) : |linear A B U v i| ≤ w i * (a * Φ + μ) := by
  unfold linear
  calc |∑ j, A i j * v j + ∑ j, B i j * U j| ≤ |∑ j, A i j * v j| + |∑ j, B i j * U j| := abs_add_le _ _
    _ ≤ ∑ j, |A i j| * w j * Φ + w i * μ := by
      refine add_le_add ((Finset.abs_sum_le_sum_abs _ _).trans (Finset.sum_le_sum fun j _ => ?_)) (hμ i)
      rw [abs_mul, mul_assoc]
      exact mul_le_mul_of_nonneg_left (hv j) (abs_nonneg _)
    _ = (∑ j, |A i j| * w j) * Φ + w i * μ := by rw [Finset.sum_mul]
    _ ≤ a * w i * Φ + w i * μ := by have := mul_le_mul_of_nonneg_right (ha i) hΦ; linarith
    _ = _ := by ring

end weighted

end SAD
