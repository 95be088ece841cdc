import Verif.Lemmas.RoundCwhRk
import Verif.Lemmas.Accuracy
import Verif.Props.Rounding

/-! # RK45 steps of the Clohessy-Wiltshire model in double precision -/

set_option linter.unusedSectionVars false

namespace SAD
open Spec

section
variable {libm : Fmt ℚ} {env : Env (b64Of libm)} {args : DynArgs (b64Of libm)} {m n ω a μ η : ℚ} {d : Dyn (b64Of libm)} {F : Fin 3 → ℚ}

theorem b64_eps126 : (1 + (2⁻¹ : ℚ) ^ 53) ^ 126 - 1 ≤ 2⁻¹ ^ 46 := by decide +kernel

/-- the room left by the bounds -/
theorem b64_room {a μ H X P D θ : ℚ} (ha0 : 0 ≤ a) (ha : a ≤ 2 ^ 50) (hμ0 : 0 ≤ μ) (hμ : μ ≤ 2 ^ 51) (hH0 : 0 ≤ H) (hH : H ≤ 2 ^ 51) (hX0 : 0 ≤ X)
    (hX : X ≤ 2 ^ 100) (hθ0 : 0 ≤ θ) (hθ : θ ≤ 1) (hP : P = X + H * μ + 12 * (1 + H) * θ) (hD : D = 42 * (a * P) + μ) :
    X + (1 + H) * (25 * D + 12 * θ) + 2 * θ ≤ 2 ^ 240 := by
  have hP1 : P ≤ 2 ^ 100 + 2 ^ 51 * 2 ^ 51 + 12 * (1 + 2 ^ 51) * 1 := by rw [hP]; gcongr
  have hP0 : 0 ≤ P := by rw [hP]; positivity
  have hD1 : D ≤ 42 * (2 ^ 50 * (2 ^ 100 + 2 ^ 51 * 2 ^ 51 + 12 * (1 + 2 ^ 51) * 1)) + 2 ^ 51 := by rw [hD]; gcongr
  have hD0 : 0 ≤ D := by rw [hD]; positivity
  calc X + (1 + H) * (25 * D + 12 * θ) + 2 * θ
      ≤ 2 ^ 100 + (1 + 2 ^ 51) * (25 * (42 * (2 ^ 50 * (2 ^ 100 + 2 ^ 51 * 2 ^ 51 + 12 * (1 + 2 ^ 51) * 1)) + 2 ^ 51) + 12 * 1) + 2 * 1 := by gcongr
    _ ≤ 2 ^ 240 := by norm_num

theorem b64_roomy (hω : 2⁻¹ ^ 100 ≤ ω) (hω2 : ω ≤ 2 ^ 50) {θ τ : ℚ} (hθ : θ = 2⁻¹ ^ 600) (hτ : τ = 2 ^ (-1022 : ℤ)) :
    Roomy (b64Of libm) (2⁻¹ ^ 53) τ (2 ^ (1023 : ℤ)) θ (2 ^ 240) (posVel ω) 126 ∧ (∀ i, posVel ω i * 2 ^ 240 ≤ 2 ^ 300) ∧
      (∀ i, 32 * τ * 2 ^ 300 ≤ posVel ω i * θ) ∧ τ ≤ 1 / 10000 ∧ 0 ≤ τ ∧ 0 ≤ θ := by
  have hτ0 : 0 ≤ τ := by rw [hτ]; positivity
  have hθ0 : 0 ≤ θ := by rw [hθ]; exact pow_nonneg (by norm_num) _
  have hω0 : 0 < ω := lt_of_lt_of_le (pow_pos (by norm_num) _) hω
  have hlow : ∀ i, (2⁻¹ : ℚ) ^ 100 ≤ posVel ω i := fun i => by
    have h1 : (2⁻¹ : ℚ) ^ 100 ≤ 1 := pow_le_one₀ (by norm_num) (by norm_num)
    fin_cases i <;> first | exact h1 | exact hω
  have hup : ∀ i, posVel ω i ≤ 1 + 2 ^ 50 := fun i => (posVel_le hω0 i).trans (by linarith)
  have hcap : ∀ i, posVel ω i * 2 ^ 240 ≤ 2 ^ 300 := fun i =>
    (mul_le_mul_of_nonneg_right (hup i) (by positivity)).trans (by decide +kernel)
  have h32 : ∀ i, 32 * τ * 2 ^ 300 ≤ posVel ω i * θ := fun i =>
    le_trans (by rw [hτ, hθ]; decide +kernel) (mul_le_mul_of_nonneg_right (hlow i) hθ0)
  have hp : ∀ i, 0 ≤ posVel ω i := fun i => (posVel_pos hω0 i).le
  refine ⟨⟨?_, hp, fun i => le_trans ?_ (h32 i), ?_, fun i => ?_⟩, hcap, h32, ?_, hτ0, hθ0⟩
  · rw [hτ]; exact b64_rounds libm
  · have : τ * 1 ≤ τ * (32 * 2 ^ 300) := mul_le_mul_of_nonneg_left (by decide +kernel) hτ0
    rw [mul_one] at this
    exact this.trans (le_of_eq (by ring))
  · rw [hτ, hθ]; decide +kernel
  · have h1 : (1 + (2⁻¹ : ℚ) ^ 53) ^ 126 ≤ 2 := by decide +kernel
    calc _ ≤ 2 * (2 ^ 300 : ℚ) := mul_le_mul h1 (hcap i) (mul_nonneg (hp i) (by positivity)) (by norm_num)
      _ ≤ _ := by decide +kernel
  · rw [hτ]; decide +kernel

theorem b64_field (hd : mkCwhDynamics env (.fin m) (.fin n) args = .ok d) (hu : Unlimited d) (hm1 : |m⁻¹| ≤ 2 ^ 200) (hn1 : |n| ≤ 2 ^ 200)
    (hω : 2⁻¹ ^ 100 ≤ ω) (ha1 : ω ≤ a) (ha2 : 3 * n ^ 2 + 2 * |n| * ω ≤ a * ω) (ha3 : a ≤ 2 ^ 50) (hF : ∀ i, |F i| ≤ 1)
    (hμ : ∀ i, |F i / m| ≤ ω * μ) (hμ0 : 0 ≤ μ) {θ : ℚ} (hθ : θ = 2⁻¹ ^ 600) :
    NearField (b64Of libm) (2⁻¹ ^ 53) (posVel ω) 126 (2 ^ 240) a (μ + θ) 10 (fun t y => d.computeStateDot t y (toFl F)) (fun y => cw m n y F) := by
  obtain ⟨τ, hτ⟩ : ∃ τ : ℚ, τ = 2 ^ (-1022 : ℤ) := ⟨_, rfl⟩
  obtain ⟨hr, hQL, h32, hτ1, hτ0, hθ0⟩ := b64_roomy (libm := libm) hω (ha1.trans ha3) hθ hτ
  have hω0 : 0 < ω := lt_of_lt_of_le (pow_pos (by norm_num) _) hω
  exact cw_nearField hr (by decide +kernel) (by norm_num) (hτ1.trans (by norm_num)) hd hu hω0 ha1 ha2 hμ0 hF hμ (L := 2 ^ 300) (by decide +kernel) hQL
    (hn1.trans (by decide +kernel)) (hm1.trans (by decide +kernel)) (by decide +kernel) h32

theorem nearV_toFl {k : ℕ} {ε : ℚ} {w : Fin k → ℚ} {y : Fin k → ℚ} {X : ℚ} (hε : 0 ≤ ε) (hy : ∀ i, |y i| ≤ w i * X) :
    NearV (R := b64Of libm) ε w 0 (toFl y) y X :=
  ⟨fun i => .fin (y i), rfl, fun i => (near_fin (y i)).mono hε le_rfl (hy i)⟩

theorem near_fin_sub {K : Type} {R : Fmt K} [Field K] [LinearOrder K] [IsStrictOrderedRing K] {ε τ M : K} (hR : Rounds R ε τ M) {t t' : K}
    (h : |t' - t| ≤ M) : Near ε 1 (.fin t' - .fin t : Fl R) (t' - t) (|t' - t| + τ) := by
  have := near_round hR (k := 0) (w := t' - t) (x := t' - t) le_rfl (by simp) (by simpa using h)
  rw [zero_add] at this
  have e : (.fin t' - .fin t : Fl R) = Fl.round (t' - t) := by
    show Fl.round (t' + -t) = _
    rw [sub_eq_add_neg]
  rw [e]; exact this

/-- one accepted step of the solver -/
theorem b64_cw_rkStep (hd : mkCwhDynamics env (.fin m) (.fin n) args = .ok d) (hu : Unlimited d) (hm1 : |m⁻¹| ≤ 2 ^ 200) (hn1 : |n| ≤ 2 ^ 200)
    (hω : 2⁻¹ ^ 100 ≤ ω) (ha1 : ω ≤ a) (ha2 : 3 * n ^ 2 + 2 * |n| * ω ≤ a * ω) (ha3 : a ≤ 2 ^ 50) (hF : ∀ i, |F i| ≤ 1)
    (hμ : ∀ i, |F i / m| ≤ ω * μ) (hμ0 : 0 ≤ μ) (hμ1 : μ ≤ 2 ^ 50) (hη : η ≤ 2 ^ 50) (haη : 2 * a * η ≤ 1) {y : Fin 6 → ℚ} {X t t' h : ℚ}
    (hX0 : 0 ≤ X) (hX : X ≤ 2 ^ 100) (hy : ∀ i, |y i| ≤ posVel ω i * X) (hh : h = t' - t) (hh0 : 0 ≤ h) (hhη : h ≤ η) :
    ∃ y' : Fin 6 → ℚ, rkStepFl dopri (fun t y => d.computeStateDot t y (toFl F)) (.fin t) (.fin t' - .fin t) (toFl y) = .ok (toFl y') ∧
      ∀ i, |y' i - rkStep kdopri (fun _ y => cw m n y F) 0 h y i| ≤ posVel ω i * (2⁻¹ ^ 46 * (X + 74 * h * (a * X + μ) + 2⁻¹ ^ 500)) := by
  obtain ⟨τ, hτ⟩ : ∃ τ : ℚ, τ = 2 ^ (-1022 : ℤ) := ⟨_, rfl⟩
  obtain ⟨θ, hθ⟩ : ∃ θ : ℚ, θ = 2⁻¹ ^ 600 := ⟨_, rfl⟩
  obtain ⟨κ, hκ⟩ : ∃ κ : ℚ, κ = 2⁻¹ ^ 500 := ⟨_, rfl⟩
  obtain ⟨hr, hQL, h32, hτ1, hτ0, hθ0⟩ := b64_roomy (libm := libm) hω (ha1.trans ha3) hθ hτ
  have hω0 : 0 < ω := lt_of_lt_of_le (pow_pos (by norm_num) _) hω
  have ha0 : 0 ≤ a := hω0.le.trans ha1
  have hf := b64_field hd hu hm1 hn1 hω ha1 ha2 ha3 hF hμ hμ0 hθ
  have hθ1 : θ ≤ 1 := by rw [hθ]; decide +kernel
  have hz := near_fin_sub hr.rounds (t := t) (t' := t') (by
    rw [← hh, abs_of_nonneg hh0]
    exact (hhη.trans hη).trans (by decide +kernel))
  rw [← hh, abs_of_nonneg hh0] at hz
  have hH : h + τ ≤ 2 ^ 51 := by linarith [hhη.trans hη]
  have haτ : τ * a ≤ 1 / 2 := by
    calc τ * a ≤ τ * 2 ^ 50 := mul_le_mul_of_nonneg_left ha3 hτ0
      _ ≤ 1 / 2 := by rw [hτ]; decide +kernel
  have hHa : (h + τ) * a ≤ 1 := by
    have : h * a ≤ η * a := mul_le_mul_of_nonneg_right hhη ha0
    rw [add_mul]; linarith
  have hμθ : μ + θ ≤ 2 ^ 51 := by linarith
  obtain ⟨z', h1, h2⟩ := near_dopriStep hr hτ1 (by decide +kernel) ha0 (add_nonneg hμ0 hθ0) hf (by norm_num) hX0 hz hHa rfl rfl
    (b64_room ha0 ha3 (add_nonneg hμ0 hθ0) hμθ (by positivity) hH hX0 hX hθ0 hθ1 rfl rfl) (nearV_toFl (libm := libm) hr.rounds.eps hy) (.fin t)
  obtain ⟨y', rfl, h3⟩ := h2.toFl
  refine ⟨y', h1, fun i => (h3 i).trans ?_⟩
  have hp := (posVel_pos hω0 i).le
  rw [show posVel ω i * (2⁻¹ ^ 46 * (X + 74 * h * (a * X + μ) + 2⁻¹ ^ 500)) = 2⁻¹ ^ 46 * (posVel ω i * (X + 74 * h * (a * X + μ) + 2⁻¹ ^ 500)) by ring]
  have hrest : 74 * (h * θ) + 74 * (τ * (a * X + (μ + θ))) + 900 * (1 + (h + τ)) * θ ≤ κ := by
    have e1 : a * X ≤ 2 ^ 50 * 2 ^ 100 := mul_le_mul ha3 hX hX0 (by norm_num)
    calc 74 * (h * θ) + 74 * (τ * (a * X + (μ + θ))) + 900 * (1 + (h + τ)) * θ
        ≤ 74 * (2 ^ 50 * θ) + 74 * (τ * (2 ^ 50 * 2 ^ 100 + 2 ^ 51)) + 900 * (1 + 2 ^ 51) * θ := by
          have := hhη.trans hη
          gcongr
      _ ≤ κ := by rw [hτ, hθ, hκ]; decide +kernel
  rw [← hκ]
  refine mul_le_mul b64_eps126 (mul_le_mul_of_nonneg_left ?_ hp) ?_ (by positivity)
  · calc X + 74 * ((h + τ) * (a * X + (μ + θ))) + 900 * (1 + (h + τ)) * θ
        = X + 74 * h * (a * X + μ) + (74 * (h * θ) + 74 * (τ * (a * X + (μ + θ))) + 900 * (1 + (h + τ)) * θ) := by ring
      _ ≤ _ := by linarith
  · refine mul_nonneg hp ?_
    positivity

end
end SAD
