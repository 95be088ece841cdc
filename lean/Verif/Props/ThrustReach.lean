import Verif.Props.Manoeuvre

/-!
# C126: how far thrust can take a spacecraft
-/

set_option linter.unusedSectionVars false

namespace SAD
open Spec Complex Quaternion

/-- where a spacecraft of mass `m` can be `t` seconds after the state `s`, its thrusters giving at most one newton along each axis: about the centre
of the orbit, which drifts, within the size of the ellipse and what thrust can add; `g` is the factor by which the method makes the ellipse grow -/
def Spec.WithinThrust (g m n t : ℝ) (s s' : Fin 6 → ℝ) : Prop :=
  |s' 0 - centreX n s| ≤ g * (√(ellipseSq n s) + √5 * t / (m * n)) + 2 * t / (m * n) ∧
  |s' 1 - (centreY n s - 3 / 2 * n * centreX n s * t)| ≤ 2 * (g * (√(ellipseSq n s) + √5 * t / (m * n))) + 2 * t / (m * n) + 3 / 2 * t ^ 2 / m ∧
  |s' 2| ≤ g * (√(swingSq n s) + t / (m * n)) ∧
  |s' 3| ≤ n * (g * (√(ellipseSq n s) + √5 * t / (m * n))) ∧
  |s' 4 + 3 / 2 * n * centreX n s| ≤ 2 * n * (g * (√(ellipseSq n s) + √5 * t / (m * n))) + 3 * t / m ∧
  |s' 5| ≤ n * (g * (√(swingSq n s) + t / (m * n)))

/-- what a Dormand-Prince step makes of a constant rate that is being turned -/
noncomputable def spinPhi (θ : ℝ) : ℂ := ⟨1 - θ ^ 2 / 6 + θ ^ 4 / 120, θ / 2 - θ ^ 3 / 24 + θ ^ 5 / 600⟩

theorem spinPhi_le {θ : ℝ} (h : θ ^ 2 ≤ 81/100) : ‖spinPhi θ‖ ≤ 1 := by
  have h1 : ‖spinPhi θ‖ ^ 2 ≤ 1 := by
    rw [← Complex.normSq_eq_norm_sq, Complex.normSq_apply]
    simp only [spinPhi]
    rw [show (1 - θ ^ 2 / 6 + θ ^ 4 / 120) * (1 - θ ^ 2 / 6 + θ ^ 4 / 120) + (θ / 2 - θ ^ 3 / 24 + θ ^ 5 / 600) * (θ / 2 - θ ^ 3 / 24 + θ ^ 5 / 600)
      = (1 - θ ^ 2 / 6 + (θ ^ 2) ^ 2 / 120) ^ 2 + θ ^ 2 * (1 / 2 - θ ^ 2 / 24 + (θ ^ 2) ^ 2 / 600) ^ 2 by ring]
    have h0 := sq_nonneg θ
    generalize θ ^ 2 = x at *
    have a1 : (1 - x / 6 + x ^ 2 / 120) ^ 2 ≤ 1 - x * (79 / 300) := by
      have u : 1 - x / 6 + x ^ 2 / 120 ≤ 1 - x * (79 / 500) := by nlinarith
      have v : 0 ≤ 1 - x / 6 + x ^ 2 / 120 := by nlinarith
      have := pow_le_pow_left₀ v u 2
      nlinarith
    have a2 : (1 / 2 - x / 24 + x ^ 2 / 600) ^ 2 ≤ 1 / 4 := by
      have u : 1 / 2 - x / 24 + x ^ 2 / 600 ≤ 1 / 2 := by nlinarith
      have v : 0 ≤ 1 / 2 - x / 24 + x ^ 2 / 600 := by nlinarith
      have := pow_le_pow_left₀ v u 2
      linarith
    have := mul_le_mul_of_nonneg_left a2 h0
    linarith
  nlinarith [norm_nonneg (spinPhi θ)]

/-- one step with a constant rate `b` added -/
theorem spin_step_push (j : ℍ[ℝ]) (hj : j * j = -1) (ω t h : ℝ) (b q : ℍ[ℝ]) :
    rkStep kdopri (fun _ q => q * ((ω / 2) • j) + b) t h q = q * spinHom j hj (spinR (ω * h / 2)) + h • (b * spinHom j hj (spinPhi (ω * h / 2))) := by
  let A : ℍ[ℝ] →L[ℝ] ℍ[ℝ] := (ContinuousLinearMap.mul ℝ ℍ[ℝ]).flip ((ω / 2) • j)
  have hA : ∀ q, A q = q * ((ω / 2) • j) := fun q => rfl
  have hAp : ∀ k q, (A ^ k) q = q * ((ω / 2) • j) ^ k := by
    intro k
    induction k with
    | zero => intro q; simp
    | succ k ih => intro q; rw [pow_succ', ContinuousLinearMap.mul_apply, ih, hA, pow_succ, mul_assoc]
  have key := kdopri_taylor A b t h q
  have key0 := kdopri_taylor A 0 t h q
  simp only [add_zero] at key0
  rw [← spin_step j hj ω t h q, show (fun _ q => q * ((ω / 2) • j) : ℝ → ℍ[ℝ] → ℍ[ℝ]) = fun _ y => A y from rfl, key0,
    show (fun _ q => q * ((ω / 2) • j) + b : ℝ → ℍ[ℝ] → ℍ[ℝ]) = fun _ y => A y + b from rfl, key]
  have hlin : taylorG A 5 h (A q + b) = taylorG A 5 h (A q) + taylorG A 5 h b := by
    simp [taylorG, Finset.sum_add_distrib]
  rw [hlin, map_add, smul_add]
  have hb : taylorG A 5 h b + (1 / 600 * h ^ (5 + 1)) • (A ^ 5) b = h • (b * spinHom j hj (spinPhi (ω * h / 2))) := by
    simp only [taylorG, hAp, Finset.sum_range_succ, Finset.sum_range_zero]
    have hp : (ω / 2) • j = spinHom j hj (⟨0, ω / 2⟩) := by rw [spinHom_apply]; simp
    rw [hp]
    have e : ∀ (c : ℝ) (k : ℕ), c • (b * spinHom j hj ⟨0, ω / 2⟩ ^ k) = b * spinHom j hj (c • (⟨0, ω / 2⟩ : ℂ) ^ k) := by
      intro c k
      rw [map_smul, map_pow, mul_smul_comm]
    simp only [e, zero_add]
    rw [← mul_smul_comm, ← map_smul]
    simp only [← mul_add, ← map_add]
    congr 2
    have hz : (⟨0, ω / 2⟩ : ℂ) = ((ω / 2 : ℝ) : ℂ) * I := by apply Complex.ext <;> simp
    rw [hz]
    have hI2 := I_sq
    have hI3 : (I : ℂ) ^ 3 = -I := by rw [pow_succ, I_sq]; ring
    have hI4 : (I : ℂ) ^ 4 = 1 := I_pow_four
    have hI5 : (I : ℂ) ^ 5 = I := by rw [pow_succ, I_pow_four]; ring
    have : spinPhi (ω * h / 2) = (1 - (ω * h / 2) ^ 2 / 6 + (ω * h / 2) ^ 4 / 120 : ℝ)
        + ((ω * h / 2) / 2 - (ω * h / 2) ^ 3 / 24 + (ω * h / 2) ^ 5 / 600 : ℝ) * I := by
      rw [spinPhi]; exact Complex.mk_eq_add_mul_I _ _
    rw [this]
    simp only [Complex.real_smul, mul_pow, hI2, hI3, hI4, hI5, Nat.factorial, pow_zero, pow_one, mul_one]
    push_cast
    ring
  rw [← hb]
  abel

/-- Steps of at most `9/5` over the rate let a constant rate add at most itself times the time. -/
theorem spin_chain_push (j : ℍ[ℝ]) (hj : j * j = -1) (hre : j.re = 0) {ω η : ℝ} (hω : 0 ≤ ω) (hη : ω * η ≤ 9 / 5) (b : ℍ[ℝ]) (hs : List ℝ) :
    ∀ (t : ℝ) (q : ℍ[ℝ]), (∀ h ∈ hs, 0 ≤ h ∧ h ≤ η) →
      ‖rkChain kdopri (fun _ q => q * ((ω / 2) • j) + b) t q hs‖ ≤ ‖q‖ + ‖b‖ * hs.sum := by
  induction hs with
  | nil => intro t q _; simp [rkChain]
  | cons h hs ih =>
    intro t q hb
    obtain ⟨b0, b1⟩ := hb h (by simp)
    simp only [rkChain]
    refine (ih _ _ (fun x hx => hb x (by simp [hx]))).trans ?_
    rw [spin_step_push j hj, List.sum_cons]
    have t0 : 0 ≤ ω * h / 2 := by positivity
    have t1 : ω * h / 2 ≤ 9 / 10 := by have := mul_le_mul_of_nonneg_left b1 hω; linarith
    have t2 : (ω * h / 2) ^ 2 ≤ 81 / 100 := by nlinarith
    have r1 := spinR_le t2
    have r2 := spinPhi_le t2
    have n1 : ‖q * spinHom j hj (spinR (ω * h / 2))‖ ≤ ‖q‖ := by
      rw [norm_mul, spinHom_norm j hj hre]; exact mul_le_of_le_one_right (norm_nonneg _) r1
    have n2 : ‖h • (b * spinHom j hj (spinPhi (ω * h / 2)))‖ ≤ ‖b‖ * h := by
      rw [norm_smul, norm_mul, spinHom_norm j hj hre, Real.norm_of_nonneg b0, mul_comm]
      exact mul_le_mul_of_nonneg_right (mul_le_of_le_one_right (norm_nonneg _) r2) b0
    have := norm_add_le (q * spinHom j hj (spinR (ω * h / 2))) (h • (b * spinHom j hj (spinPhi (ω * h / 2))))
    linarith

theorem planeQ_norm (a b : ℝ) : ‖planeQ a b‖ = √(a ^ 2 + b ^ 2) := by
  have : ‖planeQ a b‖ ^ 2 = a ^ 2 + b ^ 2 := by
    rw [pow_two, ← Quaternion.normSq_eq_norm_mul_self, Quaternion.normSq_def']; simp
  rw [← this, Real.sqrt_sq (norm_nonneg _)]

theorem cwModel_ellipse_rate (m n : ℝ) (hm' : m ≠ 0) (hn' : n ≠ 0) (u : Fin 3 → ℝ) (t : ℝ) (y : Fin 6 → ℝ) :
    ellipseAt n ((cwModel m n).field u t y) = ellipseAt n y * ((2 * n / 2) • unitI) + planeQ (-(2 * u 1 / (m * n))) (-(u 0 / (m * n))) := by
  ext
  all_goals
    simp [ellipseAt, unitI, cwModel_field, centreX]
    try field_simp
    try ring

theorem cwModel_swing_rate (m n : ℝ) (hm' : m ≠ 0) (hn' : n ≠ 0) (u : Fin 3 → ℝ) (t : ℝ) (y : Fin 6 → ℝ) :
    swingAt n ((cwModel m n).field u t y) = swingAt n y * ((2 * n / 2) • unitI) + planeQ 0 (-(u 2 / (m * n))) := by
  ext
  all_goals
    simp [swingAt, unitI, cwModel_field]
    try field_simp
    try ring

theorem push_rate_norm {m n : ℝ} (hm : 0 < m) (hn : 0 < n) {u : Fin 3 → ℝ} (hu : ∀ i, |u i| ≤ 1) :
    ‖planeQ (-(2 * u 1 / (m * n))) (-(u 0 / (m * n)))‖ ≤ √5 / (m * n) ∧ ‖planeQ 0 (-(u 2 / (m * n)))‖ ≤ 1 / (m * n) := by
  have hmn : 0 < m * n := mul_pos hm hn
  have hsq : ∀ i, u i ^ 2 ≤ 1 := fun i => by
    have := hu i; rw [← sq_abs]; exact pow_le_one₀ (abs_nonneg _) this
  constructor
  · rw [planeQ_norm, show √5 / (m * n) = √(5 / (m * n) ^ 2) by rw [Real.sqrt_div (by norm_num), Real.sqrt_sq hmn.le]]
    apply Real.sqrt_le_sqrt
    rw [neg_sq, neg_sq, div_pow, div_pow, ← add_div]
    exact div_le_div_of_nonneg_right (by nlinarith [hsq 0, hsq 1]) (by positivity)
  · rw [planeQ_norm, show (1 : ℝ) / (m * n) = √(1 / (m * n) ^ 2) by rw [Real.sqrt_div (by norm_num), Real.sqrt_sq hmn.le, Real.sqrt_one]]
    apply Real.sqrt_le_sqrt
    rw [neg_sq, div_pow, zero_pow two_ne_zero, zero_add]
    exact div_le_div_of_nonneg_right (hsq 2) (by positivity)

theorem cwModel_push_size (m n : ℝ) (hm : 0 < m) (hn : 0 < n) {η : ℝ} (hη : n * η ≤ 9 / 10) (u : Fin 3 → ℝ) (hu : ∀ i, |u i| ≤ 1)
    (y : Fin 6 → ℝ) (hs : List ℝ) (hb : ∀ h ∈ hs, 0 ≤ h ∧ h ≤ η) :
    ‖ellipseAt n (rkChain kdopri ((cwModel m n).field u) 0 y hs)‖ ≤ ‖ellipseAt n y‖ + √5 * hs.sum / (m * n) ∧
    ‖swingAt n (rkChain kdopri ((cwModel m n).field u) 0 y hs)‖ ≤ ‖swingAt n y‖ + hs.sum / (m * n) := by
  have hs0 : 0 ≤ hs.sum := List.sum_nonneg (fun h hh => (hb h hh).1)
  obtain ⟨b1, b2⟩ := push_rate_norm hm hn hu
  constructor
  · rw [rkChain_map kdopri (ellipseAt n) _ (fun _ q => q * ((2 * n / 2) • unitI) + planeQ (-(2 * u 1 / (m * n))) (-(u 0 / (m * n)))) (cwModel_ellipse_rate m n hm.ne' hn.ne' u) 0 y hs]
    refine (spin_chain_push unitI unitI_sq rfl (by positivity) (by linarith) _ hs 0 _ hb).trans ?_
    have := mul_le_mul_of_nonneg_right b1 hs0
    have e : √5 * hs.sum / (m * n) = √5 / (m * n) * hs.sum := by ring
    rw [e]
    linarith
  · rw [rkChain_map kdopri (swingAt n) _ (fun _ q => q * ((2 * n / 2) • unitI) + planeQ 0 (-(u 2 / (m * n)))) (cwModel_swing_rate m n hm.ne' hn.ne' u) 0 y hs]
    refine (spin_chain_push unitI unitI_sq rfl (by positivity) (by linarith) _ hs 0 _ hb).trans ?_
    have := mul_le_mul_of_nonneg_right b2 hs0
    rw [one_div_mul_eq_div] at this
    linarith

theorem cwModel_sat_le (m n : ℝ) (u : Fin 3 → ℝ) (i : Fin 3) : |(cwModel m n).sat u i| ≤ 1 := by
  rw [cwModel_sat, abs_le]
  constructor
  · exact le_min (le_max_right _ _) (by norm_num)
  · exact min_le_right _ _

theorem norm_euler (n : ℝ) (T : ℝ) (hT : 0 ≤ T) (η : ℝ) (hη : T ≤ η) (q b : ℍ[ℝ]) :
    ‖q + T • (q * ((2 * n / 2) • unitI) + b)‖ ≤ Real.exp (n ^ 2 * η * T / 2) * ‖q‖ + ‖b‖ * T := by
  have e : q + T • (q * ((2 * n / 2) • unitI) + b) = q * spinHom unitI unitI_sq ⟨1, n * T⟩ + T • b := by
    rw [spinHom_apply]
    ext <;> simp [unitI] <;> ring
  rw [e]
  refine (norm_add_le _ _).trans ?_
  rw [norm_mul, spinHom_norm _ _ rfl, norm_smul, Real.norm_of_nonneg hT, mul_comm T]
  have h1 : ‖(⟨1, n * T⟩ : ℂ)‖ ≤ Real.exp (n ^ 2 * η * T / 2) := by
    refine (sq_le_sq₀ (norm_nonneg _) (Real.exp_pos _).le).1 ?_
    rw [← Complex.normSq_eq_norm_sq, Complex.normSq_apply, ← Real.exp_nat_mul]
    have h2 := Real.add_one_le_exp (((2 : ℕ) : ℝ) * (n ^ 2 * η * T / 2))
    refine le_trans ?_ h2
    push_cast
    have : n ^ 2 * (T * T) ≤ n ^ 2 * (η * T) := mul_le_mul_of_nonneg_left (mul_le_mul_of_nonneg_right hη hT) (sq_nonneg n)
    show 1 * 1 + n * T * (n * T) ≤ _
    linarith
  rw [mul_comm ‖q‖]
  linarith [mul_le_mul_of_nonneg_right h1 (norm_nonneg q)]

theorem cwModel_push_euler (m n : ℝ) (hm : 0 < m) (hn : 0 < n) (u : Fin 3 → ℝ) (hu : ∀ i, |u i| ≤ 1)
    (y : Fin 6 → ℝ) (T : ℝ) (hT : 0 ≤ T) (η : ℝ) (hη : T ≤ η) :
    ‖ellipseAt n (rkChain keuler ((cwModel m n).field u) 0 y [T])‖ ≤ Real.exp (n ^ 2 * η * T / 2) * ‖ellipseAt n y‖ + √5 * T / (m * n) ∧
    ‖swingAt n (rkChain keuler ((cwModel m n).field u) 0 y [T])‖ ≤ Real.exp (n ^ 2 * η * T / 2) * ‖swingAt n y‖ + T / (m * n) := by
  have f1 := cwModel_ellipse_rate m n hm.ne' hn.ne' u 0 y
  have f2 := cwModel_swing_rate m n hm.ne' hn.ne' u 0 y
  have b1 := (push_rate_norm hm hn hu).1
  have b2 := (push_rate_norm hm hn hu).2
  rw [rkChain_keuler, map_add, map_smul, map_add, map_smul, f1, f2]
  constructor
  · refine (norm_euler n T hT η hη _ _).trans ?_
    have := mul_le_mul_of_nonneg_right b1 hT
    have e : √5 * T / (m * n) = √5 / (m * n) * T := by ring
    rw [e]; linarith
  · refine (norm_euler n T hT η hη _ _).trans ?_
    have := mul_le_mul_of_nonneg_right b2 hT
    have e : T / (m * n) = 1 / (m * n) * T := by ring
    rw [e]; linarith

/-- what is known of a state `τ` seconds later -/
def Spread (g m n τ : ℝ) (s y : Fin 6 → ℝ) : Prop :=
  ‖ellipseAt n y‖ ≤ g * (‖ellipseAt n s‖ + √5 * τ / (m * n)) ∧ ‖swingAt n y‖ ≤ g * (‖swingAt n s‖ + τ / (m * n)) ∧
  |centreX n y - centreX n s| ≤ 2 * τ / (m * n) ∧
  |centreY n y - (centreY n s - 3 / 2 * n * centreX n s * τ)| ≤ 2 * τ / (m * n) + 3 / 2 * τ ^ 2 / m

theorem centre_spread {d : Dyn realFmt} {T : ℝ} {tab : KTab ℝ} {hs : List ℝ} (hrun : Run d T tab hs) {m n : ℝ} (hm0 : 0 < m) (hn0 : 0 < n)
    (hT0 : 0 ≤ T) {τ : ℝ} (q0 : 0 ≤ τ) (v : Fin 3 → ℝ) (hu : ∀ i, |v i| ≤ 1) {s y : Fin 6 → ℝ}
    (q3 : |centreX n y - centreX n s| ≤ 2 * τ / (m * n))
    (q4 : |centreY n y - (centreY n s - 3 / 2 * n * centreX n s * τ)| ≤ 2 * τ / (m * n) + 3 / 2 * τ ^ 2 / m)
    {z : Fin 6 → ℝ} (hz : z = rkChain tab ((cwModel m n).field v) 0 y hs) :
    |centreX n z - centreX n s| ≤ 2 * (τ + T) / (m * n) ∧
    |centreY n z - (centreY n s - 3 / 2 * n * centreX n s * (τ + T))| ≤ 2 * (τ + T) / (m * n) + 3 / 2 * (τ + T) ^ 2 / m := by
  have hm' := hm0.ne'
  have hn' := hn0.ne'
  obtain ⟨c, hc⟩ : ∃ c : ℝ, c = if d.integrationMethod = "Euler" then 0 else 1 := ⟨_, rfl⟩
  have hc01 : 0 ≤ c ∧ c ≤ 1 := by rw [hc]; split <;> norm_num
  obtain ⟨k1, k2⟩ := cwModel_push hrun m n hm' hn' v y c hc
  rw [← hz] at k1 k2
  obtain ⟨a, ha⟩ : ∃ a, a = T / (m * n) := ⟨_, rfl⟩
  have ha0 : 0 ≤ a := by rw [ha]; positivity
  have v0 : |v 0 * a| ≤ a := by rw [abs_mul, abs_of_nonneg ha0]; exact mul_le_of_le_one_left ha0 (hu 0)
  have v1 : |v 1 * a| ≤ a := by rw [abs_mul, abs_of_nonneg ha0]; exact mul_le_of_le_one_left ha0 (hu 1)
  constructor
  · rw [k1, show 2 * (v 1 * T) / (m * n) = 2 * (v 1 * a) by rw [ha]; ring, show 2 * (τ + T) / (m * n) = 2 * τ / (m * n) + 2 * a by rw [ha]; ring]
    rw [abs_le] at *
    constructor <;> linarith [q3.1, q3.2, v1.1, v1.2]
  · obtain ⟨b, hb'⟩ : ∃ b, b = 3 / 2 * T ^ 2 / m := ⟨_, rfl⟩
    have hb0 : 0 ≤ b := by rw [hb']; positivity
    have v1' : |c * (v 1 * b)| ≤ b := by
      rw [abs_mul, abs_mul, abs_of_nonneg hb0, abs_of_nonneg hc01.1]
      exact (mul_le_of_le_one_left (by positivity) hc01.2).trans (mul_le_of_le_one_left hb0 (hu 1))
    have w : |3 / 2 * n * T * (centreX n y - centreX n s)| ≤ 3 * τ * T / m := by
      rw [abs_mul, abs_of_nonneg (by positivity : 0 ≤ 3 / 2 * n * T)]
      refine (mul_le_mul_of_nonneg_left q3 (by positivity)).trans (le_of_eq ?_)
      field_simp
    rw [k2, show centreY n y - 3 / 2 * n * centreX n y * T - 2 * (v 0 * T) / (m * n) - c * (3 / 2 * (v 1 * T ^ 2) / m)
        - (centreY n s - 3 / 2 * n * centreX n s * (τ + T))
      = (centreY n y - (centreY n s - 3 / 2 * n * centreX n s * τ)) - 3 / 2 * n * T * (centreX n y - centreX n s) - 2 * (v 0 * a) - c * (v 1 * b) by
        rw [ha, hb']; ring]
    rw [show 2 * (τ + T) / (m * n) + 3 / 2 * (τ + T) ^ 2 / m = (2 * τ / (m * n) + 3 / 2 * τ ^ 2 / m) + 3 * τ * T / m + 2 * a + b by
      rw [ha, hb']; ring]
    rw [abs_le] at *
    constructor <;> linarith [q4.1, q4.2, w.1, w.2, v0.1, v0.2, v1'.1, v1'.2]

theorem Spread.within {g m n t : ℝ} (hm0 : 0 < m) (hn0 : 0 < n) {s s' : Fin 6 → ℝ} (h : Spread g m n t s s') : WithinThrust g m n t s s' := by
  obtain ⟨g2, g3, g4, g5⟩ := h
  have hm' := hm0.ne'
  have hn' := hn0.ne'
  have nE : √(ellipseSq n s) = ‖ellipseAt n s‖ := by rw [← ellipseAt_norm, Real.sqrt_sq (norm_nonneg _)]
  have nS : √(swingSq n s) = ‖swingAt n s‖ := by rw [← swingAt_norm, Real.sqrt_sq (norm_nonneg _)]
  rw [← nE] at g2
  rw [← nS] at g3
  unfold WithinThrust
  have part : ∀ q : ℍ[ℝ], |q.re| ≤ ‖q‖ ∧ |q.imI| ≤ ‖q‖ := by
    intro q
    have h := Quaternion.normSq_eq_norm_mul_self q
    rw [Quaternion.normSq_def'] at h
    constructor
    · apply abs_le_of_sq_le_sq _ (norm_nonneg q)
      nlinarith [sq_nonneg q.imI, sq_nonneg q.imJ, sq_nonneg q.imK]
    · apply abs_le_of_sq_le_sq _ (norm_nonneg q)
      nlinarith [sq_nonneg q.re, sq_nonneg q.imJ, sq_nonneg q.imK]
  generalize g * (√(ellipseSq n s) + √5 * t / (m * n)) = A at *
  generalize g * (√(swingSq n s) + t / (m * n)) = B at *
  have E0 : |s' 0 - centreX n s'| ≤ A := (part (ellipseAt n s')).1.trans g2
  have E3 : |s' 3 / n| ≤ A := by
    have := (part (ellipseAt n s')).2.trans g2
    rwa [show (ellipseAt n s').imI = -(s' 3 / n) from rfl, abs_neg] at this
  have S0 : |s' 2| ≤ B := (part (swingAt n s')).1.trans g3
  have S3 : |s' 5 / n| ≤ B := by
    have := (part (swingAt n s')).2.trans g3
    rwa [show (swingAt n s').imI = -(s' 5 / n) from rfl, abs_neg] at this
  have hX : n * centreX n s' = 4 * n * s' 0 + 2 * s' 4 := by unfold centreX; field_simp
  have hY : centreY n s' = s' 1 - 2 * (s' 3 / n) := by unfold centreY; ring
  refine ⟨?_, ?_, S0, ?_, ?_, ?_⟩
  all_goals
    generalize centreX n s' = X' at *
    generalize centreY n s' = Y' at *
    generalize centreX n s = X at *
    generalize centreY n s = Y at *
  · rw [abs_le] at *
    constructor <;> linarith [E0.1, E0.2, g4.1, g4.2]
  · rw [hY] at g5
    rw [abs_le] at *
    constructor <;> linarith [E3.1, E3.2, g5.1, g5.2]
  · rw [abs_div, abs_of_pos hn0, div_le_iff₀ hn0] at E3
    linarith
  · have e : s' 4 + 3 / 2 * n * X = -(2 * n * (s' 0 - X')) - 3 / 2 * n * (X' - X) := by linear_combination -hX / 2
    rw [e]
    refine (abs_sub _ _).trans ?_
    rw [abs_neg, abs_mul (2 * n), abs_mul (3 / 2 * n), abs_of_pos (by positivity : 0 < 2 * n), abs_of_pos (by positivity : 0 < 3 / 2 * n)]
    have h1 := mul_le_mul_of_nonneg_left E0 (by positivity : 0 ≤ 2 * n)
    have h2 := mul_le_mul_of_nonneg_left g4 (by positivity : 0 ≤ 3 / 2 * n)
    refine (add_le_add h1 h2).trans (le_of_eq ?_)
    field_simp
  · rw [abs_div, abs_of_pos hn0, div_le_iff₀ hn0] at S3
    linarith

/-- C126: with RK45 and calls of at most `0.9 / n` seconds, no history of actions of any finite values takes a point-mass spacecraft further than this
from the orbit it was on. -/
theorem C126_reach (env : Env realFmt) (henv : IsRk dopri env) (args : CwhArgs realFmt) (m n : ℝ) (hm : args.m = .fin m)
    (hn : args.n = .fin n) (hm0 : 0 < m) (hn0 : 0 < n) (e0 : Entity realFmt) (h0 : newCwhSpacecraft env args = .ok e0)
    (hR : args.integrationMethod = "RK45")
    (ops : List (Op realFmt)) (e : Entity realFmt) (he : e = e0.run env ops) (s : Fin 6 → ℝ) (hs : e.state = toFl s)
    (hist : List (ℝ × Action realFmt)) (hreq : ∀ h ∈ hist, ∃ u : Fin 3 → ℝ, Asks env e h.2 u) (η : ℝ) (hη : n * η ≤ 9 / 10)
    (hT : ∀ h ∈ hist, 0 ≤ h.1 ∧ h.1 ≤ η) (t : ℝ) (ht : t = elapsed env e hist) :
    ∃ s' : Fin 6 → ℝ, (e.run env (stepsOf hist)).state = toFl s' ∧ WithinThrust 1 m n t s s' := by
  obtain ⟨r, -, hmeth, -⟩ := cwhSpacecraft_realised hm hn h0
  have hc := run_sameConfig env ops e0
  rw [← he] at hc
  have hme : e.dynamics.integrationMethod = "RK45" := by rw [(sameConfig_method hc).1, hmeth, hR]
  obtain ⟨s', g1, -, g2⟩ := Realises.run_timed henv Real.pi_pos (M := cwModel m n) (d := e.dynamics)
    (fun τ y => 0 ≤ τ ∧ Spread 1 m n τ s y)
    (fun T _ => 0 ≤ T ∧ T ≤ η) (S := fun _ => True) (D := ⊤) (fun y _ => trivial) (fun _ _ _ => Stable.univ _) (fun _ _ _ => trivial)
    (by
      rintro τ T u ⟨hT0, hTη⟩ tab hs y hrun ⟨q0, q1, q2, q3, q4⟩
      rw [cwModel_post]
      have hb : ∀ h ∈ hs, 0 ≤ h ∧ h ≤ η := by
        intro h hh
        refine ⟨hrun.nonneg hT0 h hh, le_trans ?_ hTη⟩
        rw [← hrun.sum]
        exact List.single_le_sum (hrun.nonneg hT0) h hh
      have hu := cwModel_sat_le m n u
      obtain ⟨k1, k2⟩ := centre_spread hrun hm0 hn0 hT0 q0 _ hu q3 q4 rfl
      have hsum := hrun.sum
      have htab : tab = kdopri := by
        rcases hrun.kind with ⟨-, h⟩ | ⟨h, -⟩
        · exact h
        · rw [hme] at h; exact absurd h (by decide)
      subst htab
      obtain ⟨p1, p2⟩ := cwModel_push_size m n hm0 hn0 hη _ hu y hs hb
      rw [hsum] at p1 p2
      rw [one_mul] at q1 q2
      refine ⟨add_nonneg q0 hT0, ?_, ?_, k1, k2⟩
      · rw [one_mul, mul_add, add_div]; linarith
      · rw [one_mul, add_div]; linarith)
    hist (r.congr hc) (.inl hme) rfl (fun h hh => by obtain ⟨u, h1⟩ := hreq h hh; exact ⟨u, h1, hT h hh⟩) (τ := 0) (y := s) hs
    ⟨le_rfl, by simp [Spread]⟩
  rw [zero_add, ← ht] at g2
  exact ⟨s', g1, g2.within hm0 hn0⟩

/-- C126: with Euler and calls of at most `η` seconds, whatever `η`, the same holds with an ellipse and a swing that have grown by the factor
`exp (n^2 η t / 2)`, which tends to one with `η`. -/
theorem C126_reach_euler (env : Env realFmt) (henv : IsRk dopri env) (args : CwhArgs realFmt) (m n : ℝ) (hm : args.m = .fin m)
    (hn : args.n = .fin n) (hm0 : 0 < m) (hn0 : 0 < n) (e0 : Entity realFmt) (h0 : newCwhSpacecraft env args = .ok e0)
    (hE : args.integrationMethod = "Euler") (hp : PlainMethod e0.dynamics)
    (ops : List (Op realFmt)) (e : Entity realFmt) (he : e = e0.run env ops) (s : Fin 6 → ℝ) (hs : e.state = toFl s)
    (hist : List (ℝ × Action realFmt)) (hreq : ∀ h ∈ hist, ∃ u : Fin 3 → ℝ, Asks env e h.2 u) (η : ℝ)
    (hT : ∀ h ∈ hist, 0 ≤ h.1 ∧ h.1 ≤ η) (t : ℝ) (ht : t = elapsed env e hist) :
    ∃ s' : Fin 6 → ℝ, (e.run env (stepsOf hist)).state = toFl s' ∧ WithinThrust (Real.exp (n ^ 2 * η * t / 2)) m n t s s' := by
  obtain ⟨r, -, hmeth, -⟩ := cwhSpacecraft_realised hm hn h0
  have hc := run_sameConfig env ops e0
  rw [← he] at hc
  have hme : e.dynamics.integrationMethod = "Euler" := by rw [(sameConfig_method hc).1, hmeth, hE]
  have hmn : 0 < m * n := mul_pos hm0 hn0
  have grow : ∀ τ T A B c : ℝ, 0 ≤ τ → 0 ≤ T → 0 ≤ η → 0 ≤ c → B ≤ Real.exp (n ^ 2 * η * τ / 2) * (A + c * τ) →
      Real.exp (n ^ 2 * η * T / 2) * B + c * T ≤ Real.exp (n ^ 2 * η * (τ + T) / 2) * (A + c * (τ + T)) := by
    intro τ T A B c hτ hT hη hc hB
    have h1 := mul_le_mul_of_nonneg_left hB (Real.exp_pos (n ^ 2 * η * T / 2)).le
    have h2 : Real.exp (n ^ 2 * η * (τ + T) / 2) = Real.exp (n ^ 2 * η * T / 2) * Real.exp (n ^ 2 * η * τ / 2) := by
      rw [← Real.exp_add]; congr 1; ring
    have h3 : 1 ≤ Real.exp (n ^ 2 * η * (τ + T) / 2) := Real.one_le_exp (by positivity)
    have h4 := mul_le_mul_of_nonneg_right h3 (mul_nonneg hc hT)
    rw [← mul_assoc, ← h2] at h1
    linarith
  obtain ⟨s', g1, -, g2⟩ := Realises.run_timed henv Real.pi_pos (M := cwModel m n) (d := e.dynamics)
    (fun τ y => 0 ≤ τ ∧ Spread (Real.exp (n ^ 2 * η * τ / 2)) m n τ s y)
    (fun T _ => 0 ≤ T ∧ T ≤ η) (S := fun _ => True) (D := ⊤) (fun y _ => trivial) (fun _ _ _ => Stable.univ _) (fun _ _ _ => trivial)
    (by
      rintro τ T u ⟨hT0, hTη⟩ tab hs y hrun ⟨q0, q1, q2, q3, q4⟩
      rw [cwModel_post]
      have hu := cwModel_sat_le m n u
      obtain ⟨k1, k2⟩ := centre_spread hrun hm0 hn0 hT0 q0 _ hu q3 q4 rfl
      obtain ⟨rfl, rfl⟩ : tab = keuler ∧ hs = [T] := by
        rcases hrun.kind with ⟨h, -⟩ | ⟨-, h⟩
        · rw [hme] at h; exact absurd h (by decide)
        · exact h
      obtain ⟨p1, p2⟩ := cwModel_push_euler m n hm0 hn0 _ hu y T hT0 η hTη
      have hη0 := hT0.trans hTη
      refine ⟨add_nonneg q0 hT0, ?_, ?_, k1, k2⟩
      · have e : ∀ x : ℝ, √5 * x / (m * n) = √5 / (m * n) * x := fun x => by ring
        rw [e] at p1 q1 ⊢
        exact p1.trans (grow τ T _ _ _ q0 hT0 hη0 (by positivity) q1)
      · have e : ∀ x : ℝ, x / (m * n) = 1 / (m * n) * x := fun x => by ring
        rw [e] at p2 q2 ⊢
        exact p2.trans (grow τ T _ _ _ q0 hT0 hη0 (by positivity) q2))
    hist (r.congr hc) (plain_congr hc hp) rfl (fun h hh => by obtain ⟨u, h1⟩ := hreq h hh; exact ⟨u, h1, hT h hh⟩) (τ := 0) (y := s) hs
    ⟨le_rfl, by simp [Spread]⟩
  rw [zero_add, ← ht] at g2
  exact ⟨s', g1, g2.within hm0 hn0⟩

/-- a spacecraft of 12 kg that is asked for more thrust than it can give -/
example : ∃ e : Entity ratFmt, newCwhSpacecraft (R := ratFmt) (rkEnv dopri (fun _ _ _ => [1, 2]))
      { n := .fin (1 / 100), kwargs := [("name", .str "a"), ("x", .num 4), ("y_dot", .num (.fin (-1 / 10))), ("z", .num 3)] } = .ok e ∧
    (decide (e.dynamics.integrationMethod = "RK45") && decide (e.state = toFl (![4, 0, 3, 0, -1 / 10, 0] : Fin 6 → ℚ)) &&
    decide (e.resolve (rkEnv dopri (fun _ _ _ => [1, 2])) (.dict [("thrust_x", .fin 7)]) = .ok (.f64, toFl (![7, 0, 0] : Fin 3 → ℚ))) &&
    decide ((e.step (rkEnv dopri (fun _ _ _ => [1, 2])) 1 (.dict [("thrust_x", .fin 7)])).outcome = .ok ())) = true :=
  Demo.of_okAnd (by decide +kernel)
/-- and with Euler -/
example : ∃ e : Entity ratFmt, newCwhSpacecraft (R := ratFmt) (rkEnv dopri (fun _ _ _ => [1, 2]))
      { n := .fin (1 / 100), integrationMethod := "Euler", kwargs := [("name", .str "a"), ("x", .num 4), ("y_dot", .num (.fin (-1 / 10))), ("z", .num 3)] } = .ok e ∧
    (decide (e.dynamics.integrationMethod = "Euler") && decide (e.dynamics.trajectorySamples ≤ 0) &&
    decide (e.resolve (rkEnv dopri (fun _ _ _ => [1, 2])) (.dict [("thrust_x", .fin 7)]) = .ok (.f64, toFl (![7, 0, 0] : Fin 3 → ℚ))) &&
    decide ((e.step (rkEnv dopri (fun _ _ _ => [1, 2])) 1 (.dict [("thrust_x", .fin 7)])).outcome = .ok ())) = true :=
  Demo.of_okAnd (by decide +kernel)

end SAD
