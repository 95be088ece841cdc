import Verif.Lemmas.Accuracy
import Verif.Lemmas.Turn
import Mathlib.Analysis.Quaternion
import Mathlib.LinearAlgebra.Complex.Module

/-!
# A quaternion turning at a constant rate

On `q' = q p`, with `p` a pure quaternion, a Dormand-Prince step multiplies `q` by a polynomial of `h p`, which lies in the copy of the complex numbers
generated by `p`.
-/

set_option linter.unusedSectionVars false

namespace SAD
open Complex Quaternion

/-- the stability function of the method on the imaginary axis -/
noncomputable def spinR (θ : ℝ) : ℂ := ⟨1 - θ ^ 2 / 2 + θ ^ 4 / 24 - θ ^ 6 / 600, θ - θ ^ 3 / 6 + θ ^ 5 / 120⟩

theorem spinR_normSq (θ : ℝ) : ‖spinR θ‖ ^ 2 = 1 - θ ^ 6 / 1800 + θ ^ 8 / 1600 - θ ^ 10 / 14400 + θ ^ 12 / 360000 := by
  rw [← Complex.normSq_eq_norm_sq, Complex.normSq_apply]
  simp only [spinR]
  ring

theorem spinR_le {θ : ℝ} (h : θ ^ 2 ≤ 81/100) : ‖spinR θ‖ ≤ 1 := by
  have h1 : ‖spinR θ‖ ^ 2 ≤ 1 := by
    rw [spinR_normSq, show 1 - θ ^ 6 / 1800 + θ ^ 8 / 1600 - θ ^ 10 / 14400 + θ ^ 12 / 360000
      = 1 - (θ ^ 2) ^ 3 * (1 / 1800 - θ ^ 2 / 1600 + (θ ^ 2) ^ 2 / 14400 - (θ ^ 2) ^ 3 / 360000) by ring]
    have h0 := sq_nonneg θ
    generalize θ ^ 2 = x at *
    have : 0 ≤ 1 / 1800 - x / 1600 + x ^ 2 / 14400 - x ^ 3 / 360000 := by nlinarith [mul_nonneg h0 h0, mul_nonneg (mul_nonneg h0 h0) (sub_nonneg.2 h)]
    nlinarith [mul_nonneg (pow_nonneg h0 3) this]
  nlinarith [norm_nonneg (spinR θ)]

theorem spinR_ge {θ : ℝ} (h : θ ^ 2 ≤ 81/100) : 1 - θ ^ 6 / 1800 ≤ ‖spinR θ‖ ^ 2 := by
  rw [spinR_normSq, show 1 - θ ^ 6 / 1800 + θ ^ 8 / 1600 - θ ^ 10 / 14400 + θ ^ 12 / 360000
      = 1 - θ ^ 6 / 1800 + (θ ^ 2) ^ 4 * (1 / 1600 - θ ^ 2 / 14400 + (θ ^ 2) ^ 2 / 360000) by ring]
  have h0 := sq_nonneg θ
  generalize θ ^ 2 = x at *
  have : 0 ≤ 1 / 1600 - x / 14400 + x ^ 2 / 360000 := by nlinarith
  nlinarith [mul_nonneg (pow_nonneg h0 4) this]

theorem spinR_exp (θ : ℝ) : ‖spinR θ - exp (I * θ)‖ ≤ |θ| ^ 6 / 3600 + |θ| ^ 7 / 5040 := by
  have e : spinR θ - exp (I * θ) = -((θ ^ 6 / 3600 : ℝ) : ℂ) - expTail 7 θ := by
    rw [show exp (I * θ) = (∑ k ∈ Finset.range 7, (I * θ) ^ k / k.factorial) + expTail 7 θ by rw [expTail]; ring]
    have hI2 := I_sq
    have hI3 : (I : ℂ) ^ 3 = -I := by rw [pow_succ, I_sq]; ring
    have hI4 : (I : ℂ) ^ 4 = 1 := I_pow_four
    have hI5 : (I : ℂ) ^ 5 = I := by rw [pow_succ, I_pow_four]; ring
    have hI6 : (I : ℂ) ^ 6 = -1 := by rw [show (6 : ℕ) = 4 + 2 by rfl, pow_add, I_pow_four, I_sq]; ring
    have : spinR θ = (1 - θ ^ 2 / 2 + θ ^ 4 / 24 - θ ^ 6 / 600 : ℝ) + (θ - θ ^ 3 / 6 + θ ^ 5 / 120 : ℝ) * I := by
      rw [spinR]; exact Complex.mk_eq_add_mul_I _ _
    rw [this]
    simp only [Finset.sum_range_succ, Finset.sum_range_zero, mul_pow, hI2, hI3, hI4, hI5, hI6, Nat.factorial]
    push_cast
    ring
  rw [e]
  refine (norm_sub_le _ _).trans (add_le_add ?_ ?_)
  · rw [norm_neg, Complex.norm_real, Real.norm_eq_abs, abs_div, abs_pow, abs_of_pos (by norm_num : (0 : ℝ) < 3600)]
  · have := expTail_bound 7 θ
    simpa [Nat.factorial] using this

theorem spinR_exp_le {θ : ℝ} (h0 : 0 ≤ θ) (h1 : θ ≤ 1) : ‖spinR θ - exp (I * θ)‖ ≤ θ ^ 6 / 2100 := by
  have := spinR_exp θ
  rw [abs_of_nonneg h0] at this
  have h6 : 0 ≤ θ ^ 6 := by positivity
  have h7 : θ ^ 7 ≤ θ ^ 6 := by
    rw [pow_succ]; exact mul_le_of_le_one_right h6 h1
  linarith

/-- the factor of a chain of steps -/
noncomputable def spinProd (ω : ℝ) (hs : List ℝ) : ℂ := (hs.map fun h => spinR (ω * h / 2)).prod

/-- Within steps of at most `9/5` over the rate the factor has modulus at most one, and errors add up. -/
theorem spinProd_bounds {ω η : ℝ} (hω : 0 ≤ ω) (hη : ω * η ≤ 9 / 5) (hs : List ℝ) (hb : ∀ h ∈ hs, 0 ≤ h ∧ h ≤ η) :
    ‖spinProd ω hs‖ ≤ 1 ∧ 1 - ω * hs.sum / 2 * (ω * η / 2) ^ 5 / 1800 ≤ ‖spinProd ω hs‖ ^ 2 ∧
      ‖spinProd ω hs - exp (I * (ω * hs.sum / 2 : ℝ))‖ ≤ ω * hs.sum / 2 * (ω * η / 2) ^ 5 / 2100 := by
  induction hs with
  | nil => simp [spinProd]
  | cons h hs ih =>
    obtain ⟨i1, i2, i3⟩ := ih (fun x hx => hb x (by simp [hx]))
    obtain ⟨b0, b1⟩ := hb h (by simp)
    have e : spinProd ω (h :: hs) = spinR (ω * h / 2) * spinProd ω hs := by simp [spinProd]
    rw [e, List.sum_cons]
    generalize spinProd ω hs = P at *
    generalize hs.sum = s at *
    obtain ⟨θ, hθ⟩ : ∃ θ, θ = ω * h / 2 := ⟨_, rfl⟩
    rw [← hθ]
    have t0 : 0 ≤ θ := by rw [hθ]; positivity
    have tη : θ ≤ ω * η / 2 := by rw [hθ]; have := mul_le_mul_of_nonneg_left b1 hω; linarith
    have t1 : θ ≤ 9 / 10 := by linarith
    have t2 : θ ^ 2 ≤ 81 / 100 := by nlinarith
    have t6 : θ ^ 6 ≤ θ * (ω * η / 2) ^ 5 := by
      rw [pow_succ' θ 5]; exact mul_le_mul_of_nonneg_left (pow_le_pow_left₀ t0 tη 5) t0
    have r1 := spinR_le t2
    have r2 := spinR_ge t2
    have r3 := spinR_exp_le t0 (by linarith)
    generalize spinR θ = r at *
    have rn := norm_nonneg r
    have pn := norm_nonneg P
    have hsum : ω * (h + s) / 2 = θ + ω * s / 2 := by rw [hθ]; ring
    rw [hsum]
    generalize ω * s / 2 = x at *
    generalize (ω * η / 2) ^ 5 = c at *
    refine ⟨by rw [norm_mul]; exact mul_le_one₀ r1 pn i1, ?_, ?_⟩
    · rw [norm_mul, mul_pow]
      have q1 : ‖r‖ ^ 2 ≤ 1 := by nlinarith
      have q2 : ‖P‖ ^ 2 ≤ 1 := by nlinarith
      nlinarith [mul_nonneg (sub_nonneg.2 q1) (sub_nonneg.2 q2)]
    · have e2 : exp (I * (θ + x : ℝ)) = exp (I * θ) * exp (I * x) := by rw [← exp_add]; congr 1; push_cast; ring
      have n1 : ‖exp (I * x)‖ = 1 := by rw [mul_comm]; exact norm_exp_ofReal_mul_I x
      rw [e2, show r * P - exp (I * θ) * exp (I * x) = r * (P - exp (I * x)) + (r - exp (I * θ)) * exp (I * x) by ring]
      refine (norm_add_le _ _).trans ?_
      rw [norm_mul, norm_mul, n1, mul_one]
      have := mul_le_of_le_one_left (norm_nonneg (P - exp (I * x))) r1
      linarith

/-- the copy of the complex numbers in which `j` is the imaginary unit -/
noncomputable def spinHom (j : ℍ[ℝ]) (hj : j * j = -1) : ℂ →ₐ[ℝ] ℍ[ℝ] := Complex.liftAux j hj

theorem spinHom_apply (j : ℍ[ℝ]) (hj : j * j = -1) (z : ℂ) : spinHom j hj z = (z.re : ℍ[ℝ]) + z.im • j := by
  rw [spinHom, Complex.liftAux_apply]; rfl

theorem spinHom_norm (j : ℍ[ℝ]) (hj : j * j = -1) (hre : j.re = 0) (z : ℂ) : ‖spinHom j hj z‖ = ‖z‖ := by
  have hn : Quaternion.normSq j = 1 := by
    have := congrArg QuaternionAlgebra.re hj
    simp [hre] at this
    simp [Quaternion.normSq_def', hre]
    linarith
  have : ‖spinHom j hj z‖ ^ 2 = ‖z‖ ^ 2 := by
    rw [← Complex.normSq_eq_norm_sq, Complex.normSq_apply, pow_two, ← Quaternion.normSq_eq_norm_mul_self, spinHom_apply, Quaternion.normSq_def'] 
    rw [Quaternion.normSq_def'] at hn
    simp [hre] at hn ⊢
    linear_combination z.im ^ 2 * hn
  nlinarith [norm_nonneg z, norm_nonneg (spinHom j hj z)]

/-- one step -/
theorem spin_step (j : ℍ[ℝ]) (hj : j * j = -1) (ω t h : ℝ) (q : ℍ[ℝ]) :
    rkStep kdopri (fun _ q => q * ((ω / 2) • j)) t h q = q * spinHom j hj (spinR (ω * h / 2)) := by
  let A : ℍ[ℝ] →L[ℝ] ℍ[ℝ] := (ContinuousLinearMap.mul ℝ ℍ[ℝ]).flip ((ω / 2) • j)
  have hA : ∀ q, A q = q * ((ω / 2) • j) := fun q => rfl
  have hAp : ∀ k q, (A ^ k) q = q * ((ω / 2) • j) ^ k := by
    intro k
    induction k with
    | zero => intro q; simp
    | succ k ih => intro q; rw [pow_succ', ContinuousLinearMap.mul_apply, ih, hA, pow_succ, mul_assoc]
  have key := kdopri_taylor A 0 t h q
  simp only [add_zero] at key
  rw [show (fun _ q => q * ((ω / 2) • j) : ℝ → ℍ[ℝ] → ℍ[ℝ]) = fun _ y => A y from rfl, key]
  simp only [taylorG, hAp, Finset.sum_range_succ, Finset.sum_range_zero, hA]
  have hp : (ω / 2) • j = spinHom j hj (⟨0, ω / 2⟩) := by rw [spinHom_apply]; simp
  rw [hp]
  have e : ∀ (c : ℝ) (k : ℕ), c • (q * spinHom j hj ⟨0, ω / 2⟩ * spinHom j hj ⟨0, ω / 2⟩ ^ k) = q * spinHom j hj (c • (⟨0, ω / 2⟩ : ℂ) ^ (k + 1)) := by
    intro c k
    rw [map_smul, map_pow, mul_assoc, ← pow_succ', mul_smul_comm]
  simp only [e, zero_add]
  have e1 : q = q * spinHom j hj 1 := by rw [map_one, mul_one]
  nth_rewrite 1 [e1]
  simp only [← mul_add, ← map_add]
  congr 2
  have hz : (⟨0, ω / 2⟩ : ℂ) = ((ω / 2 : ℝ) : ℂ) * I := by apply Complex.ext <;> simp
  rw [hz]
  have hI2 := I_sq
  have hI3 : (I : ℂ) ^ 3 = -I := by rw [pow_succ, I_sq]; ring
  have hI4 : (I : ℂ) ^ 4 = 1 := I_pow_four
  have hI5 : (I : ℂ) ^ 5 = I := by rw [pow_succ, I_pow_four]; ring
  have hI6 : (I : ℂ) ^ 6 = -1 := by rw [show (6 : ℕ) = 4 + 2 by rfl, pow_add, I_pow_four, I_sq]; ring
  have : spinR (ω * h / 2) = (1 - (ω * h / 2) ^ 2 / 2 + (ω * h / 2) ^ 4 / 24 - (ω * h / 2) ^ 6 / 600 : ℝ)
      + ((ω * h / 2) - (ω * h / 2) ^ 3 / 6 + (ω * h / 2) ^ 5 / 120 : ℝ) * I := by
    rw [spinR]; exact Complex.mk_eq_add_mul_I _ _
  rw [this]
  simp only [Complex.real_smul, mul_pow, hI2, hI3, hI4, hI5, hI6, Nat.factorial, pow_one, zero_add]
  push_cast
  ring

theorem spin_chain (j : ℍ[ℝ]) (hj : j * j = -1) (ω : ℝ) (hs : List ℝ) : ∀ (t : ℝ) (q : ℍ[ℝ]),
    rkChain kdopri (fun _ q => q * ((ω / 2) • j)) t q hs = q * spinHom j hj (spinProd ω hs) := by
  induction hs with
  | nil => intro t q; simp [rkChain, spinProd]
  | cons h hs ih =>
    intro t q
    simp only [rkChain]
    rw [ih, spin_step j hj, mul_assoc, ← map_mul]
    simp [spinProd]

end SAD
