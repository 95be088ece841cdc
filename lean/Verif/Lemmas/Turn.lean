import Verif.Lemmas.RkLift
import Verif.Lemmas.Flow
import Mathlib.Analysis.Calculus.MeanValue
import Mathlib.Analysis.Complex.Trigonometric
import Mathlib.Analysis.SpecialFunctions.Trigonometric.Deriv
import Mathlib.Analysis.SpecialFunctions.ExpDeriv

/-! # Turning at a constant rate: Runge-Kutta methods as quadrature rules -/

set_option linter.unusedSectionVars false

namespace SAD
open Complex

/-! ### Taylor expansion of `exp (i x)` -/

/-- what the first `n` terms of the exponential series leave -/
noncomputable def expTail (n : ℕ) (x : ℝ) : ℂ := exp (I * x) - ∑ k ∈ Finset.range n, (I * x) ^ k / k.factorial

theorem expTail_deriv (n : ℕ) (x : ℝ) : HasDerivAt (expTail (n + 1)) (I * expTail n x) x := by
  have hlin : HasDerivAt (fun x : ℝ => I * (x : ℂ)) I x := by
    simpa using (Complex.ofRealCLM.hasDerivAt (x := x)).const_mul I
  have h1 : HasDerivAt (fun x : ℝ => exp (I * (x : ℂ))) (exp (I * x) * I) x := hlin.cexp
  have h2 : HasDerivAt (fun x : ℝ => ∑ k ∈ Finset.range (n + 1), (I * (x : ℂ)) ^ k / (k.factorial : ℂ))
      (∑ k ∈ Finset.range (n + 1), (k * (I * x) ^ (k - 1) * I) / k.factorial) x := by
    apply HasDerivAt.fun_sum
    intro k _
    exact (hlin.pow k).div_const _
  have h3 := h1.sub h2
  refine h3.congr_deriv ?_
  unfold expTail
  rw [Finset.sum_range_succ', mul_sub, Finset.mul_sum]
  simp only [Nat.cast_zero, zero_mul, zero_div, add_zero]
  congr 1
  · ring
  · apply Finset.sum_congr rfl
    intro k _
    rw [Nat.factorial_succ]
    push_cast
    have : (k : ℂ) + 1 ≠ 0 := by exact_mod_cast Nat.succ_ne_zero k
    have h4 : (k.factorial : ℂ) ≠ 0 := by exact_mod_cast k.factorial_ne_zero
    field_simp

theorem expTail_zero (n : ℕ) : expTail (n + 1) 0 = 0 := by
  simp [expTail, Finset.sum_range_succ']

theorem expTail_bound_nonneg (n : ℕ) {x : ℝ} (hx : 0 ≤ x) : ‖expTail n x‖ ≤ x ^ n / n.factorial := by
  induction n generalizing x with
  | zero =>
    have : ‖exp (I * (x : ℂ))‖ = 1 := norm_exp_I_mul_ofReal x
    simp [expTail, this]
  | succ n ih =>
    have key := image_norm_le_of_norm_deriv_right_le_deriv_boundary (f := expTail (n + 1)) (f' := fun x => I * expTail n x)
      (B := fun x => x ^ (n + 1) / (n + 1).factorial) (B' := fun x => x ^ n / n.factorial) (a := 0) (b := x)
      (fun y _ => (expTail_deriv n y).continuousAt.continuousWithinAt) (fun y _ => (expTail_deriv n y).hasDerivWithinAt)
      (by rw [expTail_zero]; simp)
      (fun y => by
        refine ((hasDerivAt_pow (n + 1) y).div_const ((n + 1).factorial : ℝ)).congr_deriv ?_
        rw [Nat.factorial_succ]
        push_cast
        have h1 : (n : ℝ) + 1 ≠ 0 := by positivity
        field_simp)
      (fun y hy => by
        rw [norm_mul, norm_I, one_mul]
        exact ih hy.1)
    exact key ⟨hx, le_rfl⟩

theorem expTail_conj (n : ℕ) (x : ℝ) : expTail n (-x) = (starRingEnd ℂ) (expTail n x) := by
  unfold expTail
  rw [map_sub, map_sum, ← Complex.exp_conj]
  simp

theorem expTail_bound (n : ℕ) (x : ℝ) : ‖expTail n x‖ ≤ |x| ^ n / n.factorial := by
  rcases le_total 0 x with h | h
  · rw [abs_of_nonneg h]; exact expTail_bound_nonneg n h
  · have : x = -(-x) := by ring
    rw [this, expTail_conj, RCLike.norm_conj, abs_neg, abs_of_nonneg (by linarith)]
    exact expTail_bound_nonneg n (by linarith)

/-! ### the two quadrature rules -/

/-- mean of `exp (i x)` over `[0, s]` -/
noncomputable def turnMean (s : ℝ) : ℂ := (exp (I * s) - 1) / (I * s)

/-- nodes and weights of the Dormand-Prince method -/
noncomputable def dopriMean (s : ℝ) : ℂ :=
  35/384 * exp (I * (0 : ℝ)) + 500/1113 * exp (I * (3/10 * s : ℝ)) + 125/192 * exp (I * (4/5 * s : ℝ))
    - 2187/6784 * exp (I * (8/9 * s : ℝ)) + 11/84 * exp (I * (1 * s : ℝ))

theorem exp_tail5 (x : ℝ) : exp (I * x) = 1 + I * x + (I * x) ^ 2 / 2 + (I * x) ^ 3 / 6 + (I * x) ^ 4 / 24 + expTail 5 x := by
  simp [expTail, Finset.sum_range_succ, Nat.factorial]

theorem exp_tail6 (x : ℝ) :
    exp (I * x) = 1 + I * x + (I * x) ^ 2 / 2 + (I * x) ^ 3 / 6 + (I * x) ^ 4 / 24 + (I * x) ^ 5 / 120 + expTail 6 x := by
  simp [expTail, Finset.sum_range_succ, Nat.factorial]

theorem dopri_quadrature {s : ℝ} (hs : s ≠ 0) : ‖dopriMean s - turnMean s‖ ≤ |s| ^ 5 / 170 := by
  have hI : I * (s : ℂ) ≠ 0 := mul_ne_zero I_ne_zero (by exact_mod_cast hs)
  have e : dopriMean s - turnMean s = 500/1113 * expTail 5 (3/10 * s) + 125/192 * expTail 5 (4/5 * s)
      - 2187/6784 * expTail 5 (8/9 * s) + 11/84 * expTail 5 (1 * s) - expTail 6 s / (I * s) := by
    unfold dopriMean turnMean
    rw [exp_tail5 0, exp_tail5 (3/10 * s), exp_tail5 (4/5 * s), exp_tail5 (8/9 * s), exp_tail5 (1 * s), exp_tail6 s]
    have h0 : expTail 5 0 = 0 := expTail_zero 4
    rw [h0]
    generalize expTail 5 (3/10 * s) = t1
    generalize expTail 5 (4/5 * s) = t2
    generalize expTail 5 (8/9 * s) = t3
    generalize expTail 5 (1 * s) = t4
    generalize expTail 6 s = t5
    push_cast
    generalize (s : ℂ) = z at hI ⊢
    generalize hw : I * z = w at hI
    have g1 : I * (3/10 * z) = 3/10 * w := by rw [← hw]; ring
    have g2 : I * (4/5 * z) = 4/5 * w := by rw [← hw]; ring
    have g3 : I * (8/9 * z) = 8/9 * w := by rw [← hw]; ring
    have g4 : I * (1 * z) = w := by rw [← hw]; ring
    rw [g1, g2, g3, g4]
    field_simp
    ring
  rw [e]
  have b5 : ∀ c : ℝ, 0 ≤ c → ‖expTail 5 (c * s)‖ ≤ c ^ 5 * |s| ^ 5 / 120 := by
    intro c hc
    refine (expTail_bound 5 (c * s)).trans (le_of_eq ?_)
    rw [abs_mul, abs_of_nonneg hc, mul_pow]
    norm_num [Nat.factorial]
  have b6 : ‖expTail 6 s / (I * s)‖ ≤ |s| ^ 5 / 720 := by
    have h0 : 0 < |s| := abs_pos.2 hs
    rw [norm_div, norm_mul, norm_I, one_mul, Complex.norm_real, Real.norm_eq_abs, div_le_iff₀ h0]
    refine (expTail_bound 6 s).trans (le_of_eq ?_)
    norm_num [Nat.factorial]
    ring
  have t1 := b5 (3/10) (by norm_num)
  have t2 := b5 (4/5) (by norm_num)
  have t3 := b5 (8/9) (by norm_num)
  have t4 := b5 1 (by norm_num)
  have n1 : ‖(500/1113 : ℂ) * expTail 5 (3/10 * s)‖ = 500/1113 * ‖expTail 5 (3/10 * s)‖ := by
    rw [norm_mul]; norm_num
  have n2 : ‖(125/192 : ℂ) * expTail 5 (4/5 * s)‖ = 125/192 * ‖expTail 5 (4/5 * s)‖ := by
    rw [norm_mul]; norm_num
  have n3 : ‖(2187/6784 : ℂ) * expTail 5 (8/9 * s)‖ = 2187/6784 * ‖expTail 5 (8/9 * s)‖ := by
    rw [norm_mul]; norm_num
  have n4 : ‖(11/84 : ℂ) * expTail 5 (1 * s)‖ = 11/84 * ‖expTail 5 (1 * s)‖ := by
    rw [norm_mul]; norm_num
  refine (norm_sub_le _ _).trans ?_
  refine (add_le_add_left (norm_add_le _ _) _).trans ?_
  refine (add_le_add_left (add_le_add_left (norm_sub_le _ _) _) _).trans ?_
  refine (add_le_add_left (add_le_add_left (add_le_add_left (norm_add_le _ _) _) _) _).trans ?_
  rw [n1, n2, n3, n4]
  have hs5 : 0 ≤ |s| ^ 5 := by positivity
  generalize |s| ^ 5 = q at *
  norm_num only at t1 t2 t3 t4 ⊢
  linarith

theorem euler_quadrature {s : ℝ} (hs : s ≠ 0) : ‖1 - turnMean s‖ ≤ |s| / 2 := by
  have hI : I * (s : ℂ) ≠ 0 := mul_ne_zero I_ne_zero (by exact_mod_cast hs)
  have e : 1 - turnMean s = -(expTail 2 s / (I * s)) := by
    unfold turnMean expTail
    simp only [Finset.sum_range_succ, Finset.sum_range_zero, Nat.factorial]
    have hs' : (s : ℂ) ≠ 0 := by exact_mod_cast hs
    field_simp [I_ne_zero]
    push_cast
    ring
  have h0 : 0 < |s| := abs_pos.2 hs
  rw [e, norm_neg, norm_div, norm_mul, norm_I, one_mul, Complex.norm_real, Real.norm_eq_abs, div_le_iff₀ h0]
  refine (expTail_bound 2 s).trans (le_of_eq ?_)
  rw [show ((2 : ℕ).factorial : ℝ) = 2 by norm_num [Nat.factorial]]
  ring

/-! ### the methods on a turn -/

/-- speed `V` along the heading, the heading turning at the rate `ω` -/
noncomputable def turnField (V ω : ℝ) (_ : ℝ) (p : ℂ × ℝ) : ℂ × ℝ := (V * exp (I * p.2), ω)

/-- displacement after time `T` -/
noncomputable def turnArc (V ω θ T : ℝ) : ℂ := V * (exp (I * (θ + ω * T : ℝ)) - exp (I * θ)) / (I * ω)

theorem turnArc_add (V ω θ T1 T2 : ℝ) : turnArc V ω θ (T1 + T2) = turnArc V ω θ T1 + turnArc V ω (θ + ω * T1) T2 := by
  unfold turnArc
  rw [show θ + ω * T1 + ω * T2 = θ + ω * (T1 + T2) by ring]
  ring

theorem turnArc_eq {V ω θ h : ℝ} (hω : ω ≠ 0) (hh : h ≠ 0) : turnArc V ω θ h = h * (V * exp (I * θ) * turnMean (ω * h)) := by
  have h1 : (ω : ℂ) ≠ 0 := by exact_mod_cast hω
  have h2 : (h : ℂ) ≠ 0 := by exact_mod_cast hh
  unfold turnArc turnMean
  push_cast
  rw [mul_add, exp_add]
  field_simp [I_ne_zero]

/-- the method moves a turning vehicle by its mean direction -/
def TurnsBy (tab : KTab ℝ) (q : ℝ → ℂ) : Prop := ∀ V ω t h z θ,
  rkStep tab (turnField V ω) t h (z, θ) = (z + h * (V * exp (I * θ) * q (ω * h)), θ + ω * h)

theorem dopri_turns : TurnsBy kdopri dopriMean := by
  intro V ω t h z θ
  simp only [rkStep, kdopri, rkStages, combo, turnField, List.zip_cons_cons, List.zip_nil_right, List.foldl_cons, List.foldl_nil,
    List.cons_append, List.nil_append, Prod.smul_mk, smul_eq_mul, Prod.snd_zero, Prod.snd_add, Prod.smul_snd]
  rw [show θ + h * (0 + 3 / 40 * ω + 9 / 40 * ω) = θ + 3 / 10 * (ω * h) by ring,
    show θ + h * (0 + 44 / 45 * ω + -56 / 15 * ω + 32 / 9 * ω) = θ + 4 / 5 * (ω * h) by ring,
    show θ + h * (0 + 19372 / 6561 * ω + -25360 / 2187 * ω + 64448 / 6561 * ω + -212 / 729 * ω) = θ + 8 / 9 * (ω * h) by ring,
    show θ + h * (0 + 9017 / 3168 * ω + -355 / 33 * ω + 46732 / 5247 * ω + 49 / 176 * ω + -5103 / 18656 * ω) = θ + 1 * (ω * h) by ring]
  have ha : ∀ x : ℝ, exp (I * ((θ + x : ℝ) : ℂ)) = exp (I * θ) * exp (I * x) := by
    intro x; rw [← exp_add]; push_cast; ring_nf
  refine Prod.ext ?_ ?_
  · simp only [ha, Prod.fst_add, Prod.smul_fst, Prod.fst_zero, zero_smul, real_smul, dopriMean]
    push_cast
    simp only [mul_zero, exp_zero]
    ring
  · simp only [Prod.snd_add, Prod.smul_snd, Prod.snd_zero, smul_eq_mul]
    ring

theorem euler_turns : TurnsBy keuler (fun _ => 1) := by
  intro V ω t h z θ
  simp [rkStep, keuler, rkStages, combo, turnField]
  ring

/-- A chain of steps of a turning vehicle: the heading is exact, the position errs by the quadrature error of every step. -/
theorem turn_chain {tab : KTab ℝ} {q : ℝ → ℂ} (hq : TurnsBy tab q) {C : ℝ} {p : ℕ}
    (hC : ∀ s : ℝ, s ≠ 0 → ‖q s - turnMean s‖ ≤ C * |s| ^ p) (hC0 : 0 ≤ C) {V ω η : ℝ} (hω : ω ≠ 0) (hs : List ℝ)
    (hη : ∀ h ∈ hs, 0 ≤ h ∧ h ≤ η) : ∀ (t : ℝ) (z : ℂ) (θ : ℝ),
    (rkChain tab (turnField V ω) t (z, θ) hs).2 = θ + ω * hs.sum ∧
    ‖(rkChain tab (turnField V ω) t (z, θ) hs).1 - (z + turnArc V ω θ hs.sum)‖ ≤ C * (|V| * (|ω| * η) ^ p) * hs.sum := by
  induction hs with
  | nil => intro t z θ; simp [rkChain, turnArc]
  | cons h hs ih =>
    intro t z θ
    obtain ⟨h0, h1⟩ := hη h (by simp)
    simp only [rkChain, hq V ω t h z θ, List.sum_cons]
    obtain ⟨g1, g2⟩ := ih (fun k hk => hη k (by simp [hk])) (t + h) (z + h * (V * exp (I * θ) * q (ω * h))) (θ + ω * h)
    refine ⟨by rw [g1]; ring, ?_⟩
    have hstep : ‖h * (V * exp (I * θ) * q (ω * h)) - turnArc V ω θ h‖ ≤ C * (|V| * (|ω| * η) ^ p) * h := by
      by_cases hh : h = 0
      · subst hh; simp [turnArc]
      · have hs0 : ω * h ≠ 0 := mul_ne_zero hω hh
        rw [turnArc_eq hω hh, ← mul_sub, ← mul_sub, norm_mul, norm_mul, norm_mul, norm_exp_I_mul_ofReal, mul_one,
          Complex.norm_real, Complex.norm_real, Real.norm_eq_abs, Real.norm_eq_abs, abs_of_nonneg h0]
        have hb := hC _ hs0
        rw [abs_mul, abs_of_nonneg h0] at hb
        have hb' : C * (|ω| * h) ^ p ≤ C * (|ω| * η) ^ p := by gcongr
        calc h * (|V| * ‖q (ω * h) - turnMean (ω * h)‖) ≤ h * (|V| * (C * (|ω| * η) ^ p)) := by gcongr; exact hb.trans hb'
          _ = _ := by ring
    have e : (rkChain tab (turnField V ω) (t + h) (z + h * (V * exp (I * θ) * q (ω * h)), θ + ω * h) hs).1
          - (z + turnArc V ω θ (h + hs.sum))
        = ((rkChain tab (turnField V ω) (t + h) (z + h * (V * exp (I * θ) * q (ω * h)), θ + ω * h) hs).1
            - (z + h * (V * exp (I * θ) * q (ω * h)) + turnArc V ω (θ + ω * h) hs.sum))
          + (h * (V * exp (I * θ) * q (ω * h)) - turnArc V ω θ h) := by
      rw [turnArc_add]; ring
    rw [e]
    refine (norm_add_le _ _).trans ?_
    have e2 : C * (|V| * (|ω| * η) ^ p) * (h + hs.sum) = C * (|V| * (|ω| * η) ^ p) * hs.sum + C * (|V| * (|ω| * η) ^ p) * h := by ring
    rw [e2]
    exact add_le_add g2 hstep

end SAD
