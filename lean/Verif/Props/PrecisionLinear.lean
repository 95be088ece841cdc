import Verif.Lemmas.LinSim
import Verif.Props.Integrators

/-!
# C109: linear models under RK45 in double precision against their exact solution
-/

set_option linter.unusedSectionVars false

namespace SAD
open Spec

theorem hist_sum_nonneg {R : Fmt ℚ} {hist : List (ℚ × Action R)} (h : ∀ x ∈ hist, 0 ≤ x.1) : (0 : ℝ) ≤ ((hist.map (·.1)).sum : ℚ) := by
  have : (0 : ℚ) ≤ (hist.map (·.1)).sum := List.sum_nonneg fun x hx => by
    obtain ⟨q, hq, rfl⟩ := List.mem_map.1 hx
    exact h q hq
  exact_mod_cast this

theorem linB_eq (a μ γ : ℚ) (lam Φ T N : ℝ) : linB a μ γ lam Φ T N 0 =
    Real.exp (2 * a * T + 38 * γ * N) * (γ * ((N + 74 * a * T) * Φ + 74 * T * μ + N * 2⁻¹ ^ 500) + lam * T) := by
  obtain ⟨κ, hκ⟩ : ∃ κ : ℝ, κ = 2⁻¹ ^ 500 := ⟨_, rfl⟩
  unfold linB grow linP linQ
  rw [← hκ]
  congr 1
  ring

section linear
variable {libm : Fmt ℚ} {n m : ℕ} {A : Fin n → Fin n → ℚ} {B : Fin n → Fin m → ℚ} {U : Fin m → ℚ} {w : Fin n → ℚ} {a μ η W : ℚ}

/-- the rate of the errors of the method, from the exact solution -/
theorem lin_loc {f : ℝ → Fin n → ℝ} {Φ T : ℝ} (hw : ∀ i, 0 < w i) (ha0 : 0 ≤ a) (hμ0 : 0 ≤ μ) (ha : ∀ i, ∑ j, |A i j| * w j ≤ a * w i)
    (hμ : ∀ i, ∑ j, |B i j| * |U j| ≤ w i * μ) (hΦ0 : 0 ≤ Φ)
    (hf : ∀ t, HasDerivAt f (linear (fun i j => (A i j : ℝ)) (fun i j => (B i j : ℝ)) (fun j => (U j : ℝ)) (f t)) t)
    (hΦ : ∀ t, 0 ≤ t → t ≤ T → ∀ i, |f t i| ≤ w i * Φ) :
    ∀ t h, 0 ≤ t → 0 ≤ h → h ≤ (η : ℝ) → t + h ≤ T → ∀ i,
      |rkStep kdopri (fun _ y => linear (fun i j => (A i j : ℝ)) (fun i j => (B i j : ℝ)) (fun j => (U j : ℝ)) y) 0 h (f t) i - f (t + h) i|
        ≤ w i * (2 * (a : ℝ) ^ 5 * (a * Φ + μ) * (η : ℝ) ^ 5 * h) := by
  intro t h ht hh hhη hT i
  have hw' : ∀ i, (0 : ℝ) < w i := fun i => by exact_mod_cast hw i
  have ha0' : (0 : ℝ) ≤ a := by exact_mod_cast ha0
  have hμ0' : (0 : ℝ) ≤ μ := by exact_mod_cast hμ0
  have hn : ∀ i, ∑ j, |(A i j : ℝ)| * (w j : ℝ) ≤ a * w i := fun i => by
    have : ((∑ j, |A i j| * w j : ℚ) : ℝ) ≤ ((a * w i : ℚ) : ℝ) := Rat.cast_le.2 (ha i)
    push_cast at this
    exact this
  have hm : ∀ i, |∑ j, (B i j : ℝ) * (U j : ℝ)| ≤ w i * μ := fun i => by
    have : ((∑ j, |B i j| * |U j| : ℚ) : ℝ) ≤ ((w i * μ : ℚ) : ℝ) := Rat.cast_le.2 (hμ i)
    push_cast at this
    refine (Finset.abs_sum_le_sum_abs _ _).trans (le_trans (le_of_eq ?_) this)
    exact Finset.sum_congr rfl fun j _ => abs_mul _ _
  refine (lin_rk_local hw' ha0' hn hf (δ := a * Φ + μ) hh (by positivity)
    (fun s h0 h1 => linear_le hw' hn hΦ0 hm (hΦ _ (by linarith) (by linarith))) i).trans (mul_le_mul_of_nonneg_left ?_ (hw' i).le)
  rw [show 2 * (a : ℝ) ^ 5 * (a * Φ + μ) * h ^ 6 = 2 * (a : ℝ) ^ 5 * (a * Φ + μ) * h ^ 5 * h by ring]
  gcongr

end linear

/-- A linear model given by any matrices of finite doubles, without limits on the state, stepped any number of times with RK45 in IEEE double
precision under a constant applied control `U`, against the exact solution `f` of `x' = A x + B U` from the same state. The solver is any
Dormand-Prince solver that divides each step of the simulation in at most `ν` steps of duration at most `η`; `N` is the total number of such steps
and `T` the total time. The elements of the state are measured in units `w i`; `a` bounds the matrix `A` and `μ` the effect of the control in these
units, and `Φ` the exact solution. The first summand of `E` is the effect of rounding, the second, of the fifth order in `η`, that of the method. -/
theorem C109_linear (libm : Fmt ℚ) (env env' : Env (b64Of libm)) (args : DynArgs (b64Of libm)) (n m : ℕ) (hn : 0 < n) (hnm : max n m ≤ 2 ^ 20)
    (A : Fin n → Fin n → ℚ) (B : Fin n → Fin m → ℚ) (e0 : Entity (b64Of libm)) (hd : mkLinearDyn env args (toMat A) (toMat B) = .ok e0.dynamics)
    (hu : Unlimited e0.dynamics) (hmeth : e0.dynamics.integrationMethod = "RK45") (s : Fin n → ℚ) (hist : List (ℚ × Action (b64Of libm)))
    (U : Fin m → ℚ) (w : Fin n → ℚ) (a μ η W γ : ℚ) (ν : ℕ) (Φ T N E : ℝ)
    (hhist : ∀ h ∈ hist, Applied env' e0 h.2 (toFl U) ∧ 0 ≤ h.1 ∧
      Integrates env' n (2 ^ 100) η ν (fun t y => e0.dynamics.computeStateDot t y (toFl U)) h.1)
    (hT : T = ((hist.map (·.1)).sum : ℚ)) (hN : N = hist.length * ν) (hη0 : 0 ≤ η) (hη : η ≤ 2 ^ 50) (haη : 2 * a * η ≤ 1)
    (hw1 : ∀ i, 2⁻¹ ^ 100 ≤ w i) (hw2 : ∀ i, w i ≤ W) (hW1 : 1 ≤ W) (hW2 : W ≤ 2 ^ 50)
    (ha : ∀ i, ∑ j, |A i j| * w j ≤ a * w i) (ha3 : a ≤ 2 ^ 50) (hμ : ∀ i, ∑ j, |B i j| * |U j| ≤ w i * μ) (hμ1 : μ ≤ 2 ^ 50)
    (f : ℝ → Fin n → ℝ) (hf0 : ∀ i, f 0 i = s i)
    (hf : ∀ t, HasDerivAt f (linear (fun i j => (A i j : ℝ)) (fun i j => (B i j : ℝ)) (fun j => (U j : ℝ)) (f t)) t)
    (hΦ : ∀ t, 0 ≤ t → t ≤ T → ∀ i, |f t i| ≤ w i * Φ) (hγ : γ = 6 * (13 + max n m) * 2⁻¹ ^ 52)
    (hE : E = Real.exp (2 * a * T + 38 * γ * N) *
      (γ * ((N + 74 * a * T) * Φ + 74 * T * μ + N * 2⁻¹ ^ 500) + 2 * (a : ℝ) ^ 5 * (a * Φ + μ) * (η : ℝ) ^ 5 * T))
    (hbig : (W : ℝ) * (Φ + E) ≤ 2 ^ 100) :
    ∃ s' : Fin n → ℚ, (Entity.run env' { e0 with state := toFl s } (stepsOf hist)).state = toFl s' ∧ ∀ i, |(s' i : ℝ) - f T i| ≤ w i * E := by
  have hw0 : ∀ i, 0 < w i := fun i => lt_of_lt_of_le (pow_pos (by norm_num) _) (hw1 i)
  have hT0 : 0 ≤ T := by rw [hT]; exact hist_sum_nonneg fun x hx => (hhist x hx).2.1
  have i0 : Fin n := ⟨0, hn⟩
  have hΦ0 : 0 ≤ Φ := nonneg_of_mul_nonneg_right ((abs_nonneg _).trans (hΦ 0 le_rfl hT0 i0)) (by exact_mod_cast hw0 i0)
  have hμ0 : 0 ≤ μ := nonneg_of_mul_nonneg_right ((Finset.sum_nonneg fun j _ => mul_nonneg (abs_nonneg _) (abs_nonneg _)).trans (hμ i0)) (hw0 i0)
  have ha0 : 0 ≤ a := by
    have := (Finset.sum_nonneg fun j _ => mul_nonneg (abs_nonneg _) (hw0 j).le).trans (ha i0)
    exact nonneg_of_mul_nonneg_left this (hw0 i0)
  have hD : ((max n m : ℕ) : ℚ) ≤ 2 ^ 20 := by exact_mod_cast hnm
  have hγ' : (1 + (2⁻¹ : ℚ) ^ 53) ^ (6 * (0 + 2 + max n m + 11)) - 1 ≤ γ := by
    refine (pow_sub_one_le (by positivity) _ ?_).trans (le_of_eq ?_)
    · push_cast
      push_cast at hD
      linarith
    · rw [hγ]; push_cast; ring
  have hγ1 : γ ≤ 1 := by
    rw [hγ]; push_cast at hD ⊢; linarith
  have hr := (b64_roomyV (libm := libm) hw1 (fun i => (hw2 i).trans hW2) hγ' hγ1 rfl rfl).1
  have hfield : NearField (b64Of libm) (2⁻¹ ^ 53) w (6 * (0 + 2 + max n m + 11)) (2 ^ 240) a (μ + 2⁻¹ ^ 600) (0 + 2 + max n m)
      (fun t y => e0.dynamics.computeStateDot t y (toFl U)) (fun y => linear A B U y) := by
    have hθ0 : (0 : ℚ) ≤ 2⁻¹ ^ 600 := pow_nonneg (by norm_num) _
    refine lin_nearField (zA := fun i j => .fin (A i j)) (zB := fun i j => .fin (B i j)) hr hd hu (fun i j => near_fin _) (fun i j => near_fin _) ha
      (fun i => ?_) ha0 (by linarith) (fun i => ?_)
    · rw [mul_add]
      refine add_le_add (hμ i) ?_
      have h1 : (n : ℚ) ≤ 2 ^ 20 := by exact_mod_cast (le_max_left n m).trans hnm
      have h2 : (m : ℚ) ≤ 2 ^ 20 := by exact_mod_cast (le_max_right n m).trans hnm
      calc (2 * (n : ℚ) + 2 * m + 1) * 2 ^ (-1022 : ℤ) ≤ (2 * 2 ^ 20 + 2 * 2 ^ 20 + 1) * 2 ^ (-1022 : ℤ) := by gcongr
        _ ≤ 2⁻¹ ^ 100 * 2⁻¹ ^ 600 := by decide +kernel
        _ ≤ w i * 2⁻¹ ^ 600 := mul_le_mul_of_nonneg_right (hw1 i) hθ0
    · have h1 : (1 + (2⁻¹ : ℚ) ^ 53) ^ (6 * (0 + 2 + max n m + 11)) ≤ 2 := by linarith
      have h2 : μ + 2⁻¹ ^ 600 ≤ 2 ^ 50 + 1 := add_le_add hμ1 (pow_le_one₀ (by norm_num) (by norm_num))
      calc _ ≤ 2 * (2 ^ 50 * (2 ^ 50 * 2 ^ 240 + (2 ^ 50 + 1)) : ℚ) := by
            refine mul_le_mul h1 (mul_le_mul ((hw2 i).trans hW2) (add_le_add (mul_le_mul_of_nonneg_right ha3 (by positivity)) h2) ?_ (by positivity)) ?_ (by norm_num)
            · exact add_nonneg (mul_nonneg ha0 (by positivity)) (by linarith)
            · exact mul_nonneg (hw0 i).le (add_nonneg (mul_nonneg ha0 (by positivity)) (by linarith))
        _ ≤ _ := by decide +kernel
  have hη0' : (0 : ℝ) ≤ η := by exact_mod_cast hη0
  have ha0' : (0 : ℝ) ≤ a := by exact_mod_cast ha0
  have hμ0' : (0 : ℝ) ≤ μ := by exact_mod_cast hμ0
  have S : LinSim libm e0.dynamics A B U w (0 + 2 + max n m) a μ γ η W (2 * (a : ℝ) ^ 5 * (a * Φ + μ) * (η : ℝ) ^ 5) Φ T f :=
    ⟨hu, hn, hw1, hw2, hW1, hW2, hγ', hγ1, hfield, ha, ha0, ha3, hμ0, hμ1, hη0, hη, haη, hΦ0, hΦ, by positivity, lin_loc hw0 ha0 hμ0 ha hμ hΦ0 hf hΦ⟩
  rw [hN, ← linB_eq] at hE
  obtain ⟨s', h1, h2⟩ := S.run (ν := ν) hmeth hist hhist s e0.stateDot e0.dynamics.trajectory e0.dynamics.trajectoryT 0 0 le_rfl
    (by rw [hT]; simp) le_rfl (fun i => by simp [hf0]) (by rw [← hT, ← hE]; exact hbig)
  rw [← hT, ← hE, zero_add] at h2
  exact ⟨s', h1, h2⟩

/-- A harmonic oscillator, stepped twice by half a second, meets the hypotheses. -/
example (libm : Fmt ℚ) : ∃ d : Dyn (b64Of libm),
    mkLinearDyn (oneStepEnv libm) {} (toMat ![![0, 1], ![-1, 0]]) (toMat ![![0], ![1]]) = .ok d ∧ Unlimited d ∧ d.integrationMethod = "RK45" ∧
    (∀ h ∈ ([(1 / 2, .none), (1 / 2, .none)] : List (ℚ × Action (b64Of libm))),
      Applied (oneStepEnv libm) ⟨"oscillator", d, [0], .scalar .ninf, .scalar .pinf, none, [.fin 1, .fin 0], []⟩ h.2 (toFl (0 : Fin 1 → ℚ)) ∧ 0 ≤ h.1 ∧
      Integrates (oneStepEnv libm) 2 (2 ^ 100) (1 / 2) 1 (fun t y => d.computeStateDot t y (toFl (0 : Fin 1 → ℚ))) h.1) ∧
    (∀ i, ∑ j, |(![![0, 1], ![-1, 0]] : Fin 2 → Fin 2 → ℚ) i j| * 1 ≤ 1 * 1) ∧
    (∀ t, HasDerivAt (fun t => ![Real.cos t, -Real.sin t]) (linear (fun i j => ((![![0, 1], ![-1, 0]] : Fin 2 → Fin 2 → ℚ) i j : ℝ))
      (fun i j => ((![![0], ![1]] : Fin 2 → Fin 1 → ℚ) i j : ℝ)) (fun j => ((0 : Fin 1 → ℚ) j : ℝ)) ![Real.cos t, -Real.sin t]) t) ∧
    (∀ t i, |(![Real.cos t, -Real.sin t] : Fin 2 → ℝ) i| ≤ 1) ∧
    (1 : ℝ) * (1 + Real.exp (2 * 1 * 1 + 38 * ((90 * 2⁻¹ ^ 52 : ℚ) : ℝ) * 2) *
      (((90 * 2⁻¹ ^ 52 : ℚ) : ℝ) * ((2 + 74 * 1 * 1) * 1 + 74 * 1 * 0 + 2 * 2⁻¹ ^ 500) + 2 * 1 ^ 5 * (1 * 1 + 0) * (1 / 2) ^ 5 * 1)) ≤ 2 ^ 100 := by
  refine ⟨_, rfl, ⟨rfl, rfl, rfl, rfl, rfl, rfl⟩, rfl, ?_, ?_, ?_, ?_, ?_⟩
  · intro h hh
    simp at hh
    subst hh
    refine ⟨applied_of (ty := .f64) (u := toFl (0 : Fin 1 → ℚ)) ?_ ?_, by norm_num, oneStepEnv_integrates libm (T := 2⁻¹) (by norm_num) (by norm_num) _⟩
    · simp [Entity.resolve, toFl, List.ofFn_succ, Fl.zero_fin]
    have := npClip_toFl (R := b64Of libm) (0 : Fin 1 → ℚ) (lo := .scalar .ninf) (hi := .scalar .pinf) (l := fun _ => none) (h := fun _ => none)
      (.inr ⟨_, rfl, fun i => rfl⟩) (.inr ⟨_, rfl, fun i => rfl⟩)
    simp only [kclip, Arr.forDType] at this ⊢
    exact this
  · intro i
    fin_cases i <;> simp
  · intro t
    refine hasDerivAt_pi.2 fun i => ?_
    fin_cases i
    · simpa [linear] using Real.hasDerivAt_cos t
    · simpa [linear] using (Real.hasDerivAt_sin t).fun_neg
  · intro t i
    fin_cases i
    · exact Real.abs_cos_le_one t
    · simpa using Real.abs_sin_le_one t
  · obtain ⟨κ, hκ⟩ : ∃ κ : ℝ, κ = 2⁻¹ ^ 500 := ⟨_, rfl⟩
    have hκ1 : κ ≤ 1 := by rw [hκ]; exact pow_le_one₀ (by norm_num) (by norm_num)
    have hκ0 : 0 ≤ κ := by rw [hκ]; exact pow_nonneg (by norm_num) _
    rw [← hκ]
    push_cast
    have he : Real.exp (2 * 1 * 1 + 38 * (90 * 2⁻¹ ^ 52) * 2) ≤ 2.72 ^ 3 := by
      refine (Real.exp_le_exp.2 (show _ ≤ ((3 : ℕ) : ℝ) * 1 by norm_num)).trans ?_
      rw [Real.exp_nat_mul]
      exact pow_le_pow_left₀ (Real.exp_pos _).le (Real.exp_one_lt_d9.le.trans (by norm_num)) 3
    calc _ ≤ (1 : ℝ) * (1 + 2.72 ^ 3 * (90 * 2⁻¹ ^ 52 * ((2 + 74 * 1 * 1) * 1 + 74 * 1 * 0 + 2 * 1) + 2 * 1 ^ 5 * (1 * 1 + 0) * (1 / 2) ^ 5 * 1)) := by gcongr
      _ ≤ _ := by norm_num

/-! ### the integrators -/

section point
variable {V : Type} [Zero V]

/-- the matrix of a point mass on `k` axes -/
def pmA (k : ℕ) (one c : V) : Fin (k + k) → Fin (k + k) → V :=
  Fin.append (fun i j => if j = Fin.natAdd k i then one else 0) (fun i j => if j = Fin.natAdd k i then c else 0)

/-- the control matrix of a point mass on `k` axes -/
def pmB (k : ℕ) (r : V) : Fin (k + k) → Fin k → V := Fin.append (fun _ _ => 0) (fun i j => if j = i then r else 0)

end point

theorem pm_cases {k : ℕ} {P : Fin (k + k) → Prop} (h1 : ∀ i, P (Fin.castAdd k i)) (h2 : ∀ i, P (Fin.natAdd k i)) : ∀ i, P i :=
  fun i => Fin.addCases h1 h2 i

section point
variable {K : Type} {R : Fmt K} [Field K] [LinearOrder K] [IsStrictOrderedRing K] [FloorRing K]

theorem integrator_mats {m c : Fl R} {k : ℕ} {mode : String} (hk : (mode, k) = ("1d", 1) ∨ (mode, k) = ("2d", 2) ∨ (mode, k) = ("3d", 3)) {A B : Mat R}
    (h : generateDynamicsMatrices m c mode = .ok (A, B)) : ∃ r, pyDiv 1 m = .ok r ∧ A = flMat (pmA k 1 (-c)) ∧ B = flMat (pmB k r) := by
  unfold generateDynamicsMatrices at h
  rcases hk with hk | hk | hk <;> cases hk <;> simp only [String.reduceEq, if_true, if_false] at h <;> obtain ⟨r, h1, h2⟩ := Except.bind_ok.1 h <;>
    cases h2 <;> exact ⟨r, h1, rfl, rfl⟩

theorem integrator_parts {env : Env R} {a : IntegratorArgs R} {k : ℕ} {e : Entity R} (h : initIntegrator env a k = .ok e) :
    (∃ r args, pyDiv 1 a.m = .ok r ∧ mkLinearDyn env args (flMat (pmA k 1 (-a.damping))) (flMat (pmB k r)) = .ok e.dynamics) ∧ Unlimited e.dynamics ∧
      e.controlMin = .scalar (.fin (-1)) ∧ e.controlMax = .scalar (.fin 1) ∧ 0 < k ∧ k ≤ 3 := by
  have key : ∀ (k : Nat) (mode : String) (fields : List (CfgField R)) (layout : List String) (cd : Vec R)
      (cm : Option (List (String × Nat))), ((mode, k) = ("1d", 1) ∨ (mode, k) = ("2d", 2) ∨ (mode, k) = ("3d", 3)) →
      (do let d ← mkIntegratorDynamics env a.m a.damping mode a.dyn
          baseInit fields layout d cd (.scalar (-1)) (.scalar 1) cm a.kwargs) = .ok e →
      (∃ r args, pyDiv 1 a.m = .ok r ∧ mkLinearDyn env args (flMat (pmA k 1 (-a.damping))) (flMat (pmB k r)) = .ok e.dynamics) ∧ Unlimited e.dynamics ∧
      e.controlMin = .scalar (.fin (-1)) ∧ e.controlMax = .scalar (.fin 1) := by
    intro k mode fields layout cd cm hk h
    obtain ⟨d, hd, h⟩ := Except.bind_ok.1 h
    obtain ⟨h1, -, h3, h4, -⟩ := baseInit_ok h
    subst h1
    unfold mkIntegratorDynamics at hd
    obtain ⟨⟨A, B⟩, hAB, hd⟩ := Except.bind_ok.1 hd
    obtain ⟨r, g1, rfl, rfl⟩ := integrator_mats hk hAB
    refine ⟨⟨r, _, g1, hd⟩, unlimited_of_mk (mkLinearDyn_ok hd) rfl rfl rfl rfl rfl, ?_, ?_⟩
    · rw [h3]; congr 1; rw [Fl.one_fin]; rfl
    · rw [h4]; congr 1; exact Fl.one_fin
  match k, h with
  | 1, h => obtain ⟨h1, h2, h3, h4⟩ := key 1 "1d" _ _ _ _ (by simp) h; exact ⟨h1, h2, h3, h4, by norm_num, by norm_num⟩
  | 2, h => obtain ⟨h1, h2, h3, h4⟩ := key 2 "2d" _ _ _ _ (by simp) h; exact ⟨h1, h2, h3, h4, by norm_num, by norm_num⟩
  | 3, h => obtain ⟨h1, h2, h3, h4⟩ := key 3 "3d" _ _ _ _ (by simp) h; exact ⟨h1, h2, h3, h4, by norm_num, by norm_num⟩

theorem linear_pm (k : ℕ) (c r : K) (U : Fin k → K) (y : Fin (k + k) → K) :
    linear (pmA k 1 (-c)) (pmB k r) U y = Fin.append (fun i => y (Fin.natAdd k i)) (fun i => -c * y (Fin.natAdd k i) + r * U i) := by
  funext i
  revert i
  refine pm_cases (fun i => ?_) (fun i => ?_)
  · simp [linear, pmA, pmB, -Fin.natAdd_eq_addNat]
  · simp [linear, pmA, pmB, -Fin.natAdd_eq_addNat]

theorem pmA_norm {k : ℕ} {c ω a : K} (hω : 0 < ω) (h1 : ω ≤ a) (h2 : |c| ≤ a) (i : Fin (k + k)) :
    ∑ j, |pmA k 1 (-c) i j| * pmW k ω j ≤ a * pmW k ω i := by
  refine pm_cases (P := fun i => ∑ j, |pmA k 1 (-c) i j| * pmW k ω j ≤ a * pmW k ω i) (fun i => ?_) (fun i => ?_) i
  · simpa [pmA, pmW, apply_ite, -Fin.natAdd_eq_addNat] using h1
  · simpa [pmA, pmW, apply_ite, -Fin.natAdd_eq_addNat] using mul_le_mul_of_nonneg_right h2 hω.le

theorem pmB_norm {k : ℕ} {r ω μ : K} {U : Fin k → K} (hμ0 : 0 ≤ μ) (h : ∀ i, |r| * |U i| ≤ ω * μ) (i : Fin (k + k)) :
    ∑ j, |pmB k r i j| * |U j| ≤ pmW k ω i * μ := by
  refine pm_cases (P := fun i => ∑ j, |pmB k r i j| * |U j| ≤ pmW k ω i * μ) (fun i => ?_) (fun i => ?_) i
  · simpa [pmB, pmW] using hμ0
  · simpa [pmB, pmW, apply_ite, -Fin.natAdd_eq_addNat] using h i

end point

section sim
variable {libm : Fmt ℚ} {k : ℕ} {m c ω a μ η : ℚ} {U : Fin k → ℚ}

theorem pmW_bounds (hω : 2⁻¹ ^ 100 ≤ ω) (hω2 : ω ≤ 2 ^ 49) (i : Fin (k + k)) : 2⁻¹ ^ 100 ≤ pmW k ω i ∧ pmW k ω i ≤ 1 + ω := by
  have hω0 : 0 ≤ ω := (pow_nonneg (by norm_num) _).trans hω
  revert i
  refine pm_cases (fun i => ?_) (fun i => ?_)
  · simp only [pmW, Fin.append_left]
    exact ⟨pow_le_one₀ (by norm_num) (by norm_num), by linarith⟩
  · simp only [pmW, Fin.append_right]
    exact ⟨hω, by linarith⟩

/-- the derivative of a point mass costs `3 + 2 k` roundings -/
theorem pm_field {env : Env (b64Of libm)} {args : DynArgs (b64Of libm)} {d : Dyn (b64Of libm)} {r : Fl (b64Of libm)} (hr : pyDiv 1 (.fin m) = .ok r)
    (hd : mkLinearDyn env args (flMat (pmA k 1 (-(.fin c)))) (flMat (pmB k r)) = .ok d) (hu : Unlimited d) (hk : k ≤ 3) (hm1 : |m⁻¹| ≤ 2 ^ 200)
    (hω : 2⁻¹ ^ 100 ≤ ω) (ha1 : ω ≤ a) (ha2 : |c| ≤ a) (ha3 : a ≤ 2 ^ 49) (hU : ∀ i, |U i| ≤ 1) (hμ0 : 0 ≤ μ) (hμ : ∀ i, |U i / m| ≤ ω * μ) (hμ1 : μ ≤ 2 ^ 50) :
    (1 + (2⁻¹ : ℚ) ^ 53) ^ (6 * (1 + 2 + max (k + k) k + 11)) - 1 ≤ 2⁻¹ ^ 46 ∧
    NearField (b64Of libm) (2⁻¹ ^ 53) (pmW k ω) (6 * (1 + 2 + max (k + k) k + 11)) (2 ^ 240) a (μ + 2⁻¹ ^ 600) (1 + 2 + max (k + k) k)
      (fun t y => d.computeStateDot t y (toFl U)) (fun y => linear (pmA k 1 (-c)) (pmB k m⁻¹) U y) := by
  have hω0 : 0 < ω := lt_of_lt_of_le (pow_pos (by norm_num) _) hω
  have ha0 : 0 ≤ a := hω0.le.trans ha1
  have hγ : (1 + (2⁻¹ : ℚ) ^ 53) ^ (6 * (1 + 2 + max (k + k) k + 11)) - 1 ≤ 2⁻¹ ^ 46 := by
    refine le_trans (sub_le_sub_right (pow_le_pow_right₀ (by norm_num) (?_ : _ ≤ 126)) 1) b64_eps126
    have : max (k + k) k = k + k := max_eq_left (by omega)
    omega
  refine ⟨hγ, ?_⟩
  have hb := fun i => pmW_bounds (k := k) hω (ha1.trans ha3) i
  obtain ⟨τ, hτ⟩ : ∃ τ : ℚ, τ = 2 ^ (-1022 : ℤ) := ⟨_, rfl⟩
  obtain ⟨θ, hθ⟩ : ∃ θ : ℚ, θ = 2⁻¹ ^ 600 := ⟨_, rfl⟩
  have hw50 : ∀ i, pmW k ω i ≤ 2 ^ 50 := fun i => (hb i).2.trans (by linarith)
  obtain ⟨hroom, -, hτ0, hθ0⟩ := b64_roomyV (libm := libm) (fun i => (hb i).1) hw50 hγ (by norm_num) hθ hτ
  have hm0 : m ≠ 0 := by
    rintro rfl
    simp [pyDiv, Fl.eqb] at hr
  have hrd : r = (.fin 1 : Fl (b64Of libm)) / .fin m := by
    unfold pyDiv at hr
    split at hr
    · cases hr
    · cases hr; rw [Fl.one_fin]
  have hrn : Near (2⁻¹ ^ 53) 1 r m⁻¹ (|m⁻¹| + τ) := by
    have := near_div hroom.rounds (a := 1) hm0 (by rw [one_div]; exact hm1.trans (by decide +kernel))
    rw [one_div] at this
    rw [hrd]; exact this
  have hε : (0 : ℚ) ≤ 2⁻¹ ^ 53 := by positivity
  have near0 : Near (R := b64Of libm) (2⁻¹ ^ 53) 1 0 0 0 := by
    have := (near_fin (R := b64Of libm) (ε := 2⁻¹ ^ 53) (0 : ℚ)).mono hε (Nat.zero_le 1) le_rfl
    rw [abs_zero] at this
    rwa [Fl.zero_fin]
  have near1 : Near (R := b64Of libm) (2⁻¹ ^ 53) 1 1 1 |1| := by
    have := (near_fin (R := b64Of libm) (ε := 2⁻¹ ^ 53) (1 : ℚ)).mono hε (Nat.zero_le 1) le_rfl
    rwa [Fl.one_fin]
  have nearc : Near (R := b64Of libm) (2⁻¹ ^ 53) 1 (-(.fin c)) (-c) |-c| := (near_fin (R := b64Of libm) (ε := 2⁻¹ ^ 53) (-c : ℚ)).mono hε (Nat.zero_le 1) le_rfl
  rw [← hθ]
  refine lin_nearField (a := fun i j => |pmA k 1 (-c) i j|) (b := pmB k (|m⁻¹| + τ)) hroom hd hu ?_ ?_ (fun i => pmA_norm hω0 ha1 ha2 i)
    (fun i => ?_) ha0 (by linarith) (fun i => ?_)
  · refine pm_cases (fun i j => ?_) (fun i j => ?_)
    · simp only [pmA, Fin.append_left]
      split
      · exact near1
      · rw [abs_zero]; exact near0
    · simp only [pmA, Fin.append_right]
      split
      · exact nearc
      · rw [abs_zero]; exact near0
  · refine pm_cases (fun i j => ?_) (fun i j => ?_)
    · simp only [pmB, Fin.append_left]
      exact near0
    · simp only [pmB, Fin.append_right]
      split
      · exact hrn
      · exact near0
  · have hk' : (k : ℚ) ≤ 3 := by exact_mod_cast hk
    have hlow : 40 * τ ≤ pmW k ω i * θ :=
      le_trans (by rw [hτ, hθ]; decide +kernel) (mul_le_mul_of_nonneg_right (hb i).1 hθ0)
    have hkτ : (k : ℚ) * τ ≤ 3 * τ := mul_le_mul_of_nonneg_right hk' hτ0
    have hsum : ∑ j, pmB k (|m⁻¹| + τ) i j * |U j| ≤ pmW k ω i * μ + τ := by
      clear hlow
      revert i
      refine pm_cases (fun i => ?_) (fun i => ?_)
      · simp [pmB, pmW]; linarith
      · simp only [pmB, pmW, Fin.append_right, ite_mul, zero_mul, Finset.sum_ite_eq', Finset.mem_univ, if_true]
        have h1 := hμ i
        rw [abs_div, div_eq_mul_inv, ← abs_inv] at h1
        have h2 := mul_le_mul_of_nonneg_left (hU i) hτ0
        nlinarith
    push_cast
    nlinarith
  · have h1 : (1 + (2⁻¹ : ℚ) ^ 53) ^ (6 * (1 + 2 + max (k + k) k + 11)) ≤ 2 := by linarith
    have h2 : μ + θ ≤ 2 ^ 50 + 1 := add_le_add hμ1 (by rw [hθ]; exact pow_le_one₀ (by norm_num) (by norm_num))
    have hw0 := hroom.pos i
    calc _ ≤ 2 * (2 ^ 50 * (2 ^ 50 * 2 ^ 240 + (2 ^ 50 + 1)) : ℚ) := by
          refine mul_le_mul h1 (mul_le_mul (hw50 i) (add_le_add (mul_le_mul_of_nonneg_right (ha3.trans (by norm_num)) (by positivity)) h2) ?_ (by positivity)) ?_ (by norm_num)
          · exact add_nonneg (mul_nonneg ha0 (by positivity)) (by linarith)
          · exact mul_nonneg hw0 (add_nonneg (mul_nonneg ha0 (by positivity)) (by linarith))
      _ ≤ _ := by decide +kernel

theorem pmA_cast (c : ℚ) : (fun i j => ((pmA k 1 (-c) i j : ℚ) : ℝ)) = pmA k 1 (-(c : ℝ)) := by
  funext i j
  revert i
  refine pm_cases (fun i => ?_) (fun i => ?_)
  · simp only [pmA, Fin.append_left]; split <;> simp
  · simp only [pmA, Fin.append_right]; split <;> simp

theorem pmB_cast (r : ℚ) : (fun i j => ((pmB k r i j : ℚ) : ℝ)) = pmB k (r : ℝ) := by
  funext i j
  revert i
  refine pm_cases (fun i => ?_) (fun i => ?_)
  · simp [pmB]
  · simp only [pmB, Fin.append_right]; split <;> simp

theorem pmW_cast (ω : ℚ) (i : Fin (k + k)) : ((pmW k ω i : ℚ) : ℝ) = pmW k (ω : ℝ) i := by
  revert i
  refine pm_cases (fun i => ?_) (fun i => ?_) <;> simp [pmW, -Fin.natAdd_eq_addNat]

theorem applied_pm_one {K : Type} {R : Fmt K} [Field K] [LinearOrder K] [IsStrictOrderedRing K] [FloorRing K] {env : Env R} {e : Entity R}
    (hlo : e.controlMin = .scalar (.fin (-1))) (hhi : e.controlMax = .scalar (.fin 1)) (c1 : (.fin (-1) : Fl R).cast32 = .fin (-1))
    (c2 : (.fin 1 : Fl R).cast32 = .fin 1) {a : Action R} {u : Fin k → K} (ha : Asks env e a u) : Applied env e a (toFl fun i => min (max (u i) (-1)) 1) := by
  obtain ⟨ty, hr⟩ := ha
  have hr := resolve_iff.2 hr
  have f1 : e.controlMin.forDType ty = .scalar (.fin (-1)) := by rw [hlo]; cases ty <;> simp [Arr.forDType, c1]
  have f2 : e.controlMax.forDType ty = .scalar (.fin 1) := by rw [hhi]; cases ty <;> simp [Arr.forDType, c2]
  have g1 : ArrIs (.scalar (.fin (-1)) : Arr R) (fun _ : Fin k => loFl (some (-1))) := .inr ⟨_, rfl, fun _ => rfl⟩
  have g2 : ArrIs (.scalar (.fin 1) : Arr R) (fun _ : Fin k => hiFl (some 1)) := .inr ⟨_, rfl, fun _ => rfl⟩
  refine applied_of hr ?_
  rw [f1, f2, npClip_toFl u g1 g2]
  simp only [kclip]

/-- a simulation of a point mass, given the rate of the errors of the method -/
theorem pm_run (libm : Fmt ℚ) (env env' : Env (b64Of libm)) (k : ℕ) (args : IntegratorArgs (b64Of libm)) (m c : ℚ) (hm : args.m = .fin m)
    (hc : args.damping = .fin c) (e0 : Entity (b64Of libm)) (h0 : initIntegrator env args k = .ok e0) (hmeth : e0.dynamics.integrationMethod = "RK45")
    (hm1 : |m⁻¹| ≤ 2 ^ 200) (s : Fin (k + k) → ℚ) (hist : List (ℚ × Action (b64Of libm))) (u F : Fin k → ℚ)
    (hF : ∀ i, F i = min (max (u i) (-1)) 1) (ω a μ η : ℚ) (ν : ℕ) (lam Φ T N E : ℝ)
    (hhist : ∀ h ∈ hist, Asks env' e0 h.2 u ∧ 0 ≤ h.1 ∧
      Integrates env' (k + k) (2 ^ 100) η ν (fun t y => e0.dynamics.computeStateDot t y (toFl F)) h.1)
    (hT : T = ((hist.map (·.1)).sum : ℚ)) (hN : N = hist.length * ν) (hη0 : 0 ≤ η) (hη : η ≤ 2 ^ 50) (haη : 2 * a * η ≤ 1)
    (hω : 2⁻¹ ^ 100 ≤ ω) (ha1 : ω ≤ a) (ha2 : |c| ≤ a) (ha3 : a ≤ 2 ^ 49)
    (f : ℝ → Fin (k + k) → ℝ) (hf0 : ∀ i, f 0 i = s i) (hΦ : ∀ t, 0 ≤ t → t ≤ T → ∀ i, |f t i| ≤ pmW k (ω : ℝ) i * Φ)
    (hμ : ∀ i, |F i / m| ≤ ω * μ) (hμ1 : μ ≤ 2 ^ 50) (hlam : 0 ≤ lam)
    (hloc : ∀ t h, 0 ≤ t → 0 ≤ h → h ≤ (η : ℝ) → t + h ≤ T → ∀ i,
      |rkStep kdopri (fun _ y => linear (pmA k 1 (-(c : ℝ))) (pmB k ((m⁻¹ : ℚ) : ℝ)) (fun j => (F j : ℝ)) y) 0 h (f t) i - f (t + h) i| ≤ pmW k (ω : ℝ) i * (lam * h))
    (hE : E = Real.exp (2 * a * T + 38 * 2⁻¹ ^ 46 * N) * (2⁻¹ ^ 46 * ((N + 74 * a * T) * Φ + 74 * T * μ + N * 2⁻¹ ^ 500) + lam * T))
    (hbig : (1 + (ω : ℝ)) * (Φ + E) ≤ 2 ^ 100) :
    ∃ s' : Fin (k + k) → ℚ, (Entity.run env' { e0 with state := toFl s } (stepsOf hist)).state = toFl s' ∧
      ∀ i, |(s' i : ℝ) - f T i| ≤ pmW k (ω : ℝ) i * E := by
  obtain ⟨⟨r, dargs, hr, hd⟩, hu, hlo, hhi, hk0, hk3⟩ := integrator_parts h0
  rw [hm] at hr
  rw [hc] at hd
  have hω0 : 0 < ω := lt_of_lt_of_le (pow_pos (by norm_num) _) hω
  have hT0 : 0 ≤ T := by rw [hT]; exact hist_sum_nonneg fun x hx => (hhist x hx).2.1
  have hΦ0 : 0 ≤ Φ := by
    have := (abs_nonneg _).trans (hΦ 0 le_rfl hT0 (Fin.castAdd k ⟨0, hk0⟩))
    rwa [pmW, Fin.append_left, one_mul] at this
  have hμ0 : 0 ≤ μ := nonneg_of_mul_nonneg_right ((abs_nonneg _).trans (hμ ⟨0, hk0⟩)) hω0
  have hF1 : ∀ i, |F i| ≤ 1 := fun i => by rw [hF, abs_le]; constructor <;> simp
  obtain ⟨hγ, hfield⟩ := pm_field hr hd hu hk3 hm1 hω ha1 ha2 ha3 hF1 hμ0 hμ hμ1
  have hb := fun i => pmW_bounds (k := k) hω (ha1.trans ha3) i
  have S : LinSim libm e0.dynamics (pmA k 1 (-c)) (pmB k m⁻¹) F (pmW k ω) (1 + 2 + max (k + k) k) a μ (2⁻¹ ^ 46) η (1 + ω) lam Φ T f :=
    ⟨hu, by omega, fun i => (hb i).1, fun i => (hb i).2, by linarith, by linarith, hγ, by norm_num, hfield, fun i => pmA_norm hω0 ha1 ha2 i, hω0.le.trans ha1,
      ha3.trans (by norm_num), hμ0, hμ1, hη0, hη, haη, hΦ0, fun t h1 h2 i => by rw [pmW_cast]; exact hΦ t h1 h2 i, hlam, by
        rw [pmA_cast, pmB_cast]
        intro t h h1 h2 h3 h4 i
        rw [pmW_cast]
        exact hloc t h h1 h2 h3 h4 i⟩
  have hE' : E = linB a μ (2⁻¹ ^ 46) lam Φ T (hist.length * ν) 0 := by
    rw [hE, linB_eq, hN]
    obtain ⟨κ, hκ⟩ : ∃ κ : ℝ, κ = 2⁻¹ ^ 500 := ⟨_, rfl⟩
    rw [← hκ]
    push_cast
    rfl
  obtain ⟨c1, c2⟩ := b64_cast32 libm
  have hFe : F = fun i => min (max (u i) (-1)) 1 := funext hF
  obtain ⟨s', h1, h2⟩ := S.run (ν := ν) (env' := env') hmeth hist
    (fun h hh => ⟨by rw [hFe]; exact applied_pm_one hlo hhi c1 c2 (hhist h hh).1, (hhist h hh).2⟩) s e0.stateDot e0.dynamics.trajectory
    e0.dynamics.trajectoryT 0 0 le_rfl (by rw [hT]; simp) le_rfl (fun i => by simp [hf0]) (by rw [← hT, ← hE']; push_cast; exact hbig)
  rw [← hT, ← hE', zero_add] at h2
  exact ⟨s', h1, fun i => by rw [← pmW_cast]; exact h2 i⟩

end sim

/-- Dormand-Prince steps follow uniformly accelerated motions exactly -/
theorem uniform_step {k : ℕ} (m : ℝ) (x v U : Fin k → ℝ) (t h : ℝ) :
    rkStep kdopri (fun _ y => linear (pmA k 1 (-0)) (pmB k m⁻¹) U y) 0 h (uniform x v (fun i => U i / m) t) = uniform x v (fun i => U i / m) (t + h) := by
  have e : (fun (_ : ℝ) y => linear (pmA k 1 (-0)) (pmB k m⁻¹) U y) = (pointModel k m 0).field U := by
    funext _ y
    rw [linear_pm, pointModel_field]
    simp only [div_eq_inv_mul]
  have h1 := pointModel_chain k m (fun i => x i + v i * t + U i / m * t ^ 2 / 2) (fun i => v i + U i / m * t) U [h]
  rw [← e] at h1
  simp only [rkChain, List.sum_cons, List.sum_nil, add_zero] at h1
  refine h1.trans ?_
  funext i
  revert i
  refine pm_cases (fun i => ?_) (fun i => ?_)
  · simp only [uniform, Fin.append_left]; ring
  · simp only [uniform, Fin.append_right]; ring

/-- An undamped 1-d, 2-d or 3-d integrator stepped any number of times with RK45, the default method, in IEEE double precision, with a constant
requested thrust (however expressed): uniformly accelerated motion under the saturated thrust, up to rounding errors only. `ω` is any scale of
velocities, `N` the number of steps of the solver and `T` the total time. -/
theorem C109_point_mass (libm : Fmt ℚ) (env env' : Env (b64Of libm)) (k : ℕ) (args : IntegratorArgs (b64Of libm)) (m : ℚ) (hm : args.m = .fin m)
    (hc : args.damping = .fin 0) (e0 : Entity (b64Of libm)) (h0 : initIntegrator env args k = .ok e0) (hmeth : e0.dynamics.integrationMethod = "RK45")
    (hm1 : |m⁻¹| ≤ 2 ^ 200) (x v : Fin k → ℚ) (hist : List (ℚ × Action (b64Of libm))) (u F : Fin k → ℚ)
    (hF : ∀ i, F i = min (max (u i) (-1)) 1) (ω μ η : ℚ) (ν : ℕ) (Φ T N E : ℝ)
    (hhist : ∀ h ∈ hist, Asks env' e0 h.2 u ∧ 0 ≤ h.1 ∧
      Integrates env' (k + k) (2 ^ 100) η ν (fun t y => e0.dynamics.computeStateDot t y (toFl F)) h.1)
    (hT : T = ((hist.map (·.1)).sum : ℚ)) (hN : N = hist.length * ν) (hη0 : 0 ≤ η) (hη : η ≤ 2 ^ 50) (hωη : 2 * ω * η ≤ 1)
    (hω : 2⁻¹ ^ 100 ≤ ω) (hω2 : ω ≤ 2 ^ 49)
    (hΦ : ∀ t, 0 ≤ t → t ≤ T → ∀ i, |uniform (fun i => (x i : ℝ)) (fun i => (v i : ℝ)) (fun i => (F i : ℝ) / m) t i| ≤ pmW k (ω : ℝ) i * Φ)
    (hμ : ∀ i, |F i / m| ≤ ω * μ) (hμ1 : μ ≤ 2 ^ 50)
    (hE : E = Real.exp (2 * ω * T + 38 * 2⁻¹ ^ 46 * N) * (2⁻¹ ^ 46 * ((N + 74 * ω * T) * Φ + 74 * T * μ + N * 2⁻¹ ^ 500)))
    (hbig : (1 + (ω : ℝ)) * (Φ + E) ≤ 2 ^ 100) :
    ∃ s' : Fin (k + k) → ℚ, (Entity.run env' { e0 with state := toFl (Fin.append x v) } (stepsOf hist)).state = toFl s' ∧
      ∀ i, |(s' i : ℝ) - uniform (fun i => (x i : ℝ)) (fun i => (v i : ℝ)) (fun i => (F i : ℝ) / m) T i| ≤ pmW k (ω : ℝ) i * E := by
  have hω0 : 0 < ω := lt_of_lt_of_le (pow_pos (by norm_num) _) hω
  refine pm_run libm env env' k args m 0 hm hc e0 h0 hmeth hm1 (Fin.append x v) hist u F hF ω ω μ η ν 0 Φ T N E hhist hT hN hη0 hη hωη hω le_rfl
    (by rw [abs_zero]; exact hω0.le) hω2 _ ?_ hΦ hμ hμ1 le_rfl ?_ ?_ hbig
  · refine pm_cases (fun i => ?_) (fun i => ?_) <;> simp [uniform, -Fin.natAdd_eq_addNat]
  · intro t h _ _ _ _ i
    have := uniform_step (m : ℝ) (fun i => (x i : ℝ)) (fun i => (v i : ℝ)) (fun i => (F i : ℝ)) t h
    push_cast
    rw [this]
    simp
  · rw [hE]; simp

theorem damped_deriv {k : ℕ} (x v U : Fin k → ℝ) (m : ℝ) {c : ℝ} (hc : c ≠ 0) (t : ℝ) :
    HasDerivAt (damped x v (fun i => U i / m) c) (linear (pmA k 1 (-c)) (pmB k m⁻¹) U (damped x v (fun i => U i / m) c t)) t := by
  have he : HasDerivAt (fun t => Real.exp (-c * t)) (Real.exp (-c * t) * -c) t := by
    simpa using (((hasDerivAt_id t).const_mul (-c)).exp)
  rw [linear_pm]
  refine hasDerivAt_pi.2 (pm_cases (fun i => ?_) (fun i => ?_))
  · simp only [damped, Fin.append_left, Fin.append_right]
    have h1 := (((hasDerivAt_id t).const_mul (U i / m / c)).const_add (x i)).add ((((he.const_sub 1).const_mul (v i - U i / m / c))).div_const c)
    refine h1.congr_deriv ?_
    field_simp
  · simp only [damped, Fin.append_right]
    have h1 := (he.const_mul (v i - U i / m / c)).const_add (U i / m / c)
    refine h1.congr_deriv ?_
    rw [show -c * (U i / m / c + (v i - U i / m / c) * Real.exp (-c * t)) = -(c * (U i / m / c)) + -c * ((v i - U i / m / c) * Real.exp (-c * t)) by ring,
      mul_div_cancel₀ _ hc]
    ring

/-- The same with damping: the velocity tends to the terminal velocity as in the closed-form solution of the equations of motion; the second
summand of `E` is the error of the method. -/
theorem C109_damped (libm : Fmt ℚ) (env env' : Env (b64Of libm)) (k : ℕ) (args : IntegratorArgs (b64Of libm)) (m c : ℚ) (hm : args.m = .fin m)
    (hc : args.damping = .fin c) (hc0 : c ≠ 0) (e0 : Entity (b64Of libm)) (h0 : initIntegrator env args k = .ok e0)
    (hmeth : e0.dynamics.integrationMethod = "RK45") (hm1 : |m⁻¹| ≤ 2 ^ 200) (x v : Fin k → ℚ) (hist : List (ℚ × Action (b64Of libm))) (u F : Fin k → ℚ)
    (hF : ∀ i, F i = min (max (u i) (-1)) 1) (ω a μ η : ℚ) (ν : ℕ) (Φ T N E : ℝ)
    (hhist : ∀ h ∈ hist, Asks env' e0 h.2 u ∧ 0 ≤ h.1 ∧
      Integrates env' (k + k) (2 ^ 100) η ν (fun t y => e0.dynamics.computeStateDot t y (toFl F)) h.1)
    (hT : T = ((hist.map (·.1)).sum : ℚ)) (hN : N = hist.length * ν) (hη0 : 0 ≤ η) (hη : η ≤ 2 ^ 50) (haη : 2 * a * η ≤ 1)
    (hω : 2⁻¹ ^ 100 ≤ ω) (ha1 : ω ≤ a) (ha2 : |c| ≤ a) (ha3 : a ≤ 2 ^ 49)
    (hΦ : ∀ t, 0 ≤ t → t ≤ T → ∀ i, |damped (fun i => (x i : ℝ)) (fun i => (v i : ℝ)) (fun i => (F i : ℝ) / m) c t i| ≤ pmW k (ω : ℝ) i * Φ)
    (hμ : ∀ i, |F i / m| ≤ ω * μ) (hμ1 : μ ≤ 2 ^ 50)
    (hE : E = Real.exp (2 * a * T + 38 * 2⁻¹ ^ 46 * N) *
      (2⁻¹ ^ 46 * ((N + 74 * a * T) * Φ + 74 * T * μ + N * 2⁻¹ ^ 500) + 2 * (a : ℝ) ^ 5 * (a * Φ + μ) * (η : ℝ) ^ 5 * T))
    (hbig : (1 + (ω : ℝ)) * (Φ + E) ≤ 2 ^ 100) :
    ∃ s' : Fin (k + k) → ℚ, (Entity.run env' { e0 with state := toFl (Fin.append x v) } (stepsOf hist)).state = toFl s' ∧
      ∀ i, |(s' i : ℝ) - damped (fun i => (x i : ℝ)) (fun i => (v i : ℝ)) (fun i => (F i : ℝ) / m) c T i| ≤ pmW k (ω : ℝ) i * E := by
  have hω0 : 0 < ω := lt_of_lt_of_le (pow_pos (by norm_num) _) hω
  have ha0 : 0 ≤ a := hω0.le.trans ha1
  obtain ⟨-, -, -, -, hk0, -⟩ := integrator_parts h0
  have hT0 : 0 ≤ T := by rw [hT]; exact hist_sum_nonneg fun x hx => (hhist x hx).2.1
  have hΦ0 : 0 ≤ Φ := by
    have := (abs_nonneg _).trans (hΦ 0 le_rfl hT0 (Fin.castAdd k ⟨0, hk0⟩))
    rwa [pmW, Fin.append_left, one_mul] at this
  have hμ0 : 0 ≤ μ := nonneg_of_mul_nonneg_right ((abs_nonneg _).trans (hμ ⟨0, hk0⟩)) hω0
  have hη0' : (0 : ℝ) ≤ η := by exact_mod_cast hη0
  have ha0' : (0 : ℝ) ≤ a := by exact_mod_cast ha0
  have hμ0' : (0 : ℝ) ≤ μ := by exact_mod_cast hμ0
  have hc0' : (c : ℝ) ≠ 0 := by exact_mod_cast hc0
  refine pm_run libm env env' k args m c hm hc e0 h0 hmeth hm1 (Fin.append x v) hist u F hF ω a μ η ν _ Φ T N E hhist hT hN hη0 hη haη hω ha1 ha2 ha3
    _ ?_ hΦ hμ hμ1 (by positivity) ?_ hE hbig
  · refine pm_cases (fun i => ?_) (fun i => ?_) <;> simp [damped, -Fin.natAdd_eq_addNat]
  · have hw0 : ∀ i, 0 < pmW k ω i := fun i => lt_of_lt_of_le (pow_pos (by norm_num) _) (pmW_bounds (k := k) hω (ha1.trans ha3) i).1
    have := lin_loc (w := pmW k ω) (A := pmA k 1 (-c)) (B := pmB k m⁻¹) (U := F) (a := a) (μ := μ) (η := η) (Φ := Φ) (T := T) hw0 ha0 hμ0
      (fun i => pmA_norm hω0 ha1 ha2 i)
      (fun i => pmB_norm hμ0 (fun i => by have := hμ i; rwa [div_eq_inv_mul, abs_mul] at this) i) hΦ0
      (f := damped (fun i => (x i : ℝ)) (fun i => (v i : ℝ)) (fun i => (F i : ℝ) / m) c) (by
        rw [pmA_cast, pmB_cast]
        intro t
        push_cast
        exact damped_deriv _ _ (fun i => (F i : ℝ)) m hc0' t) (fun t h1 h2 i => by rw [pmW_cast]; exact hΦ t h1 h2 i)
    rw [pmA_cast, pmB_cast] at this
    intro t h h1 h2 h3 h4 i
    rw [← pmW_cast]
    exact this t h h1 h2 h3 h4 i

/-- the bounds for one second, eight steps of an eighth of a second, sizes up to 200 and `ω = 1`, `a = 1`: less than a hundredth of a millionth without damping -/
theorem pm_number : Real.exp (2 * ((1 : ℚ) : ℝ) * 1 + 38 * 2⁻¹ ^ 46 * 8) * (2⁻¹ ^ 46 * ((8 + 74 * ((1 : ℚ) : ℝ) * 1) * 200 + 74 * 1 * ((1 : ℚ) : ℝ) + 8 * 2⁻¹ ^ 500)) ≤ 10⁻¹ ^ 8 ∧
    Real.exp (2 * ((1 : ℚ) : ℝ) * 1 + 38 * 2⁻¹ ^ 46 * 8) * (2⁻¹ ^ 46 * ((8 + 74 * ((1 : ℚ) : ℝ) * 1) * 200 + 74 * 1 * ((1 : ℚ) : ℝ) + 8 * 2⁻¹ ^ 500) +
      2 * ((1 : ℚ) : ℝ) ^ 5 * (((1 : ℚ) : ℝ) * 200 + ((1 : ℚ) : ℝ)) * ((1 / 8 : ℚ) : ℝ) ^ 5 * 1) ≤ 1 := by
  obtain ⟨κ, hκ⟩ : ∃ κ : ℝ, κ = 2⁻¹ ^ 500 := ⟨_, rfl⟩
  have hκ1 : κ ≤ 1 := by rw [hκ]; exact pow_le_one₀ (by norm_num) (by norm_num)
  have hκ0 : 0 ≤ κ := by rw [hκ]; exact pow_nonneg (by norm_num) _
  rw [← hκ]
  push_cast
  have he : Real.exp (2 * 1 * 1 + 38 * 2⁻¹ ^ 46 * 8) ≤ 2.72 ^ 3 := by
    refine (Real.exp_le_exp.2 (show _ ≤ ((3 : ℕ) : ℝ) * 1 by norm_num)).trans ?_
    rw [Real.exp_nat_mul]
    exact pow_le_pow_left₀ (Real.exp_pos _).le (Real.exp_one_lt_d9.le.trans (by norm_num)) 3
  constructor
  · calc _ ≤ (2.72 : ℝ) ^ 3 * (2⁻¹ ^ 46 * ((8 + 74 * 1 * 1) * 200 + 74 * 1 * 1 + 8 * 1)) := by gcongr
      _ ≤ _ := by norm_num
  · calc _ ≤ (2.72 : ℝ) ^ 3 * (2⁻¹ ^ 46 * ((8 + 74 * 1 * 1) * 200 + 74 * 1 * 1 + 8 * 1) + 2 * 1 ^ 5 * (1 * 200 + 1) * (1 / 8) ^ 5 * 1) := by gcongr
      _ ≤ _ := by norm_num

/-- A mass of 2 kg 100 m away, stepped eight times by an eighth of a second with a requested thrust of 3 N, of which 1 N is applied, meets the hypotheses,
with and without damping. -/
example (libm : Fmt ℚ) (c : ℚ) : ∃ e0 : Entity (b64Of libm),
    initIntegrator (oneStepEnv libm) { m := .fin 2, damping := .fin c, kwargs := [("name", .str "a")] } 1 = .ok e0 ∧
    e0.dynamics.integrationMethod = "RK45" ∧ (∀ i : Fin 1, (![1] : Fin 1 → ℚ) i = min (max ((![3] : Fin 1 → ℚ) i) (-1)) 1) ∧
    (∀ h ∈ (List.replicate 8 (1 / 8, .ndarray .f64 [.fin 3]) : List (ℚ × Action (b64Of libm))),
      Asks (oneStepEnv libm) e0 h.2 (![3] : Fin 1 → ℚ) ∧ 0 ≤ h.1 ∧
      Integrates (oneStepEnv libm) (1 + 1) (2 ^ 100) (1 / 8) 1
        (fun t y => e0.dynamics.computeStateDot t y (toFl (![1] : Fin 1 → ℚ))) h.1) ∧
    (∀ t, 0 ≤ t → t ≤ 1 → ∀ i, |uniform (fun i => ((![100] : Fin 1 → ℚ) i : ℝ)) (fun i => ((![0] : Fin 1 → ℚ) i : ℝ))
      (fun i => ((![1] : Fin 1 → ℚ) i : ℝ) / (2 : ℚ)) t i| ≤ pmW 1 ((1 : ℚ) : ℝ) i * 200) ∧
    (c = 1 / 2 → ∀ t, 0 ≤ t → t ≤ 1 → ∀ i, |damped (fun i => ((![100] : Fin 1 → ℚ) i : ℝ)) (fun i => ((![0] : Fin 1 → ℚ) i : ℝ))
      (fun i => ((![1] : Fin 1 → ℚ) i : ℝ) / (2 : ℚ)) c t i| ≤ pmW 1 ((1 : ℚ) : ℝ) i * 200) ∧
    ∀ i, |(![1] : Fin 1 → ℚ) i / 2| ≤ 1 * 1 := by
  obtain ⟨e0, h0, hmeth⟩ : ∃ e0 : Entity (b64Of libm),
      initIntegrator (oneStepEnv libm) { m := .fin 2, damping := .fin c, kwargs := [("name", .str "a")] } 1 = .ok e0 ∧
      e0.dynamics.integrationMethod = "RK45" := by
    simp [initIntegrator, initIntegrator1d, mkIntegratorDynamics, generateDynamicsMatrices, IntegratorArgs.dyn, pyDiv, Fl.eqb, bind, Except.bind, mkLinearDyn,
      mkOdeDyn, linearShapeCheck, pure, Except.pure, baseInit, validate, lookup, fieldValues, integratorFields, buildState, Config.get]
  refine ⟨e0, h0, hmeth, fun i => by fin_cases i; norm_num, ?_, ?_, ?_, fun i => by fin_cases i; norm_num⟩
  · intro h hh
    obtain ⟨-, rfl⟩ := List.mem_replicate.1 hh
    refine ⟨⟨.f64, resolve_iff.1 (by simp [Entity.resolve, toFl, List.ofFn_succ])⟩, by norm_num,
      oneStepEnv_integrates libm (by norm_num) le_rfl _⟩
  · intro t ht0 ht1
    refine pm_cases (fun i => ?_) (fun i => ?_)
    · fin_cases i
      simp [uniform, pmW, Fin.append, Fin.addCases]
      rw [abs_of_nonneg (by positivity)]
      nlinarith
    · fin_cases i
      simp [uniform, pmW, Fin.append, Fin.addCases]
      rw [abs_of_nonneg (by positivity)]
      nlinarith
  · rintro rfl t ht0 ht1
    have h1 : Real.exp (-((1 / 2 : ℚ) : ℝ) * t) ≤ 1 := Real.exp_le_one_iff.2 (by push_cast; linarith)
    have h2 := Real.exp_pos (-((1 / 2 : ℚ) : ℝ) * t)
    refine pm_cases (fun i => ?_) (fun i => ?_)
    · fin_cases i
      simp only [damped, pmW, Fin.append_left, Fin.append_right]
      generalize Real.exp (-((1 / 2 : ℚ) : ℝ) * t) = z at h1 h2
      norm_num
      rw [abs_le]
      constructor <;> linarith
    · fin_cases i
      simp only [damped, pmW, Fin.append_left, Fin.append_right]
      generalize Real.exp (-((1 / 2 : ℚ) : ℝ) * t) = z at h1 h2
      norm_num
      rw [abs_le]
      constructor <;> linarith

end SAD
