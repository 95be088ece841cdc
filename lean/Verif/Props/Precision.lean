import Verif.Props.Rounding
import Verif.Lemmas.Accuracy

/-!
# C85: a whole simulation in double precision against the exact solution
-/

set_option linter.unusedSectionVars false

namespace SAD
open Spec

section
variable {ω a m n : ℝ}

theorem cw_hasDeriv {f : ℝ → Fin 6 → ℝ} {F : Fin 3 → ℝ} (hf : ∀ t, HasDerivAt f (cw m n (f t) F) t) (t : ℝ) (i : Fin 6) :
    HasDerivAt (fun t => cw m n (f t) F i) (cw m n (cw m n (f t) F) 0 i) t := by
  have h := fun j => hasDerivAt_pi.1 (hf t) j
  have e0 := h 0
  have e2 := h 2
  have e3 := h 3
  have e4 := h 4
  have e5 := h 5
  fin_cases i
  · exact e3
  · exact e4
  · exact e5
  · have := ((e0.const_mul (3 * n ^ 2)).add (e4.const_mul (2 * n))).add_const (F 0 / m)
    refine this.congr_deriv ?_
    simp [cw]
  · have := ((e3.const_mul (-2 * n))).add_const (F 1 / m)
    refine this.congr_deriv ?_
    simp [cw]
  · have := ((e2.const_mul (-n ^ 2))).add_const (F 2 / m)
    refine this.congr_deriv ?_
    simp [cw]

/-- local truncation error of Euler -/
theorem cw_truncation (hω : 0 < ω) (ha1 : ω ≤ a) (ha2 : 3 * n ^ 2 + 2 * |n| * ω ≤ a * ω) {f : ℝ → Fin 6 → ℝ} {F : Fin 3 → ℝ}
    (hf : ∀ t, HasDerivAt f (cw m n (f t) F) t) {t h δ : ℝ} (hh : 0 ≤ h) (hδ0 : 0 ≤ δ)
    (hδ : ∀ s, 0 ≤ s → s ≤ h → ∀ i, |cw m n (f (t + s)) F i| ≤ posVel ω i * δ) (i : Fin 6) :
    |f (t + h) i - f t i - h * cw m n (f t) F i| ≤ posVel ω i * (a * δ * h ^ 2) := by
  have h2 : ∀ s, 0 ≤ s → s ≤ h → |cw m n (f (t + s)) F i - cw m n (f t) F i| ≤ posVel ω i * (a * δ) * h := by
    intro s hs0 hs1
    have := mean_value (φ := fun s => cw m n (f (t + s)) F i - cw m n (f t) F i) (φ' := fun s => cw m n (cw m n (f (t + s)) F) 0 i) (h := s)
      (C := posVel ω i * (a * δ)) hs0 (fun s => ?_) (by simp) (fun r hr0 hr1 => ?_)
    · refine this.trans (mul_le_mul_of_nonneg_left hs1 ?_)
      have := (posVel_pos hω i).le
      have : 0 ≤ a := hω.le.trans ha1
      positivity
    · have := (cw_hasDeriv hf (t + s) i).comp s ((hasDerivAt_id s).const_add t)
      simpa [Function.comp_def] using this.sub_const (cw m n (f t) F i)
    · have := (cw_le_sizes m n (cw m n (f (t + r)) F) 0 i).trans (cwSizes_weighted (m := m) hω ha1 ha2 hδ0 (le_refl (0 : ℝ))
        (hδ r hr0 (hr1.trans hs1)) (F := 0) (by simp) i)
      simpa using this
  have := mean_value (φ := fun s => f (t + s) i - f t i - s * cw m n (f t) F i) (φ' := fun s => cw m n (f (t + s)) F i - cw m n (f t) F i)
    (h := h) (C := posVel ω i * (a * δ) * h) hh (fun s => ?_) (by simp) (fun r hr0 hr1 => h2 r hr0 hr1)
  · refine this.trans (le_of_eq ?_)
    ring
  · have e := (hasDerivAt_pi.1 (hf (t + s)) i).comp s ((hasDerivAt_id s).const_add t)
    have e2 := (hasDerivAt_id s).mul_const (cw m n (f t) F i)
    have := (e.sub_const (f t i)).fun_sub e2
    simpa [Function.comp_def] using this

end

theorem cw_cast (m n : ℚ) (s : Fin 6 → ℚ) (F : Fin 3 → ℚ) (i : Fin 6) :
    ((cw m n s F i : ℚ) : ℝ) = cw (m : ℝ) n (fun i => (s i : ℝ)) (fun i => (F i : ℝ)) i := by
  fin_cases i <;> simp [cw]

theorem cwSizes_cast (m n : ℚ) (s : Fin 6 → ℚ) (F : Fin 3 → ℚ) (i : Fin 6) :
    ((cwSizes m n s F i : ℚ) : ℝ) = cwSizes (m : ℝ) n (fun i => (s i : ℝ)) (fun i => (F i : ℝ)) i := by
  fin_cases i <;> simp [cwSizes]

theorem stepsOf_cons {K : Type} {R : Fmt K} (h : K × Action R) (hist : List (K × Action R)) :
    stepsOf (h :: hist) = .step (.fin h.1) h.2 :: stepsOf hist := rfl

theorem run_cons {K : Type} {R : Fmt K} [Field K] [LinearOrder K] [FloorRing K] (env : Env R) (e : Entity R) (o : Op R) (ops : List (Op R)) :
    e.run env (o :: ops) = (e.op env o).run env ops := rfl

section history
variable {libm : Fmt ℚ} {env env' : Env (b64Of libm)} {args : CwhArgs (b64Of libm)} {m n : ℚ} {e0 : Entity (b64Of libm)}
  {u F : Fin 3 → ℚ} {ω a μ Φ δ η Tmax : ℝ} {f : ℝ → Fin 6 → ℝ}

/-- one step with its error -/
theorem precision_step (hm : args.m = .fin m) (hn : args.n = .fin n) (h0 : newCwhSpacecraft env args = .ok e0)
    (hmeth : e0.dynamics.integrationMethod = "Euler") (hsamp : e0.dynamics.trajectorySamples ≤ 0) (hm1 : |m⁻¹| ≤ 2 ^ 200)
    (hn1 : |n| ≤ 2 ^ 200) (hF : ∀ i, F i = min (max (u i) (-1)) 1)
    (hω : 0 < ω) (hω2 : 2⁻¹ ^ 100 ≤ ω) (ha1 : ω ≤ a) (ha2 : 3 * (n : ℝ) ^ 2 + 2 * |(n : ℝ)| * ω ≤ a * ω) (hμ0 : 0 ≤ μ)
    (hμ : ∀ i, |(F i : ℝ) / m| ≤ ω * μ) (hΦ0 : 0 ≤ Φ) (hδ0 : 0 ≤ δ)
    (hf : ∀ t, HasDerivAt f (cw (m : ℝ) n (f t) (fun i => (F i : ℝ))) t) (hΦ : ∀ t, 0 ≤ t → t ≤ Tmax → ∀ i, |f t i| ≤ posVel ω i * Φ)
    (hδ : ∀ t, 0 ≤ t → t ≤ Tmax → ∀ i, |cw (m : ℝ) n (f t) (fun i => (F i : ℝ)) i| ≤ posVel ω i * δ)
    {s : Fin 6 → ℚ} {sd : Vec (b64Of libm)} {act : Action (b64Of libm)} (hreq : Asks env' e0 act u) {T : ℚ} (hT0 : 0 ≤ T) (hT1 : T ≤ 2 ^ 200)
    (hTη : (T : ℝ) ≤ η) {t E : ℝ} (ht0 : 0 ≤ t) (ht1 : t + T ≤ Tmax) (hE0 : 0 ≤ E) (hE : ∀ i, |(s i : ℝ) - f t i| ≤ posVel ω i * E)
    (hbig : (1 + ω) * (Φ + E) ≤ 2 ^ 200) :
    ∃ (s' : Fin 6 → ℚ) (sd' : Vec (b64Of libm)),
      (Entity.step env' { e0 with state := toFl s, stateDot := sd } (.fin T) act).entity = { e0 with state := toFl s', stateDot := sd' } ∧
      ∀ i, |(s' i : ℝ) - f (t + T) i| ≤ posVel ω i *
        ((1 + a * T) * (1 + 2⁻¹ ^ 49) * E + (2⁻¹ ^ 49 * ((1 + a * T) * Φ + T * μ + 2⁻¹ ^ 400) + a * δ * η * T)) := by
  have hTr0 : (0 : ℝ) ≤ T := by exact_mod_cast hT0
  have ha0 : 0 ≤ a := hω.le.trans ha1
  have hsR : ∀ i, |(s i : ℝ)| ≤ posVel ω i * (Φ + E) := fun i => by
    have h1 := hΦ t ht0 (by linarith) i
    have h2 := hE i
    have := abs_add_le ((s i : ℝ) - f t i) (f t i)
    rw [sub_add_cancel] at this
    linarith
  have hs : ∀ i, |s i| ≤ 2 ^ 200 := fun i => by
    have h1 := (hsR i).trans (mul_le_mul_of_nonneg_right (posVel_le hω i) (by positivity))
    have h2 := h1.trans hbig
    exact_mod_cast h2
  obtain ⟨s', v, ⟨-, h1⟩, h2, -⟩ := C84_cwh libm env env' args m n hm hn e0 h0 hmeth hsamp s sd act u F hreq hF T hs hm1 hn1 (by rw [abs_of_nonneg hT0]; exact hT1)
  refine ⟨s', toFl v, h1, fun i => ?_⟩
  have hp := (posVel_pos hω i).le
  have r1 : |(s' i : ℝ) - (s i + T * cw (m : ℝ) n (fun i => (s i : ℝ)) (fun i => (F i : ℝ)) i)|
      ≤ 2⁻¹ ^ 49 * (|(s i : ℝ)| + T * cwSizes (m : ℝ) n (fun i => (s i : ℝ)) (fun i => (F i : ℝ)) i + 2⁻¹ ^ 500) := by
    have := h2 i
    have h3 : ((|s' i - (s i + T * cw m n s F i)| : ℚ) : ℝ) ≤ ((2⁻¹ ^ 49 * (|s i| + |T| * cwSizes m n s F i + 2⁻¹ ^ 500) : ℚ) : ℝ) :=
      Rat.cast_le.2 this
    rw [abs_of_nonneg hT0] at h3
    push_cast at h3
    rw [cw_cast, cwSizes_cast] at h3
    exact h3
  have r2 := cwSizes_weighted (m := (m : ℝ)) hω ha1 ha2 (add_nonneg hΦ0 hE0) hμ0 hsR hμ i
  have r3 := cw_lipschitz (m := (m : ℝ)) hω ha1 ha2 hE0 hE (fun i => (F i : ℝ)) i
  have r4 := cw_truncation hω ha1 ha2 hf hTr0 hδ0 (t := t) (fun r hr0 hr1 => hδ (t + r) (by linarith) (by linarith)) i
  have r5 : (2⁻¹ : ℝ) ^ 500 ≤ posVel ω i * 2⁻¹ ^ 400 := by
    have h1 : (2⁻¹ : ℝ) ^ 100 ≤ posVel ω i := by
      have h1 : (2⁻¹ : ℝ) ^ 100 ≤ 1 := pow_le_one₀ (by norm_num) (by norm_num)
      fin_cases i <;> first | exact h1 | exact hω2
    calc (2⁻¹ : ℝ) ^ 500 = 2⁻¹ ^ 100 * 2⁻¹ ^ 400 := by rw [← pow_add]
      _ ≤ _ := mul_le_mul_of_nonneg_right h1 (by positivity)
  generalize cw (m : ℝ) n (fun i => (s i : ℝ)) (fun i => (F i : ℝ)) i = cs at r1 r3
  generalize cw (m : ℝ) n (f t) (fun i => (F i : ℝ)) i = cf at r3 r4
  generalize cwSizes (m : ℝ) n (fun i => (s i : ℝ)) (fun i => (F i : ℝ)) i = sz at r1 r2
  have r0 := hE i
  have rs := hsR i
  generalize posVel ω i = p at *
  have k1 : |(s' i : ℝ) - f (t + T) i| ≤ |(s' i : ℝ) - (s i + T * cs)| + |(s i : ℝ) - f t i| + T * |cs - cf| + |f (t + T) i - f t i - T * cf| := by
    have e : (s' i : ℝ) - f (t + T) i = ((s' i : ℝ) - (s i + T * cs)) + ((s i : ℝ) - f t i) + T * (cs - cf) + -(f (t + T) i - f t i - T * cf) := by ring
    rw [e]
    refine (abs_add_le _ _).trans (add_le_add ((abs_add_le _ _).trans (add_le_add (abs_add_le _ _) ?_)) (le_of_eq (abs_neg _)))
    rw [abs_mul, abs_of_nonneg hTr0]
  have k2 : T * |cs - cf| ≤ T * (p * (a * E)) := mul_le_mul_of_nonneg_left r3 hTr0
  have k3 : |(s i : ℝ)| + T * sz + 2⁻¹ ^ 500 ≤ p * (Φ + E) + T * (p * (a * (Φ + E) + μ)) + p * 2⁻¹ ^ 400 :=
    add_le_add (add_le_add rs (mul_le_mul_of_nonneg_left r2 hTr0)) r5
  have k4 : (2⁻¹ : ℝ) ^ 49 * (|(s i : ℝ)| + T * sz + 2⁻¹ ^ 500) ≤ 2⁻¹ ^ 49 * (p * (Φ + E) + T * (p * (a * (Φ + E) + μ)) + p * 2⁻¹ ^ 400) :=
    mul_le_mul_of_nonneg_left k3 (by positivity)
  have k5 : p * (a * δ * (T : ℝ) ^ 2) ≤ p * (a * δ * η * T) := by
    apply mul_le_mul_of_nonneg_left _ hp
    have : a * δ * T * (T : ℝ) ≤ a * δ * T * η := mul_le_mul_of_nonneg_left hTη (by positivity)
    nlinarith
  calc _ ≤ 2⁻¹ ^ 49 * (p * (Φ + E) + T * (p * (a * (Φ + E) + μ)) + p * 2⁻¹ ^ 400) + p * E + T * (p * (a * E)) + p * (a * δ * η * T) := by linarith
    _ = _ := by ring

/-- the accumulated error bound -/
theorem precision_run (hm : args.m = .fin m) (hn : args.n = .fin n) (h0 : newCwhSpacecraft env args = .ok e0)
    (hmeth : e0.dynamics.integrationMethod = "Euler") (hsamp : e0.dynamics.trajectorySamples ≤ 0) (hm1 : |m⁻¹| ≤ 2 ^ 200)
    (hn1 : |n| ≤ 2 ^ 200) (hF : ∀ i, F i = min (max (u i) (-1)) 1)
    (hω : 0 < ω) (hω2 : 2⁻¹ ^ 100 ≤ ω) (ha1 : ω ≤ a) (ha2 : 3 * (n : ℝ) ^ 2 + 2 * |(n : ℝ)| * ω ≤ a * ω) (hμ0 : 0 ≤ μ)
    (hμ : ∀ i, |(F i : ℝ) / m| ≤ ω * μ) (hΦ0 : 0 ≤ Φ) (hδ0 : 0 ≤ δ) (hη0 : 0 ≤ η)
    (hf : ∀ t, HasDerivAt f (cw (m : ℝ) n (f t) (fun i => (F i : ℝ))) t) (hΦ : ∀ t, 0 ≤ t → t ≤ Tmax → ∀ i, |f t i| ≤ posVel ω i * Φ)
    (hδ : ∀ t, 0 ≤ t → t ≤ Tmax → ∀ i, |cw (m : ℝ) n (f t) (fun i => (F i : ℝ)) i| ≤ posVel ω i * δ) :
    ∀ (hist : List (ℚ × Action (b64Of libm))), (∀ h ∈ hist, Asks env' e0 h.2 u ∧ 0 ≤ h.1 ∧ h.1 ≤ 2 ^ 200 ∧ (h.1 : ℝ) ≤ η) →
    ∀ (T N : ℝ), T = ((hist.map (·.1)).sum : ℚ) → N = hist.length →
    ∀ (s : Fin 6 → ℚ) (sd : Vec (b64Of libm)) (t E B : ℝ), 0 ≤ t → t + T ≤ Tmax → 0 ≤ E → (∀ i, |(s i : ℝ) - f t i| ≤ posVel ω i * E) →
    B = Real.exp (a * T + N * 2⁻¹ ^ 49) * (E + (2⁻¹ ^ 49 * ((N + a * T) * Φ + T * μ + N * 2⁻¹ ^ 400) + a * δ * η * T)) →
    (1 + ω) * (Φ + B) ≤ 2 ^ 200 →
    ∃ (s' : Fin 6 → ℚ) (sd' : Vec (b64Of libm)),
      Entity.run env' { e0 with state := toFl s, stateDot := sd } (stepsOf hist) = { e0 with state := toFl s', stateDot := sd' } ∧
      ∀ i, |(s' i : ℝ) - f (t + T) i| ≤ posVel ω i * B
  | [], _, T, N, hT, hN, s, sd, t, E, B, ht0, ht1, hE0, hE, hB, hbig => by
    refine ⟨s, sd, rfl, fun i => ?_⟩
    simp at hT hN
    subst hT hN
    rw [add_zero]
    have : B = E := by rw [hB]; simp
    rw [this]; exact hE i
  | h :: hist, hh, T, N, hT, hN, s, sd, t, E, B, ht0, ht1, hE0, hE, hB, hbig => by
    obtain ⟨g1, g2, g3, g4⟩ := hh h (by simp)
    have ha0 : 0 ≤ a := hω.le.trans ha1
    obtain ⟨h, act⟩ := h
    simp only at g1 g2 g3 g4
    have gr : (0 : ℝ) ≤ h := by exact_mod_cast g2
    -- the rest
    obtain ⟨T', hT'⟩ : ∃ T' : ℝ, T' = ((hist.map (·.1)).sum : ℚ) := ⟨_, rfl⟩
    obtain ⟨N', hN'⟩ : ∃ N' : ℝ, N' = hist.length := ⟨_, rfl⟩
    have eT : T = h + T' := by rw [hT, hT']; simp
    have eN : N = N' + 1 := by rw [hN, hN']; simp
    have hT'0 : 0 ≤ T' := by
      rw [hT']
      have : (0 : ℚ) ≤ (hist.map (·.1)).sum := List.sum_nonneg fun x hx => by
        obtain ⟨q, hq, rfl⟩ := List.mem_map.1 hx
        exact (hh q (by simp [hq])).2.1
      exact_mod_cast this
    have hN'0 : 0 ≤ N' := by rw [hN']; positivity
    obtain ⟨γ, hγ⟩ : ∃ γ : ℝ, γ = 2⁻¹ ^ 49 := ⟨_, rfl⟩
    have hγ0 : 0 ≤ γ := by rw [hγ]; positivity
    obtain ⟨θ, hθ⟩ : ∃ θ : ℝ, θ = 2⁻¹ ^ 400 := ⟨_, rfl⟩
    have hθ0 : 0 ≤ θ := by rw [hθ]; exact pow_nonneg (by norm_num) _
    rw [← hγ, ← hθ] at hB
    set c : ℝ := γ * ((1 + a * h) * Φ + h * μ + θ) + a * δ * η * h with hc
    set C : ℝ := γ * ((N' + a * T') * Φ + T' * μ + N' * θ) + a * δ * η * T' with hC
    have hc0 : 0 ≤ c := by rw [hc]; positivity
    have hC0 : 0 ≤ C := by rw [hC]; positivity
    have eB : B = Real.exp (a * T + N * γ) * (E + (c + C)) := by rw [hB, eT, eN, hc, hC]; congr 1; ring
    have eexp : Real.exp (a * T + N * γ) = Real.exp (a * T' + N' * γ) * Real.exp (a * h + γ) := by
      rw [← Real.exp_add, eT, eN]; congr 1; ring
    have x1 : 1 ≤ Real.exp (a * T' + N' * γ) := Real.one_le_exp (by positivity)
    have x2 : (1 + a * h) * (1 + γ) ≤ Real.exp (a * h + γ) := by
      rw [Real.exp_add]
      refine mul_le_mul ?_ ?_ (by positivity) (by positivity)
      · have := Real.add_one_le_exp (a * h); linarith
      · have := Real.add_one_le_exp γ; linarith
    have x3 : 1 ≤ Real.exp (a * h + γ) := Real.one_le_exp (by positivity)
    have hEB : E ≤ B := by
      rw [eB, eexp]
      have : 1 ≤ Real.exp (a * T' + N' * γ) * Real.exp (a * h + γ) := one_le_mul_of_one_le_of_one_le x1 x3
      nlinarith
    obtain ⟨s1, sd1, h1, h2⟩ := precision_step hm hn h0 hmeth hsamp hm1 hn1 hF hω hω2 ha1 ha2 hμ0 hμ hΦ0 hδ0 hf hΦ hδ (s := s) (sd := sd)
      g1 g2 g3 g4 ht0 (by rw [eT] at ht1; linarith) hE0 hE (le_trans (mul_le_mul_of_nonneg_left (by linarith) (by positivity)) hbig)
    rw [← hγ, ← hθ, ← hc] at h2
    set E1 : ℝ := (1 + a * h) * (1 + γ) * E + c with hE1
    have hE1B : Real.exp (a * T' + N' * γ) * (E1 + C) ≤ B := by
      rw [eB, eexp, mul_assoc]
      refine mul_le_mul_of_nonneg_left ?_ (by positivity)
      have y1 : (1 + a * h) * (1 + γ) * E ≤ Real.exp (a * h + γ) * E := mul_le_mul_of_nonneg_right x2 hE0
      have y2 : c + C ≤ Real.exp (a * h + γ) * (c + C) := le_mul_of_one_le_left (by positivity) x3
      rw [hE1, mul_add]; linarith
    obtain ⟨s', sd', h3, h4⟩ := precision_run hm hn h0 hmeth hsamp hm1 hn1 hF hω hω2 ha1 ha2 hμ0 hμ hΦ0 hδ0 hη0 hf hΦ hδ hist
      (fun q hq => hh q (by simp [hq])) T' N' hT' hN' s1 sd1 (t + h) E1 _ (by linarith) (by rw [eT] at ht1; linarith)
      (by rw [hE1]; positivity) h2 (by rw [← hγ, ← hθ]) (le_trans (mul_le_mul_of_nonneg_left (by linarith) (by positivity)) hbig)
    refine ⟨s', sd', ?_, fun i => ?_⟩
    · rw [stepsOf_cons, run_cons]
      simp only [Entity.op]
      rw [h1]; exact h3
    · have := h4 i
      rw [show t + h + T' = t + T by rw [eT]; ring] at this
      exact this.trans (mul_le_mul_of_nonneg_left hE1B (posVel_pos hω i).le)

end history

/-- A point-mass spacecraft stepped any number `N` of times with Euler, in IEEE double precision, with a constant requested thrust (however
expressed), against the exact solution `f` of the Clohessy-Wiltshire equations with that thrust, saturated, from the same state. If the exact
positions stay below `Φ`, the exact velocities below `ω Φ` and the acceleration by the thrust below `ω μ`, every step is at most `η` long and
`T` is the total time, then every step succeeds, no number overflows, and at the end the positions are off by at most `B` and the velocities by
at most `ω B`. The first summand of `B` is the effect of rounding, the second that of the method. `ω` is a free scale (such as `|n|`); `a`
bounds the rate of growth of differences. -/
theorem C85_thrust (libm : Fmt ℚ) (env env' : Env (b64Of libm)) (args : CwhArgs (b64Of libm)) (m n : ℚ) (hm : args.m = .fin m) (hn : args.n = .fin n)
    (e0 : Entity (b64Of libm)) (h0 : newCwhSpacecraft env args = .ok e0) (hmeth : e0.dynamics.integrationMethod = "Euler")
    (hsamp : e0.dynamics.trajectorySamples ≤ 0) (hm1 : |m⁻¹| ≤ 2 ^ 200) (hn1 : |n| ≤ 2 ^ 200)
    (s : Fin 6 → ℚ) (hist : List (ℚ × Action (b64Of libm))) (u F : Fin 3 → ℚ) (hF : ∀ i, F i = min (max (u i) (-1)) 1)
    (ω a μ Φ η T N B : ℝ) (hη : η ≤ 2 ^ 200) (hhist : ∀ h ∈ hist, Asks env' e0 h.2 u ∧ 0 ≤ h.1 ∧ (h.1 : ℝ) ≤ η)
    (hT : T = ((hist.map (·.1)).sum : ℚ)) (hN : N = hist.length)
    (hω : 2⁻¹ ^ 100 ≤ ω) (ha1 : ω ≤ a) (ha2 : 3 * (n : ℝ) ^ 2 + 2 * |(n : ℝ)| * ω ≤ a * ω)
    (f : ℝ → Fin 6 → ℝ) (hf0 : ∀ i, f 0 i = s i) (hf : ∀ t, HasDerivAt f (cw (m : ℝ) n (f t) (fun i => (F i : ℝ))) t)
    (hΦ : ∀ t, 0 ≤ t → t ≤ T → ∀ i, |f t i| ≤ posVel ω i * Φ) (hμ : ∀ i, |(F i : ℝ) / m| ≤ ω * μ)
    (hB : B = Real.exp (a * T + N * 2⁻¹ ^ 49) * (2⁻¹ ^ 49 * ((N + a * T) * Φ + T * μ + N * 2⁻¹ ^ 400) + a * (a * Φ + μ) * η * T))
    (hbig : (1 + ω) * (Φ + B) ≤ 2 ^ 200) :
    ∃ (s' : Fin 6 → ℚ) (sd : Vec (b64Of libm)), Entity.run env' { e0 with state := toFl s } (stepsOf hist) = { e0 with state := toFl s', stateDot := sd } ∧
      ∀ i, |(s' i : ℝ) - f T i| ≤ posVel ω i * B := by
  have hω0 : 0 < ω := lt_of_lt_of_le (pow_pos (by norm_num) _) hω
  have hT0 : 0 ≤ T := by
    rw [hT]
    have : (0 : ℚ) ≤ (hist.map (·.1)).sum := List.sum_nonneg fun x hx => by
      obtain ⟨q, hq, rfl⟩ := List.mem_map.1 hx
      exact (hhist q hq).2.1
    exact_mod_cast this
  have hΦ0 : 0 ≤ Φ := by
    have := (abs_nonneg _).trans (hΦ 0 le_rfl hT0 0)
    simpa [posVel] using this
  have hμ0 : 0 ≤ μ := by
    have := (abs_nonneg _).trans (hμ 0)
    exact nonneg_of_mul_nonneg_right this hω0
  have ha0 : 0 ≤ a := hω0.le.trans ha1
  cases hist with
  | nil =>
    refine ⟨s, e0.stateDot, rfl, fun i => ?_⟩
    simp at hT hN
    subst hT hN
    rw [hf0, hB]; simp
  | cons h0' rest =>
    have hη0 : 0 ≤ η := by
      have h1 := hhist h0' (by simp)
      have h2 : (0 : ℝ) ≤ h0'.1 := by exact_mod_cast h1.2.1
      exact h2.trans h1.2.2
    obtain ⟨s', sd', h1, h2⟩ := precision_run (Tmax := T) hm hn h0 hmeth hsamp hm1 hn1 hF hω0 hω ha1 ha2 hμ0 hμ hΦ0
      (δ := a * Φ + μ) (by positivity) hη0 hf hΦ
      (fun t ht0 ht1 i => (cw_le_sizes _ _ _ _ i).trans (cwSizes_weighted hω0 ha1 ha2 hΦ0 hμ0 (hΦ t ht0 ht1) hμ i)) (h0' :: rest)
      (fun h hh => ⟨(hhist h hh).1, (hhist h hh).2.1, by
        have := ((hhist h hh).2.2).trans hη
        exact_mod_cast this, (hhist h hh).2.2⟩) T N hT hN s e0.stateDot 0 0 B le_rfl (by simp) le_rfl (fun i => by simp [hf0])
      (by rw [hB, zero_add]) hbig
    rw [zero_add] at h2
    exact ⟨s', sd', h1, h2⟩

/-- Without thrust, with the scale `ω = |n|`: the distance of the simulated positions and velocities from the textbook closed-form solution. The
errors grow with `exp (5 |n| T)`, where `|n| T` is the angle travelled by the reference orbit. -/
theorem C85_coasting (libm : Fmt ℚ) (env env' : Env (b64Of libm)) (args : CwhArgs (b64Of libm)) (m n : ℚ) (hm : args.m = .fin m) (hn : args.n = .fin n)
    (e0 : Entity (b64Of libm)) (h0 : newCwhSpacecraft env args = .ok e0) (hmeth : e0.dynamics.integrationMethod = "Euler")
    (hsamp : e0.dynamics.trajectorySamples ≤ 0) (hm1 : |m⁻¹| ≤ 2 ^ 200) (hn1 : |n| ≤ 2 ^ 200) (hn2 : 2⁻¹ ^ 100 ≤ |n|)
    (s : Fin 6 → ℚ) (hist : List (ℚ × Action (b64Of libm))) (Φ η T N B : ℝ) (hη : η ≤ 2 ^ 200)
    (hhist : ∀ h ∈ hist, Asks env' e0 h.2 (0 : Fin 3 → ℚ) ∧ 0 ≤ h.1 ∧ (h.1 : ℝ) ≤ η)
    (hT : T = ((hist.map (·.1)).sum : ℚ)) (hN : N = hist.length)
    (hΦ : ∀ t, 0 ≤ t → t ≤ T → ∀ i, |cwSolution n (fun i => (s i : ℝ)) t i| ≤ posVel |(n : ℝ)| i * Φ)
    (hB : B = Real.exp (5 * |(n : ℝ)| * T + N * 2⁻¹ ^ 49) *
      (2⁻¹ ^ 49 * ((N + 5 * |(n : ℝ)| * T) * Φ + N * 2⁻¹ ^ 400) + 25 * (n : ℝ) ^ 2 * Φ * η * T))
    (hbig : (1 + |(n : ℝ)|) * (Φ + B) ≤ 2 ^ 200) :
    ∃ (s' : Fin 6 → ℚ) (sd : Vec (b64Of libm)), Entity.run env' { e0 with state := toFl s } (stepsOf hist) = { e0 with state := toFl s', stateDot := sd } ∧
      ∀ i, |(s' i : ℝ) - cwSolution n (fun i => (s i : ℝ)) T i| ≤ posVel |(n : ℝ)| i * B := by
  have hnr : (2⁻¹ : ℝ) ^ 100 ≤ |(n : ℝ)| := by
    have : ((2⁻¹ ^ 100 : ℚ) : ℝ) ≤ ((|n| : ℚ) : ℝ) := Rat.cast_le.2 hn2
    push_cast at this
    exact this
  have hn0 : (n : ℝ) ≠ 0 := abs_pos.1 (lt_of_lt_of_le (pow_pos (by norm_num) _) hnr)
  refine C85_thrust libm env env' args m n hm hn e0 h0 hmeth hsamp hm1 hn1 s hist 0 0 (fun i => by simp) |(n : ℝ)| (5 * |(n : ℝ)|) 0 Φ η T N B hη hhist
    hT hN hnr (by have := abs_nonneg (n : ℝ); linarith) ?_ (cwSolution n fun i => (s i : ℝ)) (fun i => by rw [cwSolution_zero]) (fun t => ?_) hΦ
    (fun i => by simp) ?_ hbig
  · rw [show 2 * |(n : ℝ)| * |(n : ℝ)| = 2 * (|(n : ℝ)| * |(n : ℝ)|) by ring, show 5 * |(n : ℝ)| * |(n : ℝ)| = 5 * (|(n : ℝ)| * |(n : ℝ)|) by ring, ← abs_mul,
      ← sq, abs_of_nonneg (sq_nonneg _)]
    linarith [sq_nonneg (n : ℝ)]
  · have := cwSolution_deriv n hn0 m (fun i => (s i : ℝ)) t
    refine this.congr_deriv ?_
    congr 1
    funext i
    simp
  · rw [hB]
    congr 1
    have : (n : ℝ) ^ 2 = |(n : ℝ)| * |(n : ℝ)| := by rw [← abs_mul, ← sq, abs_of_nonneg (sq_nonneg _)]
    rw [this]
    ring

/-- A spacecraft at rest 100 m off the orbital plane, stepped twice by half a second, meets the hypotheses. -/
example (libm : Fmt ℚ) (env : Env (b64Of libm)) : ∃ e0 : Entity (b64Of libm),
    newCwhSpacecraft env { m := .fin 12, n := .fin (1 / 1024), integrationMethod := "Euler", kwargs := [("name", .str "deputy")] } = .ok e0 ∧
    e0.dynamics.integrationMethod = "Euler" ∧ e0.dynamics.trajectorySamples ≤ 0 ∧
    (∀ h ∈ ([(1 / 2, .none), (1 / 2, .none)] : List (ℚ × Action (b64Of libm))), Asks env e0 h.2 (0 : Fin 3 → ℚ) ∧ 0 ≤ h.1 ∧ (h.1 : ℝ) ≤ 1 / 2) ∧
    ∀ t, ∀ i, |cwSolution (1 / 1024 : ℚ) (fun i => ((![0, 0, 100, 0, 0, 0] : Fin 6 → ℚ) i : ℝ)) t i| ≤ posVel |((1 / 1024 : ℚ) : ℝ)| i * 100 := by
  have h : abstractMethods mroCWHSpacecraft = [] := by decide
  obtain ⟨e0, h0⟩ : ∃ e0 : Entity (b64Of libm),
      newCwhSpacecraft env { m := .fin 12, n := .fin (1 / 1024), integrationMethod := "Euler", kwargs := [("name", .str "deputy")] } = .ok e0 := by
    simp only [newCwhSpacecraft, instantiate, h, if_true, initCwhSpacecraft, mkCwhDynamics, generateCwhMatrices]
    simp [pyDiv, Fl.eqb, bind, Except.bind, mkLinearDyn, mkOdeDyn, linearShapeCheck, pure, Except.pure, baseInit, validate, lookup, fieldValues,
      cwhFields, buildState, Config.get]
  obtain ⟨p1, p2, p3⟩ := cwhSpacecraft_method h0
  simp only [Option.some.injEq] at p1 p2
  refine ⟨e0, h0, p1, p2.le, ?_, ?_⟩
  · intro h hh
    simp at hh
    subst hh
    exact ⟨⟨.f64, resolve_iff.1 (by simp [Entity.resolve, toFl, List.ofFn_succ, p3])⟩, by norm_num, by norm_num⟩
  · intro t i
    have hs := Real.abs_sin_le_one (((1 / 1024 : ℚ) : ℝ) * t)
    have hc := Real.abs_cos_le_one (((1 / 1024 : ℚ) : ℝ) * t)
    push_cast at hs hc ⊢
    fin_cases i <;> simp [cwSolution, posVel, abs_mul] at hs hc ⊢
    · linarith
    · linarith

end SAD
