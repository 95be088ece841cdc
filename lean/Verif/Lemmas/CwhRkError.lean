import Verif.Lemmas.RoundCwhB64

/-! # Dormand-Prince on the Clohessy-Wiltshire equations, in weighted norms, and casts from the rationals -/

set_option linter.unusedSectionVars false

namespace SAD
open Spec

/-! ### casts -/

section cast
variable {n : ℕ}

/-- a rational vector as a real vector -/
def castV (v : Fin n → ℚ) : Fin n → ℝ := fun i => (v i : ℝ)

def KTab.cast (tab : KTab ℚ) : KTab ℝ := ⟨tab.stages.map (fun p => ((p.1 : ℝ), p.2.map (fun c : ℚ => (c : ℝ)))), tab.b.map (fun c : ℚ => (c : ℝ))⟩

theorem combo_cast (row : List ℚ) (ks : List (Fin n → ℚ)) : castV (combo row ks) = combo (row.map (fun c : ℚ => (c : ℝ))) (ks.map castV) := by
  rw [combo_eq, combo_eq]
  induction row generalizing ks with
  | nil => funext i; simp [castV]
  | cons r row ih =>
    cases ks with
    | nil => funext i; simp [castV]
    | cons k ks =>
      have := ih ks
      simp only [List.zip_cons_cons, List.map_cons, List.sum_cons] at this ⊢
      rw [← this]
      funext i
      simp [castV]

theorem rkStages_cast {F : ℚ → (Fin n → ℚ) → Fin n → ℚ} {G : ℝ → (Fin n → ℝ) → Fin n → ℝ} (hFG : ∀ t y, castV (F t y) = G t (castV y)) (t h : ℚ)
    (y : Fin n → ℚ) (st : List (ℚ × List ℚ)) (ks : List (Fin n → ℚ)) :
    (rkStages F t h y st ks).map castV =
      rkStages G t h (castV y) (st.map (fun p => ((p.1 : ℝ), p.2.map (fun c : ℚ => (c : ℝ))))) (ks.map castV) := by
  induction st generalizing ks with
  | nil => rfl
  | cons p st ih =>
    obtain ⟨c, row⟩ := p
    simp only [rkStages, List.map_cons]
    rw [ih]
    simp only [List.map_append, List.map_cons, List.map_nil, hFG]
    congr 4
    · push_cast; rfl
    · rw [← combo_cast]
      funext i
      simp [castV]

theorem rkStep_cast (tab : KTab ℚ) {F : ℚ → (Fin n → ℚ) → Fin n → ℚ} {G : ℝ → (Fin n → ℝ) → Fin n → ℝ} (hFG : ∀ t y, castV (F t y) = G t (castV y))
    (t h : ℚ) (y : Fin n → ℚ) : castV (rkStep tab F t h y) = rkStep tab.cast G t h (castV y) := by
  simp only [rkStep, KTab.cast]
  have := rkStages_cast hFG t h y tab.stages [F t y]
  simp only [List.map_cons, List.map_nil, hFG] at this
  rw [← this, ← combo_cast]
  funext i
  simp [castV]

theorem kdopri_cast : (kdopri : KTab ℚ).cast = kdopri := by
  simp [KTab.cast, kdopri]

end cast

/-! ### weighted norm -/

section weighted
variable {ω a m n : ℝ}

theorem cw_add_zero (v v' : Fin 6 → ℝ) : cw m n (v + v') 0 = cw m n v 0 + cw m n v' 0 := by
  funext i; fin_cases i <;> simp [cw] <;> ring

theorem cw_smul_zero (c : ℝ) (v : Fin 6 → ℝ) : cw m n (c • v) 0 = c • cw m n v 0 := by
  funext i; fin_cases i <;> simp [cw] <;> ring

/-- the homogeneous equations in units of `posVel ω` -/
noncomputable def cwScaled (m n ω : ℝ) : (Fin 6 → ℝ) →L[ℝ] (Fin 6 → ℝ) :=
  LinearMap.toContinuousLinearMap
    { toFun := fun v i => cw m n (fun j => posVel ω j * v j) 0 i / posVel ω i
      map_add' := fun v v' => by
        funext i
        have : (fun j => posVel ω j * (v + v') j) = (fun j => posVel ω j * v j) + fun j => posVel ω j * v' j := by funext j; simp [mul_add]
        rw [this, cw_add_zero]
        simp [add_div]
      map_smul' := fun c v => by
        funext i
        have : (fun j => posVel ω j * (c • v) j) = c • fun j => posVel ω j * v j := by funext j; simp; ring
        rw [this, cw_smul_zero]
        simp [mul_div_assoc] }

theorem cwScaled_apply (m n ω : ℝ) (v : Fin 6 → ℝ) (i : Fin 6) : cwScaled m n ω v i = cw m n (fun j => posVel ω j * v j) 0 i / posVel ω i := rfl

theorem cwScaled_norm (hω : 0 < ω) (ha1 : ω ≤ a) (ha2 : 3 * n ^ 2 + 2 * |n| * ω ≤ a * ω) (v : Fin 6 → ℝ) : ‖cwScaled m n ω v‖ ≤ a * ‖v‖ := by
  have ha : 0 ≤ a := hω.le.trans ha1
  rw [pi_norm_le_iff_of_nonneg (by positivity)]
  intro i
  rw [cwScaled_apply, Real.norm_eq_abs, abs_div, abs_of_pos (posVel_pos hω i), div_le_iff₀ (posVel_pos hω i)]
  have := (cw_le_sizes m n (fun j => posVel ω j * v j) 0 i).trans (cwSizes_weighted (m := m) hω ha1 ha2 (norm_nonneg v) (le_refl (0 : ℝ))
    (fun j => by rw [abs_mul, abs_of_pos (posVel_pos hω j)]; exact mul_le_mul_of_nonneg_left (norm_le_pi_norm v j) (posVel_pos hω j).le)
    (F := 0) (by simp) i)
  simpa [mul_comm] using this

theorem cw_split (v : Fin 6 → ℝ) (F : Fin 3 → ℝ) (i : Fin 6) : cw m n v F i = cw m n v 0 i + cw m n 0 F i := by
  fin_cases i <;> simp [cw]

/-- division by the weights -/
noncomputable def unweight (ω : ℝ) : (Fin 6 → ℝ) →ₗ[ℝ] (Fin 6 → ℝ) where
  toFun := fun v i => v i / posVel ω i
  map_add' := fun v v' => by funext i; simp [add_div]
  map_smul' := fun c v => by funext i; simp [mul_div_assoc]

theorem unweight_cw (hω : 0 < ω) (F : Fin 3 → ℝ) (v : Fin 6 → ℝ) :
    unweight ω (cw m n v F) = cwScaled m n ω (unweight ω v) + fun i => cw m n 0 F i / posVel ω i := by
  funext i
  have : (fun j => posVel ω j * (unweight ω v) j) = v := by
    funext j
    show posVel ω j * (v j / posVel ω j) = v j
    rw [mul_div_cancel₀ _ (posVel_pos hω j).ne']
  show cw m n v F i / posVel ω i = cwScaled m n ω (unweight ω v) i + cw m n 0 F i / posVel ω i
  rw [cwScaled_apply, this, ← add_div, ← cw_split]

theorem weighted_norm (hω : 0 < ω) {v : Fin 6 → ℝ} {E : ℝ} (hE : 0 ≤ E) : ‖unweight ω v‖ ≤ E ↔ ∀ i, |v i| ≤ posVel ω i * E := by
  rw [pi_norm_le_iff_of_nonneg hE]
  refine forall_congr' fun i => ?_
  show |v i / posVel ω i| ≤ E ↔ _
  rw [abs_div, abs_of_pos (posVel_pos hω i), div_le_iff₀ (posVel_pos hω i), mul_comm]

/-- a step of Dormand-Prince against the exact solution -/
theorem cw_rk_error (hω : 0 < ω) (ha1 : ω ≤ a) (ha2 : 3 * n ^ 2 + 2 * |n| * ω ≤ a * ω) {f : ℝ → Fin 6 → ℝ} {F : Fin 3 → ℝ}
    (hf : ∀ t, HasDerivAt f (cw m n (f t) F) t) {t h δ E : ℝ} (hh : 0 ≤ h) (hδ0 : 0 ≤ δ)
    (hδ : ∀ s, 0 ≤ s → s ≤ h → ∀ i, |cw m n (f (t + s)) F i| ≤ posVel ω i * δ) (hE0 : 0 ≤ E) {y : Fin 6 → ℝ}
    (hE : ∀ i, |y i - f t i| ≤ posVel ω i * E) (i : Fin 6) :
    |rkStep kdopri (fun _ y => cw m n y F) 0 h y i - f (t + h) i| ≤ posVel ω i * (Real.exp (2 * (a * h)) * E + 2 * a ^ 5 * δ * h ^ 6) := by
  have ha0 : 0 ≤ a := hω.le.trans ha1
  have hA := cwScaled_norm (m := m) hω ha1 ha2
  have hmap : ∀ (t : ℝ) y, unweight ω ((fun (_ : ℝ) y => cw m n y F) t y) =
      (fun (_ : ℝ) y => cwScaled m n ω y + fun i => cw m n 0 F i / posVel ω i) t (unweight ω y) := fun _ y => unweight_cw hω F y
  have hf' : ∀ t, HasDerivAt (fun t => unweight ω (f t)) (cwScaled m n ω (unweight ω (f t)) + fun i => cw m n 0 F i / posVel ω i) t := fun t => by
    rw [← unweight_cw hω]
    refine hasDerivAt_pi.2 fun j => ?_
    exact (hasDerivAt_pi.1 (hf t) j).div_const _
  have g := kdopri_taylor.growth (by norm_num) (by norm_num [Nat.factorial]) ha0 hA (fun i => cw m n 0 F i / posVel ω i) 0 hh (unweight ω y) (unweight ω (f t))
  have l := kdopri_taylor.local (by norm_num) (by norm_num) ha0 hA hf' (M := δ) (t := t) hh (fun s h0 h1 => by
    rw [← unweight_cw hω]
    exact (weighted_norm hω hδ0).2 (hδ s h0 h1)) 0
  have hy : ‖unweight ω y - unweight ω (f t)‖ ≤ E := by
    rw [← map_sub]
    exact (weighted_norm hω hE0).2 hE
  have key : ‖unweight ω (rkStep kdopri (fun _ y => cw m n y F) 0 h y - f (t + h))‖ ≤ Real.exp (2 * (a * h)) * E + 2 * a ^ 5 * δ * h ^ 6 := by
    rw [map_sub, rkStep_map kdopri (unweight ω) (fun _ y => cw m n y F) (fun _ y => cwScaled m n ω y + fun i => cw m n 0 F i / posVel ω i) hmap]
    refine (norm_sub_le_norm_sub_add_norm_sub _ (rkStep kdopri (fun _ y => cwScaled m n ω y + fun i => cw m n 0 F i / posVel ω i) 0 h (unweight ω (f t))) _).trans ?_
    exact add_le_add (g.trans (mul_le_mul_of_nonneg_left hy (Real.exp_pos _).le)) l
  exact (weighted_norm hω (by positivity)).1 key i

end weighted

/-! ### accumulation -/

/-- amplification over a time `T` and `N` steps with error rates `p` per unit of time and `q` per step -/
noncomputable def grow (b c p q T N E : ℝ) : ℝ := Real.exp (b * T + c * N) * (E + p * T + q * N)

section grow
variable {b c p q T N E : ℝ}

theorem grow_zero : grow b c p q 0 0 E = E := by simp [grow]

theorem grow_nonneg (hp : 0 ≤ p) (hq : 0 ≤ q) (hT : 0 ≤ T) (hN : 0 ≤ N) (hE : 0 ≤ E) : 0 ≤ grow b c p q T N E := by
  unfold grow; positivity

theorem grow_mono (hb : 0 ≤ b) (hc : 0 ≤ c) (hp : 0 ≤ p) (hq : 0 ≤ q) {T' N' E' : ℝ} (hT : 0 ≤ T) (hN : 0 ≤ N) (hE : 0 ≤ E) (hT' : T ≤ T') (hN' : N ≤ N')
    (hE' : E ≤ E') : grow b c p q T N E ≤ grow b c p q T' N' E' := by
  unfold grow
  gcongr

theorem le_grow (hb : 0 ≤ b) (hc : 0 ≤ c) (hp : 0 ≤ p) (hq : 0 ≤ q) (hT : 0 ≤ T) (hN : 0 ≤ N) (hE : 0 ≤ E) : E ≤ grow b c p q T N E := by
  have := grow_mono hb hc hp hq le_rfl le_rfl hE hT hN le_rfl
  rwa [grow_zero] at this

theorem grow_comp (hb : 0 ≤ b) (hc : 0 ≤ c) (hp : 0 ≤ p) (hq : 0 ≤ q) {T' N' : ℝ} (hT : 0 ≤ T) (hN : 0 ≤ N) (hT' : 0 ≤ T') (hN' : 0 ≤ N') :
    grow b c p q T' N' (grow b c p q T N E) ≤ grow b c p q (T + T') (N + N') E := by
  unfold grow
  have e : Real.exp (b * (T + T') + c * (N + N')) = Real.exp (b * T' + c * N') * Real.exp (b * T + c * N) := by
    rw [← Real.exp_add]; congr 1; ring
  rw [e, mul_assoc]
  refine mul_le_mul_of_nonneg_left ?_ (Real.exp_pos _).le
  have h1 : 1 ≤ Real.exp (b * T + c * N) := Real.one_le_exp (by positivity)
  have h2 : 0 ≤ p * T' + q * N' := by positivity
  nlinarith [mul_le_mul_of_nonneg_right h1 h2]

theorem grow_step (hb : 0 ≤ b) (hc : 0 ≤ c) (hp : 0 ≤ p) (hq : 0 ≤ q) (hT : 0 ≤ T) (hE : 0 ≤ E) :
    Real.exp (b * T) * (1 + c) * E + p * T + q ≤ grow b c p q T 1 E := by
  unfold grow
  rw [Real.exp_add, mul_one, mul_one]
  have h1 : 1 ≤ Real.exp (b * T) := Real.one_le_exp (by positivity)
  have h2 : 1 + c ≤ Real.exp c := by have := Real.add_one_le_exp c; linarith
  have h3 : 1 ≤ Real.exp (b * T) * Real.exp c := one_le_mul_of_one_le_of_one_le h1 (by linarith)
  have h4 : Real.exp (b * T) * (1 + c) * E ≤ Real.exp (b * T) * Real.exp c * E := by gcongr
  have h5 : 0 ≤ p * T + q := by positivity
  nlinarith [mul_le_mul_of_nonneg_right h3 h5]

end grow

end SAD
