import Verif.Lemmas.SciPyReal
import Mathlib.Analysis.Normed.Group.Constructions
import Mathlib.Analysis.Normed.Module.Basic

/-! # SciPy's RK45 comes to an end when the integration is confined, as it is if the derivative grows at most linearly -/

set_option linter.unusedSectionVars false

namespace SAD
open Spec

/-! ### bounds on a step -/

section bounds
variable {n : Nat} {F : ℝ → (Fin n → ℝ) → (Fin n → ℝ)} {S : (Fin n → ℝ) → Prop} {D : Submodule ℝ (Fin n → ℝ)}

/-- the derivative grows at most linearly with the state -/
def Growth (F : ℝ → (Fin n → ℝ) → (Fin n → ℝ)) (S : (Fin n → ℝ) → Prop) (a b : ℝ) : Prop :=
  0 ≤ a ∧ 0 ≤ b ∧ ∀ t y, S y → ‖F t y‖ ≤ a * ‖y‖ + b

theorem combo_norm (row : List ℝ) (ks : List (Fin n → ℝ)) (c : ℝ) (hc : 0 ≤ c) (h : ∀ k ∈ ks, ‖k‖ ≤ c) :
    ‖combo row ks‖ ≤ (row.map (|·|)).sum * c := by
  rw [combo_eq]
  induction row generalizing ks with
  | nil => simp
  | cons r row ih =>
    cases ks with
    | nil =>
      simp only [List.zip_nil_right, List.map_nil, List.sum_nil, norm_zero]
      apply mul_nonneg _ hc
      apply List.sum_nonneg
      intro x hx
      obtain ⟨z, -, rfl⟩ := List.mem_map.1 hx
      exact abs_nonneg z
    | cons k ks =>
      simp only [List.zip_cons_cons, List.map_cons, List.sum_cons]
      have h1 := ih ks (fun k' hk' => h k' (by simp [hk']))
      have h2 : ‖r • k‖ ≤ |r| * c := by
        rw [norm_smul, Real.norm_eq_abs]
        exact mul_le_mul_of_nonneg_left (h k (by simp)) (abs_nonneg r)
      calc ‖r • k + _‖ ≤ ‖r • k‖ + _ := norm_add_le _ _
        _ ≤ |r| * c + (row.map (|·|)).sum * c := add_le_add h2 h1
        _ = _ := by ring

theorem stage_norm {a b : ℝ} (hg : Growth F S a b) (hst : Stable F S D) {h H : ℝ} (hh : |h| ≤ H) {y : Fin n → ℝ} (hy : S y) (t : ℝ)
    {row : List ℝ} (hr : (row.map (|·|)).sum ≤ 30) {ks : List (Fin n → ℝ)} {c : ℝ} (hc : 1 ≤ c)
    (hk : ∀ k ∈ ks, k ∈ D ∧ ‖k‖ ≤ c * (a * ‖y‖ + b)) :
    F t (y + h • combo row ks) ∈ D ∧ ‖F t (y + h • combo row ks)‖ ≤ (1 + 30 * a * H) * c * (a * ‖y‖ + b) := by
  obtain ⟨ha, hb, hF⟩ := hg
  have hS : S (y + h • combo row ks) := hst.move _ _ hy (D.smul_mem _ (combo_mem D row ks fun k hk' => (hk k hk').1))
  refine ⟨hst.field _ _ hS, ?_⟩
  have hG : 0 ≤ a * ‖y‖ + b := by positivity
  have hcG : 0 ≤ c * (a * ‖y‖ + b) := by positivity
  have hH : 0 ≤ H := (abs_nonneg h).trans hh
  have h1 := combo_norm row ks _ hcG (fun k hk' => (hk k hk').2)
  have h2 : ‖h • combo row ks‖ ≤ H * (30 * (c * (a * ‖y‖ + b))) := by
    rw [norm_smul, Real.norm_eq_abs]
    apply mul_le_mul hh (h1.trans (mul_le_mul_of_nonneg_right hr hcG)) (norm_nonneg _) hH
  have h3 : ‖y + h • combo row ks‖ ≤ ‖y‖ + H * (30 * (c * (a * ‖y‖ + b))) := (norm_add_le _ _).trans (by linarith)
  calc ‖F t (y + h • combo row ks)‖ ≤ a * ‖y + h • combo row ks‖ + b := hF _ _ hS
    _ ≤ a * (‖y‖ + H * (30 * (c * (a * ‖y‖ + b)))) + b := by linarith [mul_le_mul_of_nonneg_left h3 ha]
    _ = (a * ‖y‖ + b) + 30 * a * H * c * (a * ‖y‖ + b) := by ring
    _ ≤ c * (a * ‖y‖ + b) + 30 * a * H * c * (a * ‖y‖ + b) := by linarith [mul_le_mul_of_nonneg_right hc hG]
    _ = _ := by ring

theorem stages_norm {a b : ℝ} (hg : Growth F S a b) (hst : Stable F S D) {h H : ℝ} (hh : |h| ≤ H) {y : Fin n → ℝ} (hy : S y) (t : ℝ) :
    ∀ (st : List (ℝ × List ℝ)) (ks : List (Fin n → ℝ)) (c : ℝ), (∀ p ∈ st, (p.2.map (|·|)).sum ≤ 30) → 1 ≤ c →
      (∀ k ∈ ks, k ∈ D ∧ ‖k‖ ≤ c * (a * ‖y‖ + b)) →
      ∀ k ∈ rkStages F t h y st ks, k ∈ D ∧ ‖k‖ ≤ (1 + 30 * a * H) ^ st.length * c * (a * ‖y‖ + b)
  | [], ks, c, _, _, hk => by simpa [rkStages] using hk
  | (q, row) :: st, ks, c, hr, hc, hk => by
    have hH : 0 ≤ H := (abs_nonneg h).trans hh
    have ha := hg.1
    have hb := hg.2.1
    have hG : 0 ≤ a * ‖y‖ + b := by positivity
    have h1 : 1 ≤ 1 + 30 * a * H := by have : 0 ≤ 30 * a * H := by positivity
                                       linarith
    have hn := stage_norm hg hst hh hy (t + q * h) (hr (q, row) (by simp)) hc hk
    simp only [rkStages]
    have := stages_norm hg hst hh hy t st (ks ++ [F (t + q * h) (y + h • combo row ks)]) ((1 + 30 * a * H) * c)
      (fun p hp => hr p (by simp [hp])) (one_le_mul_of_one_le_of_one_le h1 hc) (by
        intro k hk'
        rcases List.mem_append.1 hk' with hk' | hk'
        · refine ⟨(hk k hk').1, (hk k hk').2.trans ?_⟩
          rw [mul_assoc (1 + 30 * a * H)]
          exact le_mul_of_one_le_left (by positivity) h1
        · simp at hk'; subst hk'; exact hn)
    intro k hk'
    refine ⟨(this k hk').1, (this k hk').2.trans (le_of_eq ?_)⟩
    rw [List.length_cons, pow_succ]
    ring

theorem rows30 : ∀ p ∈ (kdopri : KTab ℝ).stages, (p.2.map (|·|)).sum ≤ 30 := by
  intro p hp
  simp only [kdopri, List.mem_cons, List.not_mem_nil, or_false] at hp
  rcases hp with rfl | rfl | rfl | rfl | rfl <;>
    simp only [List.map_cons, List.map_nil, List.sum_cons, List.sum_nil] <;> norm_num [abs_of_pos, abs_of_neg, abs_div]

theorem b30 : ((kdopri : KTab ℝ).b.map (|·|)).sum ≤ 30 := by
  simp only [kdopri, List.map_cons, List.map_nil, List.sum_cons, List.sum_nil]
  norm_num [abs_of_pos, abs_of_neg, abs_div]

theorem e1 : ((kdopriE : List ℝ).map (|·|)).sum ≤ 1 := by
  simp only [kdopriE, List.map_cons, List.map_nil, List.sum_cons, List.sum_nil]
  norm_num [abs_of_pos, abs_of_neg, abs_div]

/-- the size of the rows and of the new state -/
theorem krows_norm {a b : ℝ} (hg : Growth F S a b) (hst : Stable F S D) {h H : ℝ} (hh : |h| ≤ H) {y : Fin n → ℝ} (hy : S y) (t : ℝ) :
    (∀ k ∈ krows F t h y, ‖k‖ ≤ (1 + 30 * a * H) ^ 6 * (a * ‖y‖ + b)) ∧
    ‖rkStep kdopri F t h y‖ ≤ ‖y‖ + |h| * (30 * ((1 + 30 * a * H) ^ 6 * (a * ‖y‖ + b))) := by
  have hH : 0 ≤ H := (abs_nonneg h).trans hh
  have ha := hg.1
  have hb := hg.2.1
  have hG : 0 ≤ a * ‖y‖ + b := by positivity
  have h1 : 1 ≤ 1 + 30 * a * H := by have : 0 ≤ 30 * a * H := by positivity
                                     linarith
  have hs := stages_norm hg hst hh hy t (kdopri : KTab ℝ).stages [F t y] 1 rows30 le_rfl (by
    intro k hk; simp at hk; subst hk; exact ⟨hst.field _ _ hy, by rw [one_mul]; exact hg.2.2 t y hy⟩)
  have hlen : (kdopri : KTab ℝ).stages.length = 5 := rfl
  rw [hlen, mul_one] at hs
  have h5 : (1 + 30 * a * H) ^ 5 * (a * ‖y‖ + b) ≤ (1 + 30 * a * H) ^ 6 * (a * ‖y‖ + b) :=
    mul_le_mul_of_nonneg_right (pow_le_pow_right₀ h1 (by norm_num)) hG
  have h6 := stage_norm hg hst hh hy (t + h) b30 (one_le_pow₀ h1 (n := 5)) hs
  have e : (1 + 30 * a * H) * (1 + 30 * a * H) ^ 5 = (1 + 30 * a * H) ^ 6 := by ring
  rw [e] at h6
  constructor
  · intro k hk
    rcases List.mem_append.1 hk with hk | hk
    · exact (hs k hk).2.trans h5
    · simp at hk; subst hk; exact h6.2
  · have h7 := combo_norm (kdopri : KTab ℝ).b _ _ (by positivity) (fun k hk => (hs k hk).2.trans h5)
    unfold rkStep
    refine (norm_add_le _ _).trans ?_
    rw [norm_smul, Real.norm_eq_abs]
    have := mul_le_mul_of_nonneg_left (h7.trans (mul_le_mul_of_nonneg_right b30 (by positivity))) (abs_nonneg h)
    linarith

/-- the norm of the estimated error over the real numbers -/
noncomputable def kerrNorm (F : ℝ → (Fin n → ℝ) → (Fin n → ℝ)) (t h : ℝ) (y : Fin n → ℝ) : ℝ :=
  Real.sqrt (ksq (kerr y (rkStep kdopri F t h y) (krows F t h y) h) / n)

/-- While the rest of the integration, of duration `r`, is confined to `P r`, the slopes of a step are bounded by `G`. -/
def Confined (F : ℝ → (Fin n → ℝ) → (Fin n → ℝ)) (G : ℝ) (P : ℝ → (Fin n → ℝ) → Prop) : Prop :=
  0 ≤ G ∧ ∀ r y, P r y → ∀ t h, |h| ≤ r → (∀ k ∈ krows F t h y, ‖k‖ ≤ G) ∧ P (r - |h|) (rkStep kdopri F t h y)

/-- a derivative of linear growth confines every integration of bounded duration -/
theorem Growth.confined {a b : ℝ} (hg : Growth F S a b) (hst : Stable F S D) (H : ℝ) (hH : 0 ≤ H) {y : Fin n → ℝ} (hy : S y) :
    ∃ G P, Confined F G P ∧ P H y := by
  have ha := hg.1
  have hb := hg.2.1
  obtain ⟨C, hC⟩ : ∃ C, C = (1 + 30 * a * H) ^ 6 := ⟨_, rfl⟩
  have hC0 : 0 ≤ C := by rw [hC]; positivity
  obtain ⟨W, hW⟩ : ∃ W, W = (‖y‖ + 1) * Real.exp (30 * (C * (a + b)) * H) := ⟨_, rfl⟩
  have hW0 : 0 < W := by rw [hW]; positivity
  refine ⟨C * ((a + b) * W), fun r z => S z ∧ r ≤ H ∧ (‖z‖ + 1) * Real.exp (30 * (C * (a + b)) * r) ≤ W, ⟨by positivity, ?_⟩, hy, le_rfl, hW.ge⟩
  rintro r z ⟨hz, hr, hzW⟩ t h hh
  have hr0 : 0 ≤ r := (abs_nonneg h).trans hh
  have hexp : 1 ≤ Real.exp (30 * (C * (a + b)) * r) := Real.one_le_exp (by positivity)
  have hzW' : ‖z‖ + 1 ≤ W := le_trans (le_mul_of_one_le_right (by positivity) hexp) hzW
  have hG : a * ‖z‖ + b ≤ (a + b) * (‖z‖ + 1) := by
    have := norm_nonneg z
    nlinarith
  obtain ⟨h1, h2⟩ := krows_norm hg hst (hh.trans hr) hz t
  rw [← hC] at h1 h2
  refine ⟨fun k hk => (h1 k hk).trans ?_, by simpa only [rkChain] using rkChain_inv kdopri F S D hst.field hst.move t z [h] hz, by linarith [abs_nonneg h], ?_⟩
  · exact mul_le_mul_of_nonneg_left (hG.trans (mul_le_mul_of_nonneg_left hzW' (by positivity))) hC0
  · have hgrow : ‖rkStep kdopri F t h z‖ + 1 ≤ (‖z‖ + 1) * Real.exp (30 * (C * (a + b)) * |h|) := by
      have h5 : 30 * (C * (a + b)) * |h| + 1 ≤ Real.exp (30 * (C * (a + b)) * |h|) := Real.add_one_le_exp _
      have h6 := mul_le_mul_of_nonneg_left h5 (by positivity : 0 ≤ ‖z‖ + 1)
      have h7 := mul_le_mul_of_nonneg_left (mul_le_mul_of_nonneg_left hG hC0) (by positivity : 0 ≤ 30 * |h|)
      linarith
    refine le_trans (mul_le_mul_of_nonneg_right hgrow (Real.exp_pos _).le) (le_trans (le_of_eq ?_) hzW)
    rw [mul_assoc, ← Real.exp_add]
    congr 2
    ring

theorem kerrNorm_le (hn : 0 < n) {C h t : ℝ} {y : Fin n → ℝ} (hC0 : 0 ≤ C) (h1 : ∀ k ∈ krows F t h y, ‖k‖ ≤ C) :
    kerrNorm F t h y ≤ |h| * (1000000 * C) := by
  have hn' : (0 : ℝ) < n := by exact_mod_cast hn
  have h2 : ∀ i, |(h • combo (kdopriE : List ℝ) (krows F t h y)) i| ≤ |h| * C := by
    intro i
    refine (norm_le_pi_norm (h • combo (kdopriE : List ℝ) (krows F t h y)) i).trans ?_
    rw [norm_smul, Real.norm_eq_abs]
    apply mul_le_mul_of_nonneg_left _ (abs_nonneg h)
    refine (combo_norm _ _ _ hC0 h1).trans ?_
    have := mul_le_mul_of_nonneg_right e1 hC0
    linarith
  have hB : 0 ≤ |h| * (1000000 * C) := by positivity
  have h3 : ∀ i, |kerr y (rkStep kdopri F t h y) (krows F t h y) h i| ≤ |h| * (1000000 * C) := by
    intro i
    unfold kerr
    have hs := kscale_pos y (rkStep kdopri F t h y) i
    have hs' : 1 / 1000000 ≤ kscale y (rkStep kdopri F t h y) i := by
      unfold kscale
      have := le_max_of_le_left (c := |rkStep kdopri F t h y i|) (abs_nonneg (y i))
      linarith
    rw [abs_div, abs_of_pos hs, div_le_iff₀ hs]
    refine (h2 i).trans ?_
    calc |h| * C = |h| * (1000000 * C) * (1 / 1000000) := by ring
      _ ≤ _ := mul_le_mul_of_nonneg_left hs' hB
  unfold kerrNorm
  rw [Real.sqrt_le_left hB, div_le_iff₀ hn']
  unfold ksq
  calc ∑ i, _ ≤ ∑ i : Fin n, (|h| * (1000000 * C)) ^ 2 := by
        apply Finset.sum_le_sum
        intro i _
        rw [← pow_two]
        exact sq_le_sq.2 (by rw [abs_of_nonneg hB]; exact h3 i)
    _ = _ := by simp [mul_comm]

end bounds

/-! ### one attempt -/

section attempt
variable {n : Nat} {F : ℝ → (Fin n → ℝ) → (Fin n → ℝ)} {S : (Fin n → ℝ) → Prop} {D : Submodule ℝ (Fin n → ℝ)} {f : Rhs realFmt}

/-- the factor for an error norm -/
noncomputable def kfactor (ε : ℝ) : ℝ := 9 / 10 * ε ^ (-1 / 5 : ℝ)

theorem stepFactor_fin {ε : ℝ} (hε : 0 < ε) : stepFactor (.fin ε : Fl realFmt) = .fin (kfactor ε) := by
  have e1 : (9 / 10 : Fl realFmt) = .fin (9 / 10) := div_lit_eq 9 10 (by norm_num) _ (by norm_num)
  have e2 : (-1 / 5 : Fl realFmt) = .fin (-1 / 5) := by
    rw [Fl.one_fin, Fl.neg_fin, Fl.ofNat_fin, Fl.fin_div_fin _ _ (by norm_num)]
    norm_num
  unfold stepFactor
  rw [e1, e2]
  simp only [powSci, not_lt.2 hε.le, hε.ne', if_false, Fl.fin_mul_fin]
  rfl

/-- factors for errors below one are at least 9/10, at least one for errors below 0.59; above one they are at most 9/10 -/
theorem kfactor_bounds {ε : ℝ} (hε : 0 < ε) :
    (ε < 1 → 9 / 10 ≤ kfactor ε) ∧ (ε ≤ 1 / 9 → 1 ≤ kfactor ε) ∧ (1 ≤ ε → kfactor ε ≤ 9 / 10) ∧ 0 ≤ kfactor ε := by
  have hpos : 0 ≤ ε ^ (-1 / 5 : ℝ) := Real.rpow_nonneg hε.le _
  refine ⟨fun h => ?_, fun h => ?_, fun h => ?_, ?_⟩
  · have : 1 ≤ ε ^ (-1 / 5 : ℝ) := Real.one_le_rpow_of_pos_of_le_one_of_nonpos hε h.le (by norm_num)
    unfold kfactor; linarith
  · have h1 : (10 / 9 : ℝ) ≤ ε ^ (-1 / 5 : ℝ) := by
      have h2 : (1 / 9 : ℝ) ^ (-1 / 5 : ℝ) ≤ ε ^ (-1 / 5 : ℝ) := Real.rpow_le_rpow_of_nonpos hε h (by norm_num)
      refine le_trans ?_ h2
      have h3 : (10 / 9 : ℝ) = ((10 / 9 : ℝ) ^ (5 : ℝ)) ^ (1 / 5 : ℝ) := by
        rw [← Real.rpow_mul (by norm_num)]; norm_num
      have h4 : (1 / 9 : ℝ) ^ (-1 / 5 : ℝ) = (9 : ℝ) ^ (1 / 5 : ℝ) := by
        rw [show (1 / 9 : ℝ) = 9⁻¹ by norm_num, Real.inv_rpow (by norm_num), ← Real.rpow_neg (by norm_num)]
        norm_num
      rw [h3, h4]
      apply Real.rpow_le_rpow (by positivity) _ (by norm_num)
      rw [show (5 : ℝ) = ((5 : ℕ) : ℝ) by norm_num, Real.rpow_natCast]
      norm_num
    unfold kfactor; linarith
  · have : ε ^ (-1 / 5 : ℝ) ≤ 1 := Real.rpow_le_one_of_one_le_of_nonpos h (by norm_num)
    unfold kfactor; linarith
  · unfold kfactor; positivity

theorem sciMin_fin (a b : ℝ) : Fl.pyMin (.fin a : Fl realFmt) (.fin b) = .fin (min a b) := by
  unfold Fl.pyMin
  simp only [Fl.fin_lt_fin]
  split
  · rename_i h; rw [min_eq_right h.le]
  · rename_i h; rw [min_eq_left (not_lt.1 h)]

theorem sciMax_fin (a b : ℝ) : Fl.pyMax (.fin a : Fl realFmt) (.fin b) = .fin (max a b) := by
  unfold Fl.pyMax
  simp only [Fl.fin_lt_fin]
  split
  · rename_i h; rw [max_eq_right h.le]
  · rename_i h; rw [max_eq_left (not_lt.1 h)]

theorem ten_fin : (10 : Fl realFmt) = .fin 10 := Fl.ofNat_fin 10

/-- the size of the step tried with `h_abs = η` -/
noncomputable def tryStep (δ T t η : ℝ) : ℝ := if 0 < δ * (t + η * δ - T) then T - t else η * δ

theorem tryStep_bounds {δ T t η : ℝ} (hδ : δ = 1 ∨ δ = -1) (hT : 0 < δ * (T - t)) (hη : 0 < η) :
    |tryStep δ T t η| = δ * tryStep δ T t η ∧ 0 < δ * tryStep δ T t η ∧ δ * tryStep δ T t η ≤ η ∧ δ * tryStep δ T t η ≤ δ * (T - t) ∧
    (t + tryStep δ T t η = T ∨ δ * tryStep δ T t η = η) := by
  have hδ2 : δ * δ = 1 := by rcases hδ with rfl | rfl <;> norm_num
  have key : 0 < δ * tryStep δ T t η ∧ δ * tryStep δ T t η ≤ η ∧ δ * tryStep δ T t η ≤ δ * (T - t) ∧
      (t + tryStep δ T t η = T ∨ δ * tryStep δ T t η = η) := by
    have e : δ * (t + η * δ - T) = η - δ * (T - t) := by linear_combination η * hδ2
    have e2 : δ * (η * δ) = η := by linear_combination η * hδ2
    unfold tryStep
    rw [e]
    split
    · exact ⟨hT, by linarith, le_rfl, .inl (by ring)⟩
    · rw [e2]; exact ⟨hη, le_rfl, by linarith, .inr rfl⟩
  refine ⟨?_, key⟩
  obtain ⟨h1, -⟩ := key
  have : |δ * tryStep δ T t η| = |tryStep δ T t η| := by
    rw [abs_mul]; rcases hδ with rfl | rfl <;> simp
  rw [← this, abs_of_pos h1]

/-- one turn of the loop -/
theorem rkTry_succ (hn : 0 < n) (hf : LiftsOn S f F) (hst : Stable F S D) {δ T t : ℝ} {y : Fin n → ℝ} (hy : S y) {s : RkState realFmt}
    (ht : s.t = .fin t) (hsy : s.y = toFl y) (hsf : s.f = toFl (F t y)) (k : Nat) {η : ℝ} (hη : 0 < η) (rej : Bool) :
    ∃ η', rkTry f (.fin T) (.fin δ) (.fin 0) s (k + 1) (.fin η) rej =
      (if kerrNorm F t (tryStep δ T t η) y < 1 then
        .ok (some ⟨.fin t, toFl y, .fin (tryStep δ T t η), (krows F t (tryStep δ T t η) y).map toFl,
          ⟨.fin (t + tryStep δ T t η), toFl (rkStep kdopri F t (tryStep δ T t η) y),
            toFl (F (t + tryStep δ T t η) (rkStep kdopri F t (tryStep δ T t η) y)), .fin η'⟩⟩)
      else rkTry f (.fin T) (.fin δ) (.fin 0) s k
        (.fin (|tryStep δ T t η| * max (1 / 5) (kfactor (kerrNorm F t (tryStep δ T t η) y)))) true) ∧
      (kerrNorm F t (tryStep δ T t η) y < 1 →
        |tryStep δ T t η| * (9 / 10) ≤ η' ∧ (kerrNorm F t (tryStep δ T t η) y ≤ 1 / 9 → |tryStep δ T t η| ≤ η')) := by
  have hstep : (if (0 : Fl realFmt) < .fin δ * (.fin t + .fin η * .fin δ - .fin T) then .fin T else .fin t + .fin η * .fin δ : Fl realFmt) =
      .fin (t + tryStep δ T t η) := by
    unfold tryStep
    simp only [Fl.fin_mul_fin, Fl.fin_add_fin, Fl.fin_sub_fin, Fl.zero_fin, Fl.fin_lt_fin]
    split
    · simp
    · simp
  have hsub : (.fin (t + tryStep δ T t η) - .fin t : Fl realFmt) = .fin (tryStep δ T t η) := by rw [Fl.fin_sub_fin, add_sub_cancel_left]
  simp only [rkTry]
  simp only [ht, hsy, hsf, Fl.fin_lt_fin, not_lt.2 hη.le, if_false, hstep, hsub]
  rw [(rkStepK_lift hf hst t (tryStep δ T t η) hy).1]
  simp only [bind, Except.bind]
  rw [errorNorm_real hn]
  have hfold : Real.sqrt (ksq (kerr y (rkStep kdopri F t (tryStep δ T t η) y) (krows F t (tryStep δ T t η) y) (tryStep δ T t η)) / n) =
    kerrNorm F t (tryStep δ T t η) y := rfl
  rw [hfold]
  have hε0 : 0 ≤ kerrNorm F t (tryStep δ T t η) y := Real.sqrt_nonneg _
  generalize kerrNorm F t (tryStep δ T t η) y = ε at *
  generalize tryStep δ T t η = h at *
  by_cases h1 : ε < 1
  · rw [if_pos (by rw [Fl.one_fin, Fl.fin_lt_fin]; exact h1)]
    simp only [if_pos h1]
    have hfac : ∃ c, (if rej = true then Fl.pyMin 1 (if Fl.eqb (.fin ε : Fl realFmt) 0 = true then 10 else Fl.pyMin 10 (stepFactor (.fin ε)))
        else if Fl.eqb (.fin ε : Fl realFmt) 0 = true then 10 else Fl.pyMin 10 (stepFactor (.fin ε))) = (.fin c : Fl realFmt) ∧ 9 / 10 ≤ c ∧ (ε ≤ 1 / 9 → 1 ≤ c) := by
      have h2 : ∃ c, (if Fl.eqb (.fin ε : Fl realFmt) 0 = true then 10 else Fl.pyMin 10 (stepFactor (.fin ε))) = (.fin c : Fl realFmt) ∧ 9 / 10 ≤ c ∧ (ε ≤ 1 / 9 → 1 ≤ c) := by
        by_cases h0 : ε = 0
        · refine ⟨10, ?_, by norm_num, by norm_num⟩
          rw [if_pos (by rw [Fl.zero_fin]; simp [Fl.eqb, h0]), ten_fin]
        · have hpos : 0 < ε := lt_of_le_of_ne hε0 (Ne.symm h0)
          obtain ⟨b1, b2, -, -⟩ := kfactor_bounds hpos
          refine ⟨min 10 (kfactor ε), ?_, le_min (by norm_num) (b1 h1), fun h => le_min (by norm_num) (b2 h)⟩
          rw [if_neg (by rw [Fl.zero_fin]; simp [Fl.eqb, h0]), stepFactor_fin hpos, ten_fin, sciMin_fin]
      obtain ⟨c, e, b1, b2⟩ := h2
      rw [e]
      cases rej with
      | false => exact ⟨c, by simp, b1, b2⟩
      | true =>
        refine ⟨min 1 c, ?_, le_min (by norm_num) b1, fun h => le_min le_rfl (b2 h)⟩
        rw [if_pos rfl, Fl.one_fin, sciMin_fin]
    obtain ⟨c, e, b1, b2⟩ := hfac
    refine ⟨|h| * c, ?_, fun _ => ⟨mul_le_mul_of_nonneg_left b1 (abs_nonneg h), fun h9 => ?_⟩⟩
    · rw [e, sciAbs_fin, Fl.fin_mul_fin]
      rfl
    · have := mul_le_mul_of_nonneg_left (b2 h9) (abs_nonneg h)
      linarith
  · refine ⟨0, ?_, fun h => absurd h h1⟩
    have hpos : 0 < ε := lt_of_lt_of_le one_pos (not_lt.1 h1)
    have e5 : (1 / 5 : Fl realFmt) = .fin (1 / 5) := div_lit_eq 1 5 (by norm_num) _ (by norm_num)
    rw [if_neg (by rw [Fl.one_fin, Fl.fin_lt_fin]; exact h1), if_neg h1, stepFactor_fin hpos, e5, sciMax_fin, sciAbs_fin, Fl.fin_mul_fin]

/-- what a returning attempt delivers: a step over the field that either ends the integration or is long enough, and so will be the next -/
theorem rkTry_returns (hn : 0 < n) (hf : LiftsOn S f F) (hst : Stable F S D) {δ T t H Q ηm : ℝ} (hδ : δ = 1 ∨ δ = -1) (hT : 0 < δ * (T - t))
    (hTH : δ * (T - t) ≤ H) {y : Fin n → ℝ} (hy : S y) {s : RkState realFmt} (ht : s.t = .fin t) (hsy : s.y = toFl y) (hsf : s.f = toFl (F t y))
    (hQ : 0 < Q) (hm : 0 < ηm) (hmQ : 10 * ηm * Q ≤ 1) (hε : ∀ h, |h| ≤ H → kerrNorm F t h y ≤ |h| * Q) :
    ∀ (k : Nat) (η : ℝ) (rej : Bool), ηm ≤ η → min η (δ * (T - t)) * Q * (9 / 10) ^ k < 1 →
      ∃ h η', rkTry f (.fin T) (.fin δ) (.fin 0) s (k + 1) (.fin η) rej = .ok (some ⟨.fin t, toFl y, .fin h, (krows F t h y).map toFl,
          ⟨.fin (t + h), toFl (rkStep kdopri F t h y), toFl (F (t + h) (rkStep kdopri F t h y)), .fin η'⟩⟩) ∧
        |h| = δ * h ∧ 0 < δ * h ∧ δ * h ≤ δ * (T - t) ∧ (t + h = T ∨ (ηm ≤ δ * h ∧ ηm ≤ η')) := by
  intro k
  induction k with
  | zero =>
    intro η rej hη hk
    have hη0 : 0 < η := hm.trans_le hη
    obtain ⟨b1, b2, b3, b4, b5⟩ := tryStep_bounds hδ hT hη0
    obtain ⟨η', e, g⟩ := rkTry_succ (T := T) (δ := δ) hn hf hst hy ht hsy hsf 0 hη0 rej
    have hεh := hε (tryStep δ T t η) (by rw [b1]; exact b4.trans hTH)
    have h1 : kerrNorm F t (tryStep δ T t η) y < 1 := by
      refine lt_of_le_of_lt hεh (lt_of_le_of_lt ?_ hk)
      rw [b1, pow_zero, mul_one]
      exact mul_le_mul_of_nonneg_right (le_min b3 b4) hQ.le
    rw [if_pos h1] at e
    refine ⟨_, η', e, b1, b2, b4, ?_⟩
    rcases b5 with h | h
    · exact .inl h
    · refine .inr ⟨by rw [h]; exact hη, ?_⟩
      obtain ⟨g1, g2⟩ := g h1
      rw [b1, h] at g1 g2 hεh
      by_cases h9 : η * Q ≤ 1 / 9
      · exact hη.trans (g2 (hεh.trans h9))
      · have : ηm * Q * (10 / 9) ≤ η * Q := by linarith
        have : ηm * (10 / 9) ≤ η := by
          by_contra hc
          have := mul_lt_mul_of_pos_right (not_le.1 hc) hQ
          linarith
        linarith
  | succ k ih =>
    intro η rej hη hk
    have hη0 : 0 < η := hm.trans_le hη
    obtain ⟨b1, b2, b3, b4, b5⟩ := tryStep_bounds hδ hT hη0
    obtain ⟨η', e, g⟩ := rkTry_succ (T := T) (δ := δ) hn hf hst hy ht hsy hsf (k + 1) hη0 rej
    have hεh := hε (tryStep δ T t η) (by rw [b1]; exact b4.trans hTH)
    by_cases h1 : kerrNorm F t (tryStep δ T t η) y < 1
    · rw [if_pos h1] at e
      refine ⟨_, η', e, b1, b2, b4, ?_⟩
      rcases b5 with h | h
      · exact .inl h
      · refine .inr ⟨by rw [h]; exact hη, ?_⟩
        obtain ⟨g1, g2⟩ := g h1
        rw [b1, h] at g1 g2 hεh
        by_cases h9 : η * Q ≤ 1 / 9
        · exact hη.trans (g2 (hεh.trans h9))
        · have : ηm * Q * (10 / 9) ≤ η * Q := by linarith
          have : ηm * (10 / 9) ≤ η := by
            by_contra hc
            have := mul_lt_mul_of_pos_right (not_le.1 hc) hQ
            linarith
          linarith
    · rw [if_neg h1] at e
      rw [e]
      have hge : 1 ≤ kerrNorm F t (tryStep δ T t η) y := not_lt.1 h1
      have hpos : 0 < kerrNorm F t (tryStep δ T t η) y := lt_of_lt_of_le one_pos hge
      obtain ⟨-, -, c3, c4⟩ := kfactor_bounds hpos
      have hmax : max (1 / 5) (kfactor (kerrNorm F t (tryStep δ T t η) y)) ≤ 9 / 10 := max_le (by norm_num) (c3 hge)
      have hmax' : 1 / 5 ≤ max (1 / 5) (kfactor (kerrNorm F t (tryStep δ T t η) y)) := le_max_left _ _
      rw [b1] at hεh ⊢
      apply ih
      · have h2 : 1 ≤ δ * tryStep δ T t η * Q := hge.trans hεh
        have h3 : ηm * 10 ≤ δ * tryStep δ T t η := by
          by_contra hc
          have := mul_lt_mul_of_pos_right (not_le.1 hc) hQ
          linarith
        have := mul_le_mul_of_nonneg_left hmax' b2.le
        linarith
      · refine lt_of_le_of_lt ?_ hk
        rw [pow_succ]
        have h4 : min (δ * tryStep δ T t η * max (1 / 5) (kfactor (kerrNorm F t (tryStep δ T t η) y))) (δ * (T - t)) ≤
            min η (δ * (T - t)) * (9 / 10) := by
          refine (min_le_left _ _).trans ?_
          refine (mul_le_mul_of_nonneg_left hmax b2.le).trans ?_
          exact mul_le_mul_of_nonneg_right (le_min b3 b4) (by norm_num)
        calc _ ≤ min η (δ * (T - t)) * (9 / 10) * Q * (9 / 10) ^ k := by
              apply mul_le_mul_of_nonneg_right _ (by positivity)
              exact mul_le_mul_of_nonneg_right h4 hQ.le
          _ = _ := by ring

/-- the loop of `solve_ivp` comes to an end -/
theorem rkDrive_returns (hn : 0 < n) (hf : LiftsOn S f F) (hst : Stable F S D) {G : ℝ} {P : ℝ → (Fin n → ℝ) → Prop} (hg : Confined F G P)
    {δ T H ηm : ℝ} (hδ : δ = 1 ∨ δ = -1) {k : Nat} (hm : 0 < ηm) (hmQ : 10 * ηm * (1000000 * G + 1) ≤ 1)
    (hk : H * (1000000 * G + 1) * (9 / 10) ^ k < 1) :
    ∀ (m : Nat) (t η : ℝ) (y : Fin n → ℝ), 0 < δ * (T - t) → δ * (T - t) ≤ H → δ * (T - t) ≤ m * ηm → ηm ≤ η → S y → P (δ * (T - t)) y →
      ∃ as, rkDrive (fun _ _ => 0) (k + 1) f (.fin T) (.fin δ) m ⟨.fin t, toFl y, toFl (F t y), .fin η⟩ = .ok (as, true)
  | 0, t, η, y, hT, _, hTm, _, _, _ => by simp at hTm; linarith
  | m + 1, t, η, y, hT, hTH, hTm, hη, hy, hyP => by
    have hG := hg.1
    have hQ0 : 0 < 1000000 * G + 1 := by positivity
    have hmin : (10 * (0 : Fl realFmt)) = .fin 0 := by rw [Fl.zero_fin, ten_fin, Fl.fin_mul_fin, mul_zero]
    have hη0 : 0 < η := hm.trans_le hη
    obtain ⟨h, η', e, c1, c2, c3, c4⟩ := rkTry_returns (s := ⟨.fin t, toFl y, toFl (F t y), .fin η⟩) (Q := 1000000 * G + 1) (H := δ * (T - t)) hn hf hst
      hδ hT le_rfl hy rfl rfl rfl hQ0 hm hmQ (fun h hh => by
        refine (kerrNorm_le hn hG (hg.2 _ y hyP t h hh).1).trans ?_
        apply mul_le_mul_of_nonneg_left _ (abs_nonneg h)
        linarith) k η false hη (by
        refine lt_of_le_of_lt ?_ hk
        apply mul_le_mul_of_nonneg_right _ (by positivity)
        exact mul_le_mul_of_nonneg_right ((min_le_right _ _).trans hTH) hQ0.le)
    unfold rkDrive rkStepImpl
    simp only [hmin, Fl.fin_lt_fin, not_lt.2 hη0.le, if_false]
    rw [e]
    simp only [bind, Except.bind, Fl.fin_sub_fin, Fl.fin_mul_fin, Fl.zero_fin, Fl.fin_le_fin]
    by_cases hend : 0 ≤ δ * (t + h - T)
    · rw [if_pos hend]
      exact ⟨_, rfl⟩
    · rw [if_neg hend]
      rcases c4 with c4 | ⟨c4, c5⟩
      · exact absurd (by rw [c4]; simp) hend
      have e3 : δ * (T - (t + h)) = δ * (T - t) - δ * h := by ring
      have hT' : 0 < δ * (T - (t + h)) := by
        have : δ * (T - (t + h)) = -(δ * (t + h - T)) := by ring
        rw [this]; linarith [not_le.1 hend]
      have hy' := (rkStepK_lift hf hst t h hy).2
      have hP' := (hg.2 _ y hyP t h (by rw [c1]; exact c3)).2
      rw [c1, ← e3] at hP'
      obtain ⟨as, e4⟩ := rkDrive_returns hn hf hst hg hδ hm hmQ hk m (t + h) η' _ hT'
        (by rw [e3]; linarith) (by
          rw [e3]
          have : ((m + 1 : ℕ) : ℝ) * ηm = m * ηm + ηm := by push_cast; ring
          rw [this] at hTm
          linarith) c5 hy' hP'
      simp only [Fl.zero_fin] at e4
      rw [e4]
      exact ⟨_, rfl⟩

theorem rmsNorm_real (hn : 0 < n) (x : Fin n → ℝ) : rmsNorm (toFl x : Vec realFmt) = .fin (Real.sqrt (ksq x / n)) := by
  have h0 : (0 : ℝ) < n := by exact_mod_cast hn
  rw [rmsNorm_lift, powSci_nat hn, Fl.fin_div_fin _ _ (Real.sqrt_pos.2 h0).ne', Real.sqrt_div' _ h0.le]
  rfl

theorem toFl_sub (a b : Fin n → ℝ) : List.zipWith (· - ·) (toFl a : Vec realFmt) (toFl b) = toFl (a - b) := by
  simp [toFl, zipWith_ofFn]

/-- the initial step size is positive -/
theorem initialStep_pos (hn : 0 < n) (hf : LiftsOn S f F) (hst : Stable F S D) {δ T : ℝ} (hT : T ≠ 0) {y : Fin n → ℝ} (hy : S y) :
    ∃ η, 0 < η ∧ initialStep f (.fin T) (.fin δ) (toFl y) (toFl (F 0 y)) = .ok (.fin η) := by
  have hlen : 0 < |T| := abs_pos.2 hT
  let sc : Fin n → ℝ := fun i => 1/1000000 + |y i| * (1/1000)
  have hsc : ∀ i, sc i ≠ 0 := fun i => by have := abs_nonneg (y i); simp only [sc]; positivity
  have e1 : ((toFl y : Vec realFmt).map fun y => atol + y.abs * rtol) = toFl sc := by
    simp only [toFl, List.map_ofFn]
    congr 1
    funext i
    simp only [Function.comp, sciAbs_fin, atol_fin, rtol_fin, Fl.fin_mul_fin, Fl.fin_add_fin, sc]
  have l5 : (1 / 100000 : Fl realFmt) = .fin (1 / 100000) := div_lit_eq 1 100000 (by norm_num) _ (by norm_num)
  have l6 : (1 / 1000000 : Fl realFmt) = .fin (1 / 1000000) := div_lit_eq 1 1000000 (by norm_num) _ (by norm_num)
  have l2 : (1 / 100 : Fl realFmt) = .fin (1 / 100) := div_lit_eq 1 100 (by norm_num) _ (by norm_num)
  have l3 : (1 / 1000 : Fl realFmt) = .fin (1 / 1000) := div_lit_eq 1 1000 (by norm_num) _ (by norm_num)
  have l15 : (1 / 1000000000000000 : Fl realFmt) = .fin (1 / 1000000000000000) := div_lit_eq 1 1000000000000000 (by norm_num) _ (by norm_num)
  have l100 : (100 : Fl realFmt) = .fin 100 := Fl.ofNat_fin 100
  have lp : (1 / 5 : Fl realFmt) = .fin (1 / 5) := div_lit_eq 1 5 (by norm_num) _ (by norm_num)
  unfold initialStep
  simp only [e1, toFl_div _ _ hsc, rmsNorm_real hn, sciAbs_fin, toFl_length]
  have hd0 : 0 ≤ Real.sqrt (ksq (fun i => y i / sc i) / n) := Real.sqrt_nonneg _
  have hd1 : 0 ≤ Real.sqrt (ksq (fun i => F 0 y i / sc i) / n) := Real.sqrt_nonneg _
  generalize Real.sqrt (ksq (fun i => y i / sc i) / n) = d0 at *
  generalize Real.sqrt (ksq (fun i => F 0 y i / sc i) / n) = d1 at *
  obtain ⟨h0, hh0, eh0⟩ : ∃ h0, 0 < h0 ∧ Fl.pyMin (if (.fin d0 : Fl realFmt) < 1 / 100000 ∨ (.fin d1 : Fl realFmt) < 1 / 100000 then (1 / 1000000 : Fl realFmt)
      else 1 / 100 * (.fin d0 : Fl realFmt) / (.fin d1 : Fl realFmt)) (.fin |T|) = (.fin h0 : Fl realFmt) := by
    simp only [l5, l6, l2, Fl.fin_lt_fin]
    split
    · exact ⟨_, lt_min (by norm_num) hlen, sciMin_fin _ _⟩
    · rename_i h
      rw [not_or, not_lt, not_lt] at h
      have p0 : 0 < d0 := lt_of_lt_of_le (by norm_num) h.1
      have p1 : 0 < d1 := lt_of_lt_of_le (by norm_num) h.2
      rw [Fl.fin_mul_fin, Fl.fin_div_fin _ _ p1.ne']
      exact ⟨_, lt_min (by positivity) hlen, sciMin_fin _ _⟩
  rw [eh0]
  have ey1 : List.zipWith (fun y k => y + .fin h0 * .fin δ * k) (toFl y : Vec realFmt) (toFl (F 0 y)) = toFl (y + (h0 * δ) • F 0 y) := by
    simp [toFl, zipWith_ofFn]
  rw [ey1, Fl.fin_mul_fin, hf _ _ (hst.move _ _ hy (D.smul_mem _ (hst.field _ _ hy)))]
  simp only [bind, Except.bind, fitRow_toFl, toFl_sub, toFl_div _ _ hsc, rmsNorm_real hn, Fl.fin_div_fin _ _ hh0.ne']
  generalize Real.sqrt (ksq _ / n) / h0 = d2
  obtain ⟨h1, hh1, eh1⟩ : ∃ h1, 0 < h1 ∧ (if (.fin d1 : Fl realFmt) ≤ 1 / 1000000000000000 ∧ (.fin d2 : Fl realFmt) ≤ 1 / 1000000000000000 then
      Fl.pyMax (1 / 1000000 : Fl realFmt) ((.fin h0 : Fl realFmt) * (1 / 1000 : Fl realFmt))
      else powSci ((1 / 100 : Fl realFmt) / Fl.pyMax (.fin d1 : Fl realFmt) (.fin d2 : Fl realFmt)) (1 / 5 : Fl realFmt)) = (.fin h1 : Fl realFmt) := by
    simp only [l15, l6, l3, l2, lp, sciMax_fin, Fl.fin_mul_fin, Fl.fin_le_fin]
    split
    · exact ⟨_, lt_max_of_lt_left (by norm_num), rfl⟩
    · rename_i h
      have hpos : 0 < max d1 d2 := by
        rw [not_and_or, not_le, not_le] at h
        rcases h with h | h
        · exact lt_max_of_lt_left (lt_trans (by norm_num) h)
        · exact lt_max_of_lt_right (lt_trans (by norm_num) h)
      have hq : 0 < 1 / 100 / max d1 d2 := by positivity
      refine ⟨(1 / 100 / max d1 d2) ^ (1 / 5 : ℝ), Real.rpow_pos_of_pos hq _, ?_⟩
      rw [Fl.fin_div_fin _ _ hpos.ne']
      simp only [powSci, not_lt.2 hq.le, hq.ne', if_false]
      rfl
  rw [eh1]
  refine ⟨min (min (100 * h0) h1) |T|, lt_min (lt_min (by positivity) hh1) hlen, ?_⟩
  rw [l100, Fl.fin_mul_fin, sciMin_fin, sciMin_fin]
  rfl

end attempt

/-! ### more fuel gives the same answer -/

section fuel
variable {K : Type} {R : Fmt K} [Field K] [LinearOrder K]

theorem rkTry_mono {f : Rhs R} {tb dir m : Fl R} {s : RkState R} {x : Option (RkAccepted R)} : ∀ {k : Nat} {h : Fl R} {rej : Bool},
    rkTry f tb dir m s k h rej = .ok x → ∀ k', k ≤ k' → rkTry f tb dir m s k' h rej = .ok x
  | 0, _, _, e, _, _ => by simp [rkTry] at e
  | k + 1, h, rej, e, k', hk => by
    obtain ⟨k', rfl⟩ : ∃ j, k' = j + 1 := ⟨k' - 1, by omega⟩
    simp only [rkTry] at e ⊢
    split at e
    · rename_i h0; rw [if_pos h0]; exact e
    · rename_i h0
      rw [if_neg h0]
      generalize (if 0 < dir * (s.t + h * dir - tb) then tb else s.t + h * dir) = tNew at e ⊢
      obtain ⟨r, h1, e⟩ := Except.bind_ok.1 e
      rw [h1]
      simp only [bind, Except.bind]
      split at e
      · rename_i h2; rw [if_pos h2]; exact e
      · rename_i h2; rw [if_neg h2]; exact rkTry_mono e k' (by omega)

theorem rkDrive_mono {gap : Fl R → Fl R → Fl R} {f : Rhs R} {tb dir : Fl R} {x : List (RkAccepted R) × Bool} {k k' : Nat} (hk : k ≤ k') :
    ∀ {m : Nat} {s : RkState R}, rkDrive gap k f tb dir m s = .ok x → ∀ m', m ≤ m' → rkDrive gap k' f tb dir m' s = .ok x
  | 0, _, e, _, _ => by simp [rkDrive] at e
  | m + 1, s, e, m', hm => by
    obtain ⟨m', rfl⟩ : ∃ j, m' = j + 1 := ⟨m' - 1, by omega⟩
    simp only [rkDrive] at e ⊢
    obtain ⟨r, h1, e⟩ := Except.bind_ok.1 e
    have h2 : rkStepImpl gap k' f tb dir s = .ok r := rkTry_mono h1 k' hk
    rw [h2]
    simp only [bind, Except.bind]
    cases r with
    | none => exact e
    | some a =>
      simp only at e ⊢
      split at e
      · rename_i h3; rw [if_pos h3]; exact e
      · rename_i h3
        rw [if_neg h3]
        obtain ⟨⟨rest, ok⟩, h4, e⟩ := Except.bind_ok.1 e
        rw [rkDrive_mono hk h4 m' (by omega)]
        exact e

/-- an answer does not depend on the fuel -/
theorem scipySolve_mono {gap : Fl R → Fl R → Fl R} {f : Rhs R} {tb : Fl R} {y0 : Vec R} {te : Option (Vec R)} {sol : Sol R} {k k' : Nat}
    (hk : k ≤ k') (h : scipySolve gap k f tb y0 te = .ok sol) : scipySolve gap k' f tb y0 te = .ok sol := by
  unfold scipySolve at h ⊢
  split at h
  · cases h
  rename_i h1
  rw [if_neg h1]
  split at h
  · cases h
  rename_i h2
  rw [if_neg h2]
  split at h
  · cases h
  rename_i h3
  rw [if_neg h3]
  obtain ⟨v, g1, h⟩ := Except.bind_ok.1 h
  obtain ⟨v', g2, h⟩ := Except.bind_ok.1 h
  rw [g1]
  simp only [bind, Except.bind]
  rw [g2]
  simp only
  split at h
  · rename_i h4; rw [if_pos h4]; exact h
  · rename_i h4
    rw [if_neg h4]
    obtain ⟨hA, g3, h⟩ := Except.bind_ok.1 h
    obtain ⟨st, g4, h⟩ := Except.bind_ok.1 h
    rw [g3]
    simp only
    rw [rkDrive_mono hk g4 k' hk]
    exact h

end fuel

section solve
variable {n : Nat} {F : ℝ → (Fin n → ℝ) → (Fin n → ℝ)} {S : (Fin n → ℝ) → Prop} {D : Submodule ℝ (Fin n → ℝ)} {f : Rhs realFmt}

/-- **`solve_ivp` returns** if the integration is confined, for every time span (other than 0 if samples are asked for). -/
theorem scipySolve_returns (hn : 0 < n) (hf : LiftsOn S f F) (hst : Stable F S D) (T : ℝ) {y : Fin n → ℝ} (hy : S y) {G : ℝ}
    {P : ℝ → (Fin n → ℝ) → Prop} (hg : Confined F G P) (hyP : P |T| y)
    (te : Option (Vec realFmt)) (hte : ∀ ts, te = some ts → T ≠ 0 ∧ tEvalOk (.fin T) ts = true ∧ ts.getLast? = some (.fin T) ∧ ∀ x ∈ ts, x.isFin = true) :
    ∃ fuel sol, scipySolve (fun _ _ => 0) fuel f (.fin T) (toFl y) te = .ok sol := by
  have hfin : ¬ (toFl y : Vec realFmt).all Fl.isFin = false := by
    have : (toFl y : Vec realFmt).all Fl.isFin = true := by
      rw [List.all_eq_true]
      intro x hx
      obtain ⟨i, rfl⟩ := (List.mem_ofFn' _ _).1 hx
      rfl
    rw [this]; simp
  have hne : ¬ (toFl y : Vec realFmt) = [] := by
    intro h
    have := congrArg List.length h
    simp at this
    omega
  have hok : ¬ te.all (tEvalOk (.fin T)) = false := by
    cases te with
    | none => simp
    | some ts => simp [(hte ts rfl).2.1]
  have hf0 : f 0 (toFl y) = .ok (toFl (F 0 y)) := by rw [Fl.zero_fin]; exact hf _ _ hy
  by_cases hT : T = 0
  · subst hT
    cases te with
    | some ts => exact absurd rfl (hte ts rfl).1
    | none =>
      refine ⟨0, ?_⟩
      unfold scipySolve
      rw [if_neg hok, if_neg hfin, if_neg hne, hf0]
      simp only [bind, Except.bind, toFl_length, fitRow_toFl]
      rw [if_pos (by rw [Fl.zero_fin]; simp [Fl.eqb])]
      exact ⟨_, rfl⟩
  · obtain ⟨δ, hδ, hdir, hpos⟩ : ∃ δ : ℝ, (δ = 1 ∨ δ = -1) ∧ npSign (.fin T : Fl realFmt) = .fin δ ∧ 0 < δ * T := by
      unfold npSign
      simp only [Fl.isNan, Bool.false_eq_true, if_false, Fl.zero_fin, Fl.fin_lt_fin]
      rcases lt_or_gt_of_ne hT with hT' | hT'
      · refine ⟨-1, .inr rfl, ?_, by linarith⟩
        rw [if_neg (not_lt.2 hT'.le), if_pos hT', Fl.one_fin, Fl.neg_fin]
      · exact ⟨1, .inl rfl, by rw [if_pos hT', Fl.one_fin], by linarith⟩
    obtain ⟨η, hη, hinit⟩ := initialStep_pos (δ := δ) hn hf hst hT hy
    have hG := hg.1
    obtain ⟨H, hH⟩ : ∃ H, H = δ * T := ⟨_, rfl⟩
    have hH0 : 0 ≤ H := by rw [hH]; exact hpos.le
    have hHT : |T| = H := by
      rw [hH, ← abs_of_pos hpos, abs_mul]
      rcases hδ with rfl | rfl <;> simp
    obtain ⟨Q, hQ⟩ : ∃ Q, Q = 1000000 * G + 1 := ⟨_, rfl⟩
    have hQ0 : 0 < Q := by rw [hQ]; positivity
    obtain ⟨ηm, hηm⟩ : ∃ ηm, ηm = min η (1 / (10 * Q)) := ⟨_, rfl⟩
    have hm : 0 < ηm := by rw [hηm]; exact lt_min hη (by positivity)
    have hmQ : 10 * ηm * Q ≤ 1 := by
      have h1 : ηm ≤ 1 / (10 * Q) := by rw [hηm]; exact min_le_right _ _
      rw [le_div_iff₀ (by positivity)] at h1
      linarith
    obtain ⟨k, hk⟩ : ∃ k : ℕ, H * Q * (9 / 10) ^ k < 1 := by
      obtain ⟨k, hk⟩ := exists_pow_lt_of_lt_one (by positivity : (0 : ℝ) < 1 / (H * Q + 1)) (by norm_num : (9 / 10 : ℝ) < 1)
      refine ⟨k, ?_⟩
      have hHQ : 0 ≤ H * Q := by positivity
      rw [lt_div_iff₀ (by positivity)] at hk
      have hp : (0 : ℝ) < (9 / 10) ^ k := by positivity
      linarith
    obtain ⟨m, hmm⟩ := exists_nat_ge (H / ηm)
    rw [div_le_iff₀ hm] at hmm
    have e0 : δ * (T - 0) = H := by rw [hH]; ring
    obtain ⟨as, has⟩ := rkDrive_returns (T := T) (H := H) (ηm := ηm) hn hf hst hg hδ hm (by rw [← hQ]; exact hmQ) (k := k) (by rw [← hQ]; exact hk)
      m 0 η y (by rw [e0, hH]; exact hpos) e0.le (by rw [e0]; exact hmm) (by rw [hηm]; exact min_le_left _ _) hy (by rw [e0, ← hHT]; exact hyP)
    have hdrive := rkDrive_mono (le_max_left (k + 1) m) has (max (k + 1) m) (le_max_right _ _)
    have htb : Fl.eqb (.fin T : Fl realFmt) 0 = false := by rw [Fl.zero_fin]; simp [Fl.eqb, hT]
    have hslope : Slope f 0 y (toFl (F 0 y) : Vec realFmt) := ⟨_, hf 0 y hy, fitRow_toFl _⟩
    obtain ⟨-, hs, yf, hsteps⟩ := rkDrive_steps powNonneg_real hn (fun _ _ => rfl) hδ _ _ 0 y ⟨.fin 0, toFl y, toFl (F 0 y), .fin η⟩ (by rw [e0, hH]; exact hpos)
      rfl rfl hslope as true hdrive
    refine ⟨max (k + 1) m, ?_⟩
    unfold scipySolve
    rw [if_neg hok, if_neg hfin, if_neg hne, hf0]
    simp only [bind, Except.bind, toFl_length, fitRow_toFl]
    rw [if_neg (by rw [htb]; simp)]
    rw [hdir, hinit]
    simp only
    have hz : (0 : Fl realFmt) = .fin 0 := Fl.zero_fin
    have hdrive' : rkDrive (fun _ _ => 0) (max (k + 1) m) f (.fin T) (.fin δ) (max (k + 1) m) ⟨0, toFl y, toFl (F 0 y), .fin η⟩ = .ok (as, true) := by
      rw [← hdrive, hz]
    rw [hdrive']
    simp only
    cases te with
    | none => exact ⟨_, rfl⟩
    | some ts =>
      obtain ⟨-, h1, h2, h3⟩ := hte ts rfl
      have hl := hsteps.dense_last hδ ts h2 (by
        intro x hx
        obtain ⟨u, rfl, g1, g2⟩ := tEvalOk_mem h1 h3 x hx
        refine ⟨u, rfl, ?_⟩
        rcases hδ with rfl | rfl
        · rw [max_eq_right (by linarith)] at g2; linarith
        · rw [min_eq_right (by linarith)] at g1; linarith)
      simp only
      cases hr : denseRows (.fin δ) as ts with
      | nil => rw [hr] at hl; simp at hl
      | cons r rows => exact ⟨_, rfl⟩

end solve
end SAD
