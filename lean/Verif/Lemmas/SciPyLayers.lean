import Verif.Lemmas.SciPyStep

/-! # Integrations are confined when the derivative grows at most linearly layer by layer -/

namespace SAD
open Spec

section layers
variable {n : Nat} {F : ℝ → (Fin n → ℝ) → (Fin n → ℝ)}

/-- the size of the components in `B` -/
def block (B : Finset (Fin n)) (y : Fin n → ℝ) : ℝ := ∑ i ∈ B, |y i|

theorem block_nonneg (B : Finset (Fin n)) (y : Fin n → ℝ) : 0 ≤ block B y := Finset.sum_nonneg fun _ _ => abs_nonneg _

theorem block_add (B : Finset (Fin n)) (x y : Fin n → ℝ) : block B (x + y) ≤ block B x + block B y := by
  unfold block
  rw [← Finset.sum_add_distrib]
  exact Finset.sum_le_sum fun i _ => abs_add_le _ _

theorem block_smul (B : Finset (Fin n)) (c : ℝ) (y : Fin n → ℝ) : block B (c • y) = |c| * block B y := by
  unfold block
  rw [Finset.mul_sum]
  exact Finset.sum_congr rfl fun i _ => by simp [abs_mul]

theorem block_zero (B : Finset (Fin n)) : block B (0 : Fin n → ℝ) = 0 := by simp [block]

theorem combo_block (B : Finset (Fin n)) (row : List ℝ) (ks : List (Fin n → ℝ)) (c : ℝ) (hc : 0 ≤ c) (h : ∀ k ∈ ks, block B k ≤ c) :
    block B (combo row ks) ≤ (row.map (|·|)).sum * c := by
  rw [combo_eq]
  induction row generalizing ks with
  | nil => simp [block_zero]
  | cons r row ih =>
    cases ks with
    | nil =>
      simp only [List.zip_nil_right, List.map_nil, List.sum_nil, block_zero]
      apply mul_nonneg _ hc
      apply List.sum_nonneg
      intro x hx
      obtain ⟨z, -, rfl⟩ := List.mem_map.1 hx
      exact abs_nonneg z
    | cons k ks =>
      simp only [List.zip_cons_cons, List.map_cons, List.sum_cons]
      have h1 := ih ks (fun k' hk' => h k' (by simp [hk']))
      have h2 : block B (r • k) ≤ |r| * c := by
        rw [block_smul]
        exact mul_le_mul_of_nonneg_left (h k (by simp)) (abs_nonneg r)
      calc block B (r • k + _) ≤ block B (r • k) + _ := block_add _ _ _
        _ ≤ |r| * c + (row.map (|·|)).sum * c := add_le_add h2 h1
        _ = _ := by ring

/-- the points at which the stages `st` evaluate the derivative are in `Z` -/
def StagesIn (Z : (Fin n → ℝ) → Prop) (F : ℝ → (Fin n → ℝ) → (Fin n → ℝ)) (t h : ℝ) (y : Fin n → ℝ) : List (ℝ × List ℝ) → List (Fin n → ℝ) → Prop
  | [], _ => True
  | (q, row) :: st, ks => Z (y + h • combo row ks) ∧ StagesIn Z F t h y st (ks ++ [F (t + q * h) (y + h • combo row ks)])

theorem StagesIn.mono {Z Z' : (Fin n → ℝ) → Prop} (hZ : ∀ z, Z z → Z' z) {t h : ℝ} {y : Fin n → ℝ} : ∀ {st : List (ℝ × List ℝ)} {ks : List (Fin n → ℝ)},
    StagesIn Z F t h y st ks → StagesIn Z' F t h y st ks
  | [], _, _ => trivial
  | (_, _) :: _, _, ⟨h1, h2⟩ => ⟨hZ _ h1, StagesIn.mono hZ h2⟩

theorem StagesIn.and {Z Z' : (Fin n → ℝ) → Prop} {t h : ℝ} {y : Fin n → ℝ} : ∀ {st : List (ℝ × List ℝ)} {ks : List (Fin n → ℝ)},
    StagesIn Z F t h y st ks → StagesIn Z' F t h y st ks → StagesIn (fun z => Z z ∧ Z' z) F t h y st ks
  | [], _, _, _ => trivial
  | (_, _) :: _, _, ⟨h1, h2⟩, ⟨g1, g2⟩ => ⟨⟨h1, g1⟩, StagesIn.and h2 g2⟩

/-- the points at which a step evaluates the derivative are in `Z` -/
def Visits (Z : (Fin n → ℝ) → Prop) (F : ℝ → (Fin n → ℝ) → (Fin n → ℝ)) (t h : ℝ) (y : Fin n → ℝ) : Prop :=
  Z y ∧ StagesIn Z F t h y (kdopri : KTab ℝ).stages [F t y] ∧ Z (rkStep kdopri F t h y)

theorem Visits.mono {Z Z' : (Fin n → ℝ) → Prop} (hZ : ∀ z, Z z → Z' z) {t h : ℝ} {y : Fin n → ℝ} (hv : Visits Z F t h y) : Visits Z' F t h y :=
  ⟨hZ _ hv.1, hv.2.1.mono hZ, hZ _ hv.2.2⟩

theorem Visits.and {Z Z' : (Fin n → ℝ) → Prop} {t h : ℝ} {y : Fin n → ℝ} (hv : Visits Z F t h y) (hv' : Visits Z' F t h y) :
    Visits (fun z => Z z ∧ Z' z) F t h y := ⟨⟨hv.1, hv'.1⟩, hv.2.1.and hv'.2.1, hv.2.2, hv'.2.2⟩

variable {Z : (Fin n → ℝ) → Prop} {B : Finset (Fin n)} {a b : ℝ}

theorem stage_block (ha : 0 ≤ a) (hb : 0 ≤ b) (hF : ∀ t z, Z z → block B (F t z) ≤ a * block B z + b) {h H : ℝ} (hh : |h| ≤ H) {y : Fin n → ℝ} (t : ℝ)
    {row : List ℝ} (hr : (row.map (|·|)).sum ≤ 30) {ks : List (Fin n → ℝ)} {c : ℝ} (hc : 1 ≤ c)
    (hk : ∀ k ∈ ks, block B k ≤ c * (a * block B y + b)) (hS : Z (y + h • combo row ks)) :
    block B (y + h • combo row ks) ≤ block B y + |h| * (30 * (c * (a * block B y + b))) ∧
    block B (F t (y + h • combo row ks)) ≤ (1 + 30 * a * H) * c * (a * block B y + b) := by
  have hB := block_nonneg B y
  have hG : 0 ≤ a * block B y + b := by positivity
  have hcG : 0 ≤ c * (a * block B y + b) := by positivity
  have hH : 0 ≤ H := (abs_nonneg h).trans hh
  have h1 := combo_block B row ks _ hcG hk
  have h2 : block B (h • combo row ks) ≤ |h| * (30 * (c * (a * block B y + b))) := by
    rw [block_smul]
    exact mul_le_mul_of_nonneg_left (h1.trans (mul_le_mul_of_nonneg_right hr hcG)) (abs_nonneg h)
  have h2' : |h| * (30 * (c * (a * block B y + b))) ≤ H * (30 * (c * (a * block B y + b))) := mul_le_mul_of_nonneg_right hh (by positivity)
  have h3 : block B (y + h • combo row ks) ≤ block B y + |h| * (30 * (c * (a * block B y + b))) := (block_add _ _ _).trans (by linarith)
  refine ⟨h3, ?_⟩
  calc block B (F t (y + h • combo row ks)) ≤ a * block B (y + h • combo row ks) + b := hF _ _ hS
    _ ≤ a * (block B y + H * (30 * (c * (a * block B y + b)))) + b := by
        have h4 : block B (y + h • combo row ks) ≤ block B y + H * (30 * (c * (a * block B y + b))) := by linarith
        linarith [mul_le_mul_of_nonneg_left h4 ha]
    _ = (a * block B y + b) + 30 * a * H * c * (a * block B y + b) := by ring
    _ ≤ c * (a * block B y + b) + 30 * a * H * c * (a * block B y + b) := by linarith [mul_le_mul_of_nonneg_right hc hG]
    _ = _ := by ring

theorem stages_block (ha : 0 ≤ a) (hb : 0 ≤ b) (hF : ∀ t z, Z z → block B (F t z) ≤ a * block B z + b) {h H : ℝ} (hh : |h| ≤ H) {y : Fin n → ℝ} (t : ℝ) :
    ∀ (st : List (ℝ × List ℝ)) (ks : List (Fin n → ℝ)) (c : ℝ), (∀ p ∈ st, (p.2.map (|·|)).sum ≤ 30) → 1 ≤ c →
      (∀ k ∈ ks, block B k ≤ c * (a * block B y + b)) → StagesIn Z F t h y st ks →
      (∀ k ∈ rkStages F t h y st ks, block B k ≤ (1 + 30 * a * H) ^ st.length * c * (a * block B y + b)) ∧
      StagesIn (fun z => block B z ≤ block B y + |h| * (30 * ((1 + 30 * a * H) ^ st.length * c * (a * block B y + b)))) F t h y st ks
  | [], ks, c, _, _, hk, _ => by simpa [rkStages, StagesIn] using hk
  | (q, row) :: st, ks, c, hr, hc, hk, ⟨hz, hin⟩ => by
    have hH : 0 ≤ H := (abs_nonneg h).trans hh
    have hB := block_nonneg B y
    have hG : 0 ≤ a * block B y + b := by positivity
    have h1 : 1 ≤ 1 + 30 * a * H := by have : 0 ≤ 30 * a * H := by positivity
                                       linarith
    have hn := stage_block ha hb hF hh (t + q * h) (hr (q, row) (by simp)) hc hk hz
    simp only [rkStages]
    have := stages_block ha hb hF hh t st (ks ++ [F (t + q * h) (y + h • combo row ks)]) ((1 + 30 * a * H) * c)
      (fun p hp => hr p (by simp [hp])) (one_le_mul_of_one_le_of_one_le h1 hc) (by
        intro k hk'
        rcases List.mem_append.1 hk' with hk' | hk'
        · refine (hk k hk').trans ?_
          rw [mul_assoc (1 + 30 * a * H)]
          exact le_mul_of_one_le_left (by positivity) h1
        · simp at hk'; subst hk'; exact hn.2) hin
    have e : (1 + 30 * a * H) ^ st.length * ((1 + 30 * a * H) * c) = (1 + 30 * a * H) ^ ((q, row) :: st).length * c := by
      rw [List.length_cons, pow_succ]
      ring
    rw [e] at this
    refine ⟨this.1, hn.1.trans ?_, this.2⟩
    have h2 : c ≤ (1 + 30 * a * H) ^ ((q, row) :: st).length * c := le_mul_of_one_le_left (by linarith) (one_le_pow₀ h1)
    have h3 := mul_le_mul_of_nonneg_left (mul_le_mul_of_nonneg_right h2 hG) (by positivity : 0 ≤ |h| * 30)
    linarith

/-- one block over one step -/
theorem visits_block (ha : 0 ≤ a) (hb : 0 ≤ b) (hF : ∀ t z, Z z → block B (F t z) ≤ a * block B z + b) {h H : ℝ} (hh : |h| ≤ H) {y : Fin n → ℝ} {t : ℝ}
    (hv : Visits Z F t h y) :
    (∀ k ∈ krows F t h y, block B k ≤ (1 + 30 * a * H) ^ 6 * (a * block B y + b)) ∧
    block B (rkStep kdopri F t h y) ≤ block B y + |h| * (30 * ((1 + 30 * a * H) ^ 6 * (a * block B y + b))) ∧
    Visits (fun z => block B z ≤ block B y + |h| * (30 * ((1 + 30 * a * H) ^ 6 * (a * block B y + b)))) F t h y := by
  obtain ⟨v1, v2, v3⟩ := hv
  have hH : 0 ≤ H := (abs_nonneg h).trans hh
  have hB := block_nonneg B y
  have hG : 0 ≤ a * block B y + b := by positivity
  have h1 : 1 ≤ 1 + 30 * a * H := by have : 0 ≤ 30 * a * H := by positivity
                                     linarith
  obtain ⟨hs, hin⟩ := stages_block ha hb hF hh t (kdopri : KTab ℝ).stages [F t y] 1 rows30 le_rfl (by
    intro k hk; simp at hk; subst hk; rw [one_mul]; exact hF t y v1) v2
  have hlen : (kdopri : KTab ℝ).stages.length = 5 := rfl
  rw [hlen, mul_one] at hs hin
  have h5 : (1 + 30 * a * H) ^ 5 * (a * block B y + b) ≤ (1 + 30 * a * H) ^ 6 * (a * block B y + b) :=
    mul_le_mul_of_nonneg_right (pow_le_pow_right₀ h1 (by norm_num)) hG
  have h5' := mul_le_mul_of_nonneg_left h5 (by positivity : 0 ≤ |h| * 30)
  have h6 := stage_block ha hb hF hh (t + h) b30 (one_le_pow₀ h1 (n := 5)) hs v3
  have e : (1 + 30 * a * H) * (1 + 30 * a * H) ^ 5 = (1 + 30 * a * H) ^ 6 := by ring
  rw [e] at h6
  have h7 : block B (rkStep kdopri F t h y) ≤ block B y + |h| * (30 * ((1 + 30 * a * H) ^ 6 * (a * block B y + b))) := h6.1.trans (by linarith)
  refine ⟨?_, h7, by simp only; have := mul_nonneg (abs_nonneg h) (by positivity : 0 ≤ 30 * ((1 + 30 * a * H) ^ 6 * (a * block B y + b))); linarith,
    hin.mono fun z hz => hz.trans (by linarith), h7⟩
  intro k hk
  rcases List.mem_append.1 hk with hk | hk
  · exact (hs k hk).trans h5
  · simp at hk; subst hk; exact h6.2

/-- Integrations of duration `H` are confined if the components fall into layers such that, while the earlier layers are bounded, the derivative of a
layer grows at most linearly with that layer. -/
theorem layers_confined (B : ℕ → Finset (Fin n))
    (hF : ∀ l W, ∃ a b : ℝ, 0 ≤ a ∧ 0 ≤ b ∧ ∀ t z, (∀ j < l, block (B j) z ≤ W) → block (B l) (F t z) ≤ a * block (B l) z + b)
    (H : ℝ) (y : Fin n → ℝ) : ∀ l, ∃ (G : ℝ) (P : ℝ → (Fin n → ℝ) → Prop), 0 ≤ G ∧ (∀ r z, P r z → ∀ t h, |h| ≤ r →
      Visits (fun x => ∀ j < l, block (B j) x ≤ G) F t h z ∧ (∀ k ∈ krows F t h z, ∀ j < l, block (B j) k ≤ G) ∧ P (r - |h|) (rkStep kdopri F t h z)) ∧
      P H y
  | 0 => by
    refine ⟨0, fun _ _ => True, le_rfl, fun r z _ t h _ => ⟨?_, fun _ _ j hj => absurd hj (by omega), trivial⟩, trivial⟩
    have : ∀ (st : List (ℝ × List ℝ)) ks, StagesIn (fun x => ∀ j < 0, block (B j) x ≤ 0) F t h z st ks := by
      intro st
      induction st with
      | nil => exact fun _ => trivial
      | cons p st ih => exact fun ks => ⟨fun j hj => absurd hj (by omega), ih _⟩
    exact ⟨fun j hj => absurd hj (by omega), this _ _, fun j hj => absurd hj (by omega)⟩
  | l + 1 => by
    obtain ⟨G, P, hG0, hP, hPy⟩ := layers_confined B hF H y l
    obtain ⟨a, b, ha, hb, hab⟩ := hF l G
    by_cases hH : H < 0
    · exact ⟨0, fun r _ => r < 0, le_rfl, fun r z hr t h hh => absurd (hh.trans_lt hr) (not_lt.2 (abs_nonneg h)), hH⟩
    rw [not_lt] at hH
    obtain ⟨C, hC⟩ : ∃ C, C = (1 + 30 * a * H) ^ 6 := ⟨_, rfl⟩
    have hC0 : 0 ≤ C := by rw [hC]; positivity
    obtain ⟨W, hW⟩ : ∃ W, W = (block (B l) y + 1) * Real.exp (30 * (C * (a + b)) * H) := ⟨_, rfl⟩
    have hW0 : 0 < W := by rw [hW]; have := block_nonneg (B l) y; positivity
    refine ⟨G + W + C * ((a + b) * W) + H * (30 * (C * ((a + b) * W))),
      fun r z => P r z ∧ r ≤ H ∧ (block (B l) z + 1) * Real.exp (30 * (C * (a + b)) * r) ≤ W, by positivity, ?_, hPy, le_rfl, hW.ge⟩
    rintro r z ⟨hz, hr, hzW⟩ t h hh
    obtain ⟨p1, p2, p3⟩ := hP r z hz t h hh
    have hr0 : 0 ≤ r := (abs_nonneg h).trans hh
    have hB := block_nonneg (B l) z
    have hexp : 1 ≤ Real.exp (30 * (C * (a + b)) * r) := Real.one_le_exp (by positivity)
    have hzW' : block (B l) z + 1 ≤ W := le_trans (le_mul_of_one_le_right (by positivity) hexp) hzW
    have hg1 : a * block (B l) z + b ≤ (a + b) * (block (B l) z + 1) := by nlinarith
    have hg2 : C * (a * block (B l) z + b) ≤ C * ((a + b) * W) :=
      mul_le_mul_of_nonneg_left (hg1.trans (mul_le_mul_of_nonneg_left hzW' (by positivity))) hC0
    obtain ⟨q1, q2, q3⟩ := visits_block ha hb hab (hh.trans hr) p1
    rw [← hC] at q1 q2 q3
    have hCW : 0 ≤ C * ((a + b) * W) := by positivity
    have hHC : 0 ≤ H * (30 * (C * ((a + b) * W))) := by positivity
    refine ⟨(p1.and q3).mono ?_, ?_, p3, by linarith [abs_nonneg h], ?_⟩
    · rintro x ⟨g1, g2⟩ j hj
      rcases Nat.lt_succ_iff_lt_or_eq.1 hj with hj | rfl
      · linarith [g1 j hj]
      · have h1 : |h| * (30 * (C * (a * block (B j) z + b))) ≤ H * (30 * (C * ((a + b) * W))) :=
          mul_le_mul (hh.trans hr) (by linarith) (by have : 0 ≤ C * (a * block (B j) z + b) := by positivity
                                                     linarith) hH
        linarith
    · intro k hk j hj
      rcases Nat.lt_succ_iff_lt_or_eq.1 hj with hj | rfl
      · linarith [p2 k hk j hj]
      · linarith [q1 k hk]
    · have hgrow : block (B l) (rkStep kdopri F t h z) + 1 ≤ (block (B l) z + 1) * Real.exp (30 * (C * (a + b)) * |h|) := by
        have h5 : 30 * (C * (a + b)) * |h| + 1 ≤ Real.exp (30 * (C * (a + b)) * |h|) := Real.add_one_le_exp _
        have h6 := mul_le_mul_of_nonneg_left h5 (by positivity : 0 ≤ block (B l) z + 1)
        have h7 := mul_le_mul_of_nonneg_left (mul_le_mul_of_nonneg_left hg1 hC0) (by positivity : 0 ≤ 30 * |h|)
        linarith
      refine le_trans (mul_le_mul_of_nonneg_right hgrow (Real.exp_pos _).le) (le_trans (le_of_eq ?_) hzW)
      rw [mul_assoc, ← Real.exp_add]
      congr 2
      ring

end layers

/-- While the components of lower level are bounded by `W`, the derivatives of the components of level `l` grow at most linearly with these components:
every integration is confined. -/
theorem layered_confined {n : Nat} {F : ℝ → (Fin n → ℝ) → (Fin n → ℝ)} (lv : Fin n → ℕ)
    (h : ∀ l W, ∃ a b : ℝ, 0 ≤ a ∧ 0 ≤ b ∧ ∀ t y, (∀ i, lv i < l → |y i| ≤ W) → ∀ i, lv i = l →
      |F t y i| ≤ a * block (Finset.univ.filter fun j => lv j = l) y + b) (H : ℝ) (y : Fin n → ℝ) :
    ∃ G P, Confined F G P ∧ P H y := by
  obtain ⟨L, hL⟩ : ∃ L, ∀ i, lv i < L := by
    refine ⟨(∑ i, lv i) + 1, fun i => ?_⟩
    have := Finset.single_le_sum (f := lv) (fun _ _ => Nat.zero_le _) (Finset.mem_univ i)
    omega
  obtain ⟨G, P, hG, hP, hPy⟩ := layers_confined (F := F) (fun l => Finset.univ.filter fun j => lv j = l) (by
    intro l W
    obtain ⟨a, b, ha, hb, hab⟩ := h l W
    refine ⟨n * a, n * b, by positivity, by positivity, fun t z hz => ?_⟩
    have h1 := hab t z (fun i hi => (Finset.single_le_sum (f := fun i => |z i|) (fun i _ => abs_nonneg _) (by simp)).trans (hz (lv i) hi))
    have hB := block_nonneg (Finset.univ.filter fun j => lv j = l) z
    calc block _ (F t z) ≤ ∑ i ∈ (Finset.univ.filter fun j => lv j = l), (a * block (Finset.univ.filter fun j => lv j = l) z + b) :=
          Finset.sum_le_sum fun i hi => h1 i (by simpa using hi)
      _ ≤ n * (a * block (Finset.univ.filter fun j => lv j = l) z + b) := by
          rw [Finset.sum_const, nsmul_eq_mul]
          apply mul_le_mul_of_nonneg_right _ (by positivity)
          exact_mod_cast (Finset.card_le_univ _).trans (by simp)
      _ = _ := by ring) H y L
  refine ⟨G, P, ⟨hG, fun r z hz t h hh => ?_⟩, hPy⟩
  obtain ⟨-, h2, h3⟩ := hP r z hz t h hh
  refine ⟨fun k hk => ?_, h3⟩
  rw [pi_norm_le_iff_of_nonneg hG]
  intro i
  rw [Real.norm_eq_abs]
  exact (Finset.single_le_sum (f := fun i => |k i|) (fun i _ => abs_nonneg _) (by simp)).trans (h2 k hk (lv i) (hL i))

/-- limits preserve this -/
theorem KModel.layered {n m : Nat} {M : KModel ℝ n m} {u : Fin m → ℝ} (lv : Fin n → ℕ)
    (h : ∀ l W, ∃ a b : ℝ, 0 ≤ a ∧ 0 ≤ b ∧ ∀ t y, (∀ i, lv i < l → |y i| ≤ W) → ∀ i, lv i = l →
      |M.rate t y u i| ≤ a * block (Finset.univ.filter fun j => lv j = l) y + b) (H : ℝ) (y : Fin n → ℝ) :
    ∃ G P, Confined (M.field u) G P ∧ P H y := by
  refine layered_confined lv (fun l W => ?_) H y
  obtain ⟨a, b, ha, hb, hab⟩ := h l W
  have hD : 0 ≤ ∑ i, (|(M.dlo i).getD 0| + |(M.dhi i).getD 0|) := Finset.sum_nonneg fun i _ => by positivity
  refine ⟨a, b + ∑ i, (|(M.dlo i).getD 0| + |(M.dhi i).getD 0|), ha, by linarith, fun t z hz i hi => ?_⟩
  have h2 := klimit_abs_le (M.lo i) (M.hi i) (M.dlo i) (M.dhi i) (z i) (M.rate t z u i)
  have h3 : |(M.dlo i).getD 0| + |(M.dhi i).getD 0| ≤ _ :=
    Finset.single_le_sum (f := fun i => |(M.dlo i).getD 0| + |(M.dhi i).getD 0|) (fun i _ => by positivity) (Finset.mem_univ i)
  have h4 := hab t z hz i hi
  simp only [KModel.field]
  linarith

end SAD
