import Verif.Lemmas.Inside

/-! # Fields that agree at the points a Runge-Kutta step looks at -/

set_option linter.unusedSectionVars false

namespace SAD
open Spec

section
variable {V : Type} [AddCommGroup V] [Module ℝ V] {F G : ℝ → V → V} {Z : V → Prop}

theorem NearStages.mono {Z' : V → Prop} (hZ : ∀ z, Z z → Z' z) {t h : ℝ} {y : V} : ∀ {st : List (ℝ × List ℝ)} {ks : List V},
    NearStages Z G t h y st ks → NearStages Z' G t h y st ks
  | [], _, _ => trivial
  | (_, _) :: _, _, ⟨h1, h2⟩ => ⟨hZ _ h1, NearStages.mono hZ h2⟩

theorem rkStages_agree (hFG : ∀ t z, Z z → F t z = G t z) (t h : ℝ) (y : V) : ∀ (st : List (ℝ × List ℝ)) (ks : List V),
    NearStages Z G t h y st ks → rkStages F t h y st ks = rkStages G t h y st ks
  | [], _, _ => rfl
  | (c, row) :: st, ks, ⟨h1, h2⟩ => by
    simp only [rkStages]
    rw [hFG _ _ h1]
    exact rkStages_agree hFG t h y st _ h2

theorem rkStep_agree (hFG : ∀ t z, Z z → F t z = G t z) (tab : KTab ℝ) (t h : ℝ) (y : V) (hy : Z y)
    (hv : NearStages Z G t h y tab.stages [G t y]) : rkStep tab F t h y = rkStep tab G t h y := by
  unfold rkStep
  rw [hFG _ _ hy, rkStages_agree hFG t h y _ _ hv]

/-- where a quantity has the constant rate `a`, the stages see it at the times of the stages -/
theorem near_rate (U : V →ₗ[ℝ] ℝ) (a : ℝ) (hU : ∀ t z, U (G t z) = a) (t h : ℝ) (y : V) : ∀ (st : List (ℝ × List ℝ)) (ks : List V),
    RowsOk ks.length st → (∀ k ∈ ks, U k = a) →
      NearStages (fun z => ∃ c ∈ st.map Prod.fst, U z = U y + c * (h * a)) G t h y st ks
  | [], _, _, _ => trivial
  | (c, row) :: st, ks, ⟨r1, r2, r3⟩, hk => by
    refine ⟨⟨c, by simp, ?_⟩, ?_⟩
    · rw [map_add, map_smul, combo_const a row ks U hk r1, r2, smul_eq_mul]; ring
    · refine (near_rate U a hU t h y st _ (by simpa using r3) ?_).mono ?_
      · intro k hk'
        rcases List.mem_append.1 hk' with h' | h'
        · exact hk k h'
        · simp at h'; subst h'; exact hU _ _
      · rintro z ⟨c', h1, h2⟩
        exact ⟨c', by simp at h1 ⊢; exact Or.inr h1, h2⟩

/-- the nodes of the methods are between the ends of the step -/
def Nodes (tab : KTab ℝ) : Prop := ∀ c ∈ tab.stages.map Prod.fst, 0 ≤ c ∧ c ≤ 1

theorem kdopri_nodes : Nodes kdopri := by
  intro c hc
  simp [kdopri] at hc
  rcases hc with rfl | rfl | rfl | rfl | rfl <;> norm_num

theorem keuler_nodes : Nodes keuler := by
  intro c hc
  simp [keuler] at hc

theorem between {l r a b c : ℝ} (ha : l < a ∧ a < r) (hb : l < b ∧ b < r) (hc : 0 ≤ c ∧ c ≤ 1) : l < a + c * (b - a) ∧ a + c * (b - a) < r := by
  obtain ⟨h1, h2⟩ := hc
  constructor <;> nlinarith [mul_nonneg h1 (sub_nonneg.2 hb.1.le), mul_nonneg h1 (sub_nonneg.2 hb.2.le),
    mul_nonneg (sub_nonneg.2 h2) (sub_nonneg.2 ha.1.le), mul_nonneg (sub_nonneg.2 h2) (sub_nonneg.2 ha.2.le)]

theorem sum_nonpos_of : ∀ (l : List ℝ), (∀ x ∈ l, x ≤ 0) → l.sum ≤ 0
  | [], _ => by simp
  | x :: l, h => by
    rw [List.sum_cons]
    exact add_nonpos (h x (by simp)) (sum_nonpos_of l fun y hy => h y (by simp [hy]))

/-- A field that agrees with one for which `U` has the constant rate `a`, as long as `U` is strictly between `l` and `r`: chains
that start and end there are the same. -/
theorem rkChain_agree (U : V →ₗ[ℝ] ℝ) (a l r : ℝ) (hU : ∀ t z, U (G t z) = a) (hFG : ∀ t z, l < U z ∧ U z < r → F t z = G t z) (tab : KTab ℝ)
    (hrows : RowsOk 1 tab.stages) (hb : tab.b.sum = 1) (hl : tab.b.length = tab.stages.length + 1) (hn : Nodes tab) :
    ∀ (hs : List ℝ) (t : ℝ) (y : V), ((∀ h ∈ hs, 0 ≤ h) ∨ (∀ h ∈ hs, h ≤ 0)) → l < U y ∧ U y < r →
      l < U y + a * hs.sum ∧ U y + a * hs.sum < r → rkChain tab F t y hs = rkChain tab G t y hs
  | [], _, _, _, _, _ => rfl
  | h :: hs, t, y, hsgn, hy, hend => by
    simp only [rkChain]
    have hstep : U (rkStep tab G t h y) = U y + a * h := by
      have := rkChain_const_rate tab hb hl G U a hU t y [h]
      simpa [rkChain] using this
    have hmid : l < U y + a * h ∧ U y + a * h < r := by
      have hs0 : ∃ c : ℝ, 0 ≤ c ∧ c ≤ 1 ∧ h = c * (h :: hs).sum := by
        rcases hsgn with hp | hp
        · have h0 : 0 ≤ h := hp h (by simp)
          have h1 : 0 ≤ hs.sum := List.sum_nonneg fun x hx => hp x (by simp [hx])
          rcases eq_or_lt_of_le (add_nonneg h0 h1) with h2 | h2
          · exact ⟨0, le_rfl, zero_le_one, by simp; linarith⟩
          · refine ⟨h / (h + hs.sum), div_nonneg h0 h2.le, (div_le_one h2).2 (by linarith), ?_⟩
            rw [List.sum_cons, div_mul_cancel₀ _ h2.ne']
        · have h0 : h ≤ 0 := hp h (by simp)
          have h1 : hs.sum ≤ 0 := sum_nonpos_of hs fun x hx => hp x (by simp [hx])
          rcases eq_or_lt_of_le (add_nonpos h0 h1) with h2 | h2
          · exact ⟨0, le_rfl, zero_le_one, by simp; linarith⟩
          · refine ⟨h / (h + hs.sum), div_nonneg_of_nonpos h0 h2.le, (div_le_one_of_neg h2).2 (by linarith), ?_⟩
            rw [List.sum_cons, div_mul_cancel₀ _ h2.ne]
      obtain ⟨c, c0, c1, hc⟩ := hs0
      have := between hy hend ⟨c0, c1⟩
      rw [show U y + a * (h :: hs).sum - U y = a * (h :: hs).sum by ring, show c * (a * (h :: hs).sum) = a * (c * (h :: hs).sum) by ring, ← hc] at this
      exact this
    have hagree : rkStep tab F t h y = rkStep tab G t h y := by
      refine rkStep_agree hFG tab t h y hy ((near_rate U a hU t h y tab.stages [G t y] (by simpa using hrows) (by simp [hU])).mono ?_)
      rintro z ⟨c, hc, hz⟩
      have := between hy hmid (hn c hc)
      rw [hz]
      rwa [show U y + a * h - U y = h * a by ring] at this
    rw [hagree]
    refine rkChain_agree U a l r hU hFG tab hrows hb hl hn hs _ _ ?_ (by rw [hstep]; exact hmid) ?_
    · exact hsgn.imp (fun hp x hx => hp x (by simp [hx])) (fun hp x hx => hp x (by simp [hx]))
    · rw [hstep]
      have : U y + a * h + a * hs.sum = U y + a * (h :: hs).sum := by rw [List.sum_cons]; ring
      rw [this]; exact hend

end
end SAD
