import Verif.Lemmas.Converge
import Verif.Lemmas.Applied
import Verif.Lemmas.History
import Verif.Model.Formats

/-! # Runge-Kutta chains that stay inside a region, up to whole turns -/

set_option linter.unusedSectionVars false

namespace SAD
open Spec Real

/-- a property of all the points where the stages evaluate the field -/
def NearStages {V : Type} [AddCommGroup V] [Module ℝ V] (P : V → Prop) (F : ℝ → V → V) (t h : ℝ) (y : V) : List (ℝ × List ℝ) → List V → Prop
  | [], _ => True
  | (c, row) :: st, ks => P (y + h • combo row ks) ∧ NearStages P F t h y st (ks ++ [F (t + c * h) (y + h • combo row ks)])

section
variable {n : Nat} {f : Rhs realFmt} {F : ℝ → (Fin n → ℝ) → Fin n → ℝ} {P : (Fin n → ℝ) → Prop} {s : Fin n → ℝ}

theorem rkStagesFl_near (hf : ∀ t y, P y → f (.fin t) (toFl (y + s)) = .ok (toFl (F t y))) (t h : ℝ) (y : Fin n → ℝ)
    (st : List (ℝ × List ℝ)) (ks : List (Fin n → ℝ)) (hP : NearStages P F t h y st ks) :
    rkStagesFl f (.fin t) (.fin h) (toFl (y + s)) (liftStages st) (ks.map toFl) = .ok ((rkStages F t h y st ks).map toFl) := by
  induction st generalizing ks with
  | nil => rfl
  | cons p st ih =>
    obtain ⟨c, row⟩ := p
    obtain ⟨h1, h2⟩ := hP
    simp only [liftStages, List.map_cons, rkStagesFl, rkStages, toFl_length]
    rw [comboFl_lift, toFl_mul_right, toFl_add, Fl.fin_mul_fin, Fl.fin_add_fin, add_right_comm, hf _ _ h1]
    simp only [bind, Except.bind]
    rw [fitRow_toFl]
    simp only
    have := ih _ h2
    rw [List.map_append] at this
    exact this

theorem rkStepFl_near (hf : ∀ t y, P y → f (.fin t) (toFl (y + s)) = .ok (toFl (F t y))) (tab : KTab ℝ) (t h : ℝ) (y : Fin n → ℝ) (hy : P y)
    (hP : NearStages P F t h y tab.stages [F t y]) :
    rkStepFl (liftTab tab) f (.fin t) (.fin h) (toFl (y + s)) = .ok (toFl (rkStep tab F t h y + s)) := by
  unfold rkStepFl rkStep
  rw [hf _ _ hy]
  simp only [bind, Except.bind, toFl_length]
  rw [fitRow_toFl]
  simp only
  have := rkStagesFl_near hf t h y tab.stages [F t y] hP
  simp only [List.map_cons, List.map_nil] at this
  simp only [liftTab]
  rw [this]
  simp only [pure, Except.pure]
  rw [comboFl_lift, toFl_mul_left, toFl_add, add_right_comm]

end

theorem kdopri_near {V : Type} [NormedAddCommGroup V] [NormedSpace ℝ V] {g : V → V} {L : ℝ} (hl : LipOn g L (fun _ => True) ⊤) {y : V} (t : ℝ) {h : ℝ}
    (hh : 0 ≤ h) (hx : h * L ≤ 1 / 25) {P : V → Prop} (hP : ∀ z, ‖z - y‖ ≤ 25 * h * ‖g y‖ → P z) :
    NearStages P (fun _ => g) t h y kdopri.stages [g y] := by
  obtain ⟨w2, w3, w4, w5, w6, e2, e3, e4, e5, e6, -, b2, b3, b4, b5, b6, -⟩ := kdopri_parts hl trivial t hh hx
  have hn := norm_nonneg (g y)
  have key : ∀ w : V, ∀ c : ℝ, ‖w‖ ≤ c * ‖g y‖ → c ≤ 25 → P (y + h • w) := by
    intro w c hw hc
    apply hP
    rw [add_sub_cancel_left, norm_smul, Real.norm_eq_abs, abs_of_nonneg hh]
    calc h * ‖w‖ ≤ h * (25 * ‖g y‖) := mul_le_mul_of_nonneg_left (hw.trans (mul_le_mul_of_nonneg_right hc hn)) hh
      _ = _ := by ring
  have p2 := key w2 _ b2 (by norm_num)
  have p3 := key w3 _ b3 (by norm_num)
  have p4 := key w4 _ b4 (by norm_num)
  have p5 := key w5 _ b5 (by norm_num)
  have p6 := key w6 _ b6 (by norm_num)
  subst e2 e3 e4 e5 e6
  simp only [kdopri, NearStages, combo, List.zip_cons_cons, List.foldl_cons, List.zip_nil_left, List.zip_nil_right, List.foldl_nil, zero_add, List.cons_append,
    List.nil_append, and_true]
  exact ⟨p2, p3, p4, p5, p6⟩

/-- an initial error grows at most exponentially, and every step adds its own -/
theorem growth_step {L δ c s h E E' : ℝ} (hL : 0 ≤ L) (hδ : 0 ≤ δ) (hc : 0 ≤ c) (hs : 0 ≤ s) (hh : 0 ≤ h) (h1 : E ≤ (δ + c * s) * exp (2 * L * s))
    (h2 : E' ≤ E * (1 + 2 * L * h) + c * h) : E' ≤ (δ + c * (s + h)) * exp (2 * L * (s + h)) := by
  have e1 : exp (2 * L * (s + h)) = exp (2 * L * s) * exp (2 * L * h) := by rw [← exp_add]; congr 1; ring
  have e2 : 1 + 2 * L * h ≤ exp (2 * L * h) := by linarith [add_one_le_exp (2 * L * h)]
  have e3 : 1 ≤ exp (2 * L * (s + h)) := one_le_exp (by positivity)
  have p0 : 0 ≤ (δ + c * s) * exp (2 * L * s) := by positivity
  have p1 : E * (1 + 2 * L * h) ≤ (δ + c * s) * exp (2 * L * s) * exp (2 * L * h) :=
    mul_le_mul h1 e2 (by positivity) p0
  have p2 : c * h * 1 ≤ c * h * exp (2 * L * (s + h)) := mul_le_mul_of_nonneg_left e3 (by positivity)
  rw [e1] at p2 ⊢
  nlinarith

/-- the setting: a tube of radius `ρ` around an exact solution, in which the field agrees with a Lipschitz one -/
structure Tube {n : Nat} (g : (Fin n → ℝ) → Fin n → ℝ) (L B Tm ρ η δ : ℝ) (φ : ℝ → Fin n → ℝ) : Prop where
  lip : LipOn g L (fun _ => True) ⊤
  flow : Flows g (fun _ => True) B Tm φ
  Bnn : 0 ≤ B
  δnn : 0 ≤ δ
  ηnn : 0 ≤ η
  ηL : η * L ≤ 1 / 25
  small : (δ + 18 * L * B * η * Tm) * exp (2 * L * Tm) ≤ ρ / 2
  stage : 25 * η * (L * ρ + B) ≤ ρ / 2

section
variable {n : Nat} {g : (Fin n → ℝ) → Fin n → ℝ} {L B Tm ρ η δ : ℝ} {φ : ℝ → Fin n → ℝ}

/-- the error allowed at a time -/
noncomputable def allowed (L B η δ τ : ℝ) : ℝ := (δ + 18 * L * B * η * τ) * exp (2 * L * τ)

theorem Tube.allowed_le (h : Tube g L B Tm ρ η δ φ) {τ : ℝ} (hτ : τ ≤ Tm) (h0 : 0 ≤ τ) : allowed L B η δ τ ≤ ρ / 2 := by
  refine le_trans ?_ h.small
  have := h.lip.nonneg
  have := h.Bnn
  have := h.δnn
  have := h.ηnn
  have := h0.trans hτ
  unfold allowed
  gcongr

theorem Tube.rho_nonneg (h : Tube g L B Tm ρ η δ φ) (hT : 0 ≤ Tm) : 0 ≤ ρ := by
  have := h.lip.nonneg
  have := h.Bnn
  have := h.δnn
  have := h.ηnn
  have h1 : 0 ≤ (δ + 18 * L * B * η * Tm) * exp (2 * L * Tm) := by positivity
  linarith [h.small]

/-- the points a step of the solver looks at are in the tube -/
theorem Tube.near (h : Tube g L B Tm ρ η δ φ) {τ : ℝ} (h0 : 0 ≤ τ) (hτ : τ ≤ Tm) {y : Fin n → ℝ} (hy : ‖y - φ τ‖ ≤ allowed L B η δ τ) {k : ℝ} (hk : 0 ≤ k)
    (hkη : k ≤ η) {z : Fin n → ℝ} (hz : ‖z - y‖ ≤ 25 * k * ‖g y‖) : ‖z - φ τ‖ ≤ ρ := by
  have a1 := h.allowed_le hτ h0
  have hρ := h.rho_nonneg (h0.trans hτ)
  have hL := h.lip.nonneg
  have hg : ‖g y‖ ≤ L * ρ + B := by
    have b1 := h.lip.lip y (φ τ) trivial trivial
    have b2 : ‖g y‖ ≤ ‖g y - g (φ τ)‖ + ‖g (φ τ)‖ := by simpa using norm_add_le (g y - g (φ τ)) (g (φ τ))
    have b3 := h.flow.bound τ ⟨h0, hτ⟩
    have b4 : L * ‖y - φ τ‖ ≤ L * ρ := mul_le_mul_of_nonneg_left (by linarith) hL
    linarith
  have h1 : 25 * k * ‖g y‖ ≤ 25 * η * (L * ρ + B) :=
    mul_le_mul (by linarith) hg (norm_nonneg _) (by linarith [h.ηnn])
  have h2 : ‖z - φ τ‖ ≤ ‖z - y‖ + ‖y - φ τ‖ := by simpa using norm_add_le (z - y) (y - φ τ)
  linarith [h.stage]

theorem Tube.error (h : Tube g L B Tm ρ η δ φ) {tab : KTab ℝ} (htab : tab = kdopri ∨ tab = keuler) {τ k : ℝ} (h0 : 0 ≤ τ) (hk : 0 ≤ k) (hT : τ + k ≤ Tm)
    (hkη : k ≤ η) {y : Fin n → ℝ} (hy : ‖y - φ τ‖ ≤ allowed L B η δ τ) (t : ℝ) :
    ‖rkStep tab (fun _ => g) t k y - φ (τ + k)‖ ≤ allowed L B η δ (τ + k) := by
  have hL := h.lip.nonneg
  have hB := h.Bnn
  have hη := h.ηnn
  refine growth_step hL h.δnn (by positivity) h0 hk hy ?_
  refine rk_error h.lip (fun t' k' y' _ hk' hx' => ?_) h.flow h0 hk hT hkη h.ηL trivial
  rcases htab with rfl | rfl
  · exact kdopri_local h.lip trivial t' hk' hx'
  · exact keuler_local hL y' t' k'

theorem Tube.chain (h : Tube g L B Tm ρ η δ φ) {f : Rhs realFmt} {s : Fin n → ℝ}
    (hf : ∀ t τ y, 0 ≤ τ → τ ≤ Tm → ‖y - φ τ‖ ≤ ρ → f (.fin t) (toFl (y + s)) = .ok (toFl (g y))) (hs : List ℝ) : ∀ {τ t : ℝ} {y : Fin n → ℝ}, 0 ≤ τ →
      (∀ k ∈ hs, 0 ≤ k ∧ k ≤ η) → τ + hs.sum ≤ Tm → ‖y - φ τ‖ ≤ allowed L B η δ τ →
      ∃ z, rkChainFl (liftTab kdopri) f (.fin t) (toFl (y + s)) (hs.map .fin) = .ok (toFl (z + s)) ∧
        ‖z - φ (τ + hs.sum)‖ ≤ allowed L B η δ (τ + hs.sum) := by
  induction hs with
  | nil => intro τ t y _ _ _ hy; exact ⟨y, rfl, by simpa using hy⟩
  | cons k hs ih =>
    intro τ t y h0 hb hT hy
    obtain ⟨hk, hkη⟩ := hb k (by simp)
    have hpos : 0 ≤ hs.sum := List.sum_nonneg fun x hx => (hb x (by simp [hx])).1
    rw [List.sum_cons] at hT ⊢
    have hτ : τ ≤ Tm := by linarith
    have hstep := rkStepFl_near (f := f) (F := fun _ => g) (s := s) (P := fun z => ‖z - φ τ‖ ≤ ρ) (fun t z hz => hf t τ z h0 hτ hz) kdopri t k y
      (h.near h0 hτ hy hk hkη (by simpa using by positivity))
      (kdopri_near h.lip t hk ((mul_le_mul_of_nonneg_right hkη h.lip.nonneg).trans h.ηL) fun z hz => h.near h0 hτ hy hk hkη hz)
    have herr := h.error (.inl rfl) h0 hk (by linarith) hkη hy t
    obtain ⟨z, g1, g2⟩ := ih (t := t + k) (add_nonneg h0 hk) (fun x hx => hb x (by simp [hx])) (by linarith) herr
    refine ⟨z, ?_, by rwa [add_assoc] at g2⟩
    simp only [List.map_cons, rkChainFl]
    rw [hstep]
    simp only [bind, Except.bind, Fl.fin_add_fin]
    exact g1

end
end SAD
