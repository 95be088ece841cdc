import Verif.Lemmas.LinSim
import Verif.Lemmas.Converge
import Verif.Spec.Shadows

/-! # Models of the user's, computed in double precision, against an exact motion -/

set_option linter.unusedSectionVars false

namespace SAD
open Spec

section combo
variable {V : Type} [NormedAddCommGroup V] [NormedSpace ℝ V]

theorem norm_combo_le {W : ℝ} : ∀ (row : List ℝ) (ks : List V), (∀ k ∈ ks, ‖k‖ ≤ W) → 0 ≤ W → ‖combo row ks‖ ≤ (row.map (|·|)).sum * W
  | [], ks, _, _ => by simp [combo_eq]
  | c :: row, [], _, hW => by
    have : 0 ≤ ((c :: row).map (|·|)).sum := List.sum_nonneg (by
      intro x hx; obtain ⟨y, -, rfl⟩ := List.mem_map.1 hx; exact abs_nonneg y)
    simp only [combo_eq, List.zip_nil_right, List.map_nil, List.sum_nil, norm_zero]
    positivity
  | c :: row, k :: ks, h, hW => by
    have ih := norm_combo_le row ks (fun x hx => h x (by simp [hx])) hW
    rw [combo_eq] at ih ⊢
    simp only [List.zip_cons_cons, List.map_cons, List.sum_cons, add_mul]
    refine (norm_add_le _ _).trans (add_le_add ?_ ih)
    rw [norm_smul, Real.norm_eq_abs]
    exact mul_le_mul_of_nonneg_left (h k (by simp)) (abs_nonneg c)

theorem norm_combo_sub_le {W : ℝ} (v : V) : ∀ (row : List ℝ) (ks : List V), row.length = ks.length → (∀ k ∈ ks, ‖k - v‖ ≤ W) →
    ‖combo row ks - row.sum • v‖ ≤ (row.map (|·|)).sum * W
  | [], [], _, _ => by simp [combo_eq]
  | c :: row, k :: ks, hl, h => by
    have ih := norm_combo_sub_le v row ks (by simpa using hl) (fun x hx => h x (by simp [hx]))
    rw [combo_eq] at ih ⊢
    simp only [List.zip_cons_cons, List.map_cons, List.sum_cons, add_mul, add_smul]
    rw [add_sub_add_comm, ← smul_sub]
    refine (norm_add_le _ _).trans (add_le_add ?_ ih)
    rw [norm_smul, Real.norm_eq_abs]
    exact mul_le_mul_of_nonneg_left (h k (by simp)) (abs_nonneg c)

end combo

/-- rounding of one step, for states up to `X` and derivatives up to `D` -/
def userR (X D η : ℚ) : ℚ := 2⁻¹ ^ 48 * (X + 26 * η * D + 2⁻¹ ^ 500)

section b64
variable {libm : Fmt ℚ} {n : ℕ} {w : Fin n → ℚ}

theorem Spec.Weights.pos (hw : Weights w) (i : Fin n) : 0 < w i := lt_of_lt_of_le (by positivity) (hw i).1

theorem Spec.Weights.cast_pos (hw : Weights w) (i : Fin n) : (0 : ℝ) < w i := by exact_mod_cast hw.pos i

/-- a rational vector in units of `w` -/
noncomputable def castW (w : Fin n → ℚ) (v : Fin n → ℚ) : Fin n → ℝ := fun i => (v i : ℝ) / w i

theorem combo_castW (row : List ℚ) (ks : List (Fin n → ℚ)) : castW w (combo row ks) = combo (row.map (fun c : ℚ => (c : ℝ))) (ks.map (castW w)) := by
  rw [combo_eq, combo_eq]
  induction row generalizing ks with
  | nil => funext i; simp [castW]
  | cons r row ih =>
    cases ks with
    | nil => funext i; simp [castW]
    | cons k ks =>
      have := ih ks
      simp only [List.zip_cons_cons, List.map_cons, List.sum_cons] at this ⊢
      rw [← this]
      funext i
      simp [castW]
      ring

theorem nearKs_const {D : ℚ} : ∀ (ks : List (Fin n → ℚ)), (∀ k ∈ ks, ∀ i, |k i| ≤ w i * D) →
    NearKs (R := b64Of libm) (2⁻¹ ^ 53) w 0 (ks.map toFl) (ks.map fun k => (k, D))
  | [], _ => .nil
  | k :: ks, h => .cons (nearV_toFl (by positivity) fun i => by simpa using h k (by simp) i) (nearKs_const ks fun x hx => h x (by simp [hx]))

/-- a combination of computed stages, added to the state -/
theorem user_combo {X D η : ℚ} (hw : Weights w) (hX0 : 0 ≤ X) (hX : X ≤ 2 ^ 100) (hD0 : 0 ≤ D) (hD : D ≤ 2 ^ 50) (hη : η ≤ 2 ^ 50) {y : Fin n → ℚ} (hy : ∀ i, |y i| ≤ w i * X)
    {t t' h : ℚ} (hh : h = t' - t) (hh0 : 0 ≤ h) (hhη : h ≤ η) {zs : Vec (b64Of libm)} {row : List ℚ}
    (hrow : NearRow (b64Of libm) (2⁻¹ ^ 53) (2 ^ (-1022 : ℤ)) zs row) (hlen : row.length ≤ 6) (hsum : (row.map (fun c => |c| + 2 ^ (-1022 : ℤ))).sum ≤ 25)
    {ks : List (Fin n → ℚ)} (hk : ∀ k ∈ ks, ∀ i, |k i| ≤ w i * D) :
    (∃ Y : Fin n → ℚ, List.zipWith (· + ·) (toFl y) ((comboFl n zs (ks.map toFl)).map (· * (.fin t' - .fin t : Fl (b64Of libm)))) = toFl Y ∧
      ∀ i, |Y i - (y i + h * combo row ks i)| ≤ w i * userR X D η) ∧
    ∃ Y : Fin n → ℚ, List.zipWith (· + ·) (toFl y) ((comboFl n zs (ks.map toFl)).map ((.fin t' - .fin t : Fl (b64Of libm)) * ·)) = toFl Y ∧
      ∀ i, |Y i - (y i + h * combo row ks i)| ≤ w i * userR X D η := by
  obtain ⟨τ, hτ⟩ : ∃ τ : ℚ, τ = 2 ^ (-1022 : ℤ) := ⟨_, rfl⟩
  obtain ⟨θ, hθ⟩ : ∃ θ : ℚ, θ = 2⁻¹ ^ 600 := ⟨_, rfl⟩
  obtain ⟨κ, hκ⟩ : ∃ κ : ℚ, κ = 2⁻¹ ^ 500 := ⟨_, rfl⟩
  obtain ⟨hr, hτ1, hτ0, hθ0⟩ := b64_roomyV (libm := libm) (n := n) (w := w) (q := 0) (γ := 1) (fun i => (hw i).1)
    (fun i => (hw i).2) (by refine (pow_sub_one_le (by positivity) _ ?_).trans ?_ <;> norm_num) le_rfl hθ hτ
  rw [← hτ] at hrow hsum
  have hε := hr.rounds.eps
  have hz := near_fin_sub hr.rounds (t := t) (t' := t') (by
    rw [← hh, abs_of_nonneg hh0]
    exact (hhη.trans hη).trans (by decide +kernel))
  rw [← hh, abs_of_nonneg hh0] at hz
  have hks := nearKs_const (libm := libm) ks hk
  have hsnd : (ks.map fun k => (k, D)).map (·.2) = ks.map fun _ => D := by rw [List.map_map]; rfl
  have hfst : (ks.map fun k => (k, D)).map (·.1) = ks := by rw [List.map_map]; exact List.map_id _
  have hmag : comboMag τ θ row (ks.map fun _ => D) ≤ 25 * D + 12 * θ := by
    refine (comboMag_le_rowSum hτ0 hθ0 hD0 row _ (by
      intro d hd; obtain ⟨-, -, rfl⟩ := List.mem_map.1 hd; exact ⟨hD0, le_rfl⟩)).trans ?_
    have a1 := mul_le_mul_of_nonneg_right hsum hD0
    have a2 : (row.length : ℚ) ≤ 6 := by exact_mod_cast hlen
    have a3 : θ * row.length ≤ θ * 6 := mul_le_mul_of_nonneg_left a2 hθ0
    linarith
  have hmag0 : 0 ≤ comboMag τ θ row (ks.map fun _ => D) := comboMag_nonneg hτ0 hθ0 _ _ (by
    intro d hd; obtain ⟨-, -, rfl⟩ := List.mem_map.1 hd; exact hD0)
  have hθ1 : θ ≤ 1 := by rw [hθ]; decide +kernel
  have hH : h + τ ≤ 2 ^ 51 := by linarith [hhη.trans hη]
  have hS : (25 * D + 12 * θ) ≤ 2 ^ 60 := by linarith
  have hHS : (h + τ) * comboMag τ θ row (ks.map fun _ => D) ≤ 2 ^ 111 := by
    calc _ ≤ (2 ^ 51 : ℚ) * 2 ^ 60 := mul_le_mul hH (hmag.trans hS) hmag0 (by norm_num)
      _ ≤ _ := by norm_num
  have hHS0 : 0 ≤ (h + τ) * comboMag τ θ row (ks.map fun _ => D) := by positivity
  have h1 := near_combo hr hrow hks (by
    intro p hp; obtain ⟨-, -, rfl⟩ := List.mem_map.1 hp; exact hD0) (by omega) (by
    rw [hsnd]; exact (hmag.trans hS).trans (by norm_num))
  rw [hsnd, hfst] at h1
  have hyN := nearV_toFl (libm := libm) (w := w) (y := y) (X := X) hε (fun i => by simpa using hy i)
  have hQ : X + ((h + τ) * comboMag τ θ row (ks.map fun _ => D) + θ) ≤ 2 ^ 240 := by
    have : (2 : ℚ) ^ 100 + (2 ^ 111 + 1) ≤ 2 ^ 240 := by norm_num
    linarith
  have fin : ∀ {z : Vec (b64Of libm)}, NearV (2⁻¹ ^ 53) w (0 + 2 + row.length + 1 + 1 + 1) z (y + h • combo row ks)
      (X + ((h + τ) * comboMag τ θ row (ks.map fun _ => D) + θ) + θ) →
      ∃ Y : Fin n → ℚ, z = toFl Y ∧ ∀ i, |Y i - (y i + h * combo row ks i)| ≤ w i * userR X D η := by
    intro z hz'
    obtain ⟨Y, rfl, h3⟩ := (hz'.mono hε hr.pos (l := 11) (by omega) le_rfl).toFl
    refine ⟨Y, rfl, fun i => (h3 i).trans ?_⟩
    rw [mul_left_comm, userR, ← hκ]
    refine mul_le_mul_of_nonneg_left ?_ (hw.pos i).le
    have hγ : (1 + (2⁻¹ : ℚ) ^ 53) ^ 11 - 1 ≤ 2⁻¹ ^ 48 := by decide +kernel
    refine mul_le_mul hγ ?_ (by positivity) (by positivity)
    have b1 : (h + τ) * comboMag τ θ row (ks.map fun _ => D) ≤ (h + τ) * (25 * D + 12 * θ) := mul_le_mul_of_nonneg_left hmag (by positivity)
    have b2 : h * D ≤ η * D := mul_le_mul_of_nonneg_right hhη hD0
    have b3 : 25 * (τ * D) + 12 * ((h + τ) * θ) + 2 * θ ≤ κ := by
      calc _ ≤ 25 * (τ * 2 ^ 50) + 12 * (2 ^ 51 * θ) + 2 * θ := by gcongr
        _ ≤ κ := by rw [hτ, hθ, hκ]; decide +kernel
    have b4 : 0 ≤ η * D := by have := hh0.trans hhη; positivity
    nlinarith
  constructor
  · have h2 := h1.smul hr hz (by omega) hmag0 (by linarith)
    have h3 := (hyN.mono hε hr.pos (Nat.zero_le _) le_rfl).add hr h2 (by omega) (by linarith) hQ
    exact fin h3
  · have h2 := h1.smul' hr hz (by omega) hmag0 (by linarith)
    have h3 := (hyN.mono hε hr.pos (Nat.zero_le _) le_rfl).add hr h2 (by omega) (by linarith) hQ
    exact fin h3

theorem abs_sum_cast (row : List ℚ) : ((row.map (fun c : ℚ => (c : ℝ))).map (|·|)).sum = ((row.map (|·|)).sum : ℚ) := by
  induction row with
  | nil => simp
  | cons c row ih => simp only [List.map_cons, List.sum_cons, ih]; push_cast; rfl

theorem abs_sum_le (row : List ℚ) {τ : ℚ} (hτ : 0 ≤ τ) : (row.map (|·|)).sum ≤ (row.map (fun c => |c| + τ)).sum := by
  induction row with
  | nil => simp
  | cons c row ih => simp only [List.map_cons, List.sum_cons]; linarith

theorem norm_castW_le (hw : Weights w) {v : Fin n → ℚ} {c : ℚ} (hc : 0 ≤ c) (h : ∀ i, |v i| ≤ w i * c) : ‖castW w v‖ ≤ c := by
  refine (pi_norm_le_iff_of_nonneg (by exact_mod_cast hc)).2 fun i => ?_
  have h1 := hw.cast_pos i
  rw [castW, Real.norm_eq_abs, abs_div, abs_of_pos h1, div_le_iff₀ h1, mul_comm]
  exact_mod_cast h i

theorem userR_nonneg {X D η : ℚ} (hX0 : 0 ≤ X) (hD0 : 0 ≤ D) (hη0 : 0 ≤ η) : 0 ≤ userR X D η := by
  have : (0 : ℚ) ≤ 2⁻¹ ^ 500 := pow_nonneg (by norm_num) _
  unfold userR
  positivity

/-- the computed combination is near the exact one -/
theorem user_combo_near (hw : Weights w) {r h : ℚ} (hr : 0 ≤ r) {y Y : Fin n → ℚ} {row : List ℚ} {ks : List (Fin n → ℚ)} (hY : ∀ i, |Y i - (y i + h * combo row ks i)| ≤ w i * r) :
    ‖castW w Y - (castW w y + (h : ℝ) • castW w (combo row ks))‖ ≤ r := by
  have e : castW w Y - (castW w y + (h : ℝ) • castW w (combo row ks)) = castW w (fun i => Y i - (y i + h * combo row ks i)) := by
    funext i
    simp [castW]
    ring
  rw [e]
  exact norm_castW_le hw hr hY

/-- stages stay near the state -/
theorem user_near {X D η : ℚ} (hw : Weights w) (hX0 : 0 ≤ X) (hD0 : 0 ≤ D) {y Y : Fin n → ℚ} {h : ℚ} (hh0 : 0 ≤ h) (hhη : h ≤ η) {row : List ℚ}
    (hsum : (row.map (fun c => |c| + 2 ^ (-1022 : ℤ))).sum ≤ 25) {ks : List (Fin n → ℚ)} (hk : ∀ k ∈ ks, ∀ i, |k i| ≤ w i * D)
    (hY : ∀ i, |Y i - (y i + h * combo row ks i)| ≤ w i * userR X D η) : ‖castW w Y - castW w y‖ ≤ 26 * η * D + userR X D η := by
  have h1 := user_combo_near hw (userR_nonneg hX0 hD0 (hh0.trans hhη)) hY
  have hDR : (0 : ℝ) ≤ D := by exact_mod_cast hD0
  have hhR : (0 : ℝ) ≤ h := by exact_mod_cast hh0
  have hhηR : (h : ℝ) ≤ η := by exact_mod_cast hhη
  have h2 : ‖castW w (combo row ks)‖ ≤ 25 * D := by
    rw [combo_castW]
    refine (norm_combo_le _ _ (W := D) (fun k hk' => ?_) hDR).trans (mul_le_mul_of_nonneg_right ?_ hDR)
    · obtain ⟨k, hk'', rfl⟩ := List.mem_map.1 hk'
      exact norm_castW_le hw hD0 (hk k hk'')
    · rw [abs_sum_cast]
      exact_mod_cast (abs_sum_le row (by positivity)).trans hsum
  have h3 : ‖(h : ℝ) • castW w (combo row ks)‖ ≤ η * (25 * D) := by
    rw [norm_smul, Real.norm_eq_abs, abs_of_nonneg hhR]
    exact mul_le_mul hhηR h2 (norm_nonneg _) (hhR.trans hhηR)
  have e : castW w Y - castW w y = (castW w Y - (castW w y + (h : ℝ) • castW w (combo row ks))) + (h : ℝ) • castW w (combo row ks) := by abel
  rw [e]
  refine (norm_add_le_of_le h1 h3).trans ?_
  have : (0 : ℝ) ≤ η * D := mul_nonneg (hhR.trans hhηR) hDR
  linarith

/-- the loop over the stages -/
theorem user_stages {X D η : ℚ} (hw : Weights w) (hX0 : 0 ≤ X) (hX : X ≤ 2 ^ 100) (hD0 : 0 ≤ D) (hD : D ≤ 2 ^ 50) (hη : η ≤ 2 ^ 50) {y : Fin n → ℚ} (hy : ∀ i, |y i| ≤ w i * X)
    {t t' h : ℚ} (hh : h = t' - t) (hh0 : 0 ≤ h) (hhη : h ≤ η) {g : Rhs (b64Of libm)} {F : Fin n → ℝ} {W : ℝ}
    (hg : ∀ tf (Y : Fin n → ℚ), ‖castW w Y - castW w y‖ ≤ 26 * η * D + userR X D η → ∃ v : Fin n → ℚ, g tf (toFl Y) = .ok (toFl v) ∧ (∀ i, |v i| ≤ w i * D) ∧
      ‖castW w v - F‖ ≤ W) (tf : Fl (b64Of libm)) :
    ∀ {st : List (Fl (b64Of libm) × Vec (b64Of libm))} {ts : List (ℚ × List ℚ)}
      (_ : List.Forall₂ (fun s t => NearRow (b64Of libm) (2⁻¹ ^ 53) (2 ^ (-1022 : ℤ)) s.2 t.2) st ts)
      (_ : ∀ p ∈ ts, p.2.length ≤ 6 ∧ (p.2.map (fun c => |c| + 2 ^ (-1022 : ℤ))).sum ≤ 25)
      {ks : List (Fin n → ℚ)} (_ : ∀ k ∈ ks, (∀ i, |k i| ≤ w i * D) ∧ ‖castW w k - F‖ ≤ W),
      ∃ ks' : List (Fin n → ℚ), rkStagesFl g tf (.fin t' - .fin t) (toFl y) st (ks.map toFl) = .ok (ks'.map toFl) ∧
        (∀ k ∈ ks', (∀ i, |k i| ≤ w i * D) ∧ ‖castW w k - F‖ ≤ W) ∧ ks'.length = ks.length + ts.length
  | [], [], .nil, _, ks, hk => ⟨ks, rfl, hk, by simp⟩
  | (cz, rz) :: st, (c, row) :: ts, .cons hrow hst, hts, ks, hk => by
    obtain ⟨hlen, hsum⟩ := hts (c, row) (by simp)
    obtain ⟨⟨Y, h1, h2⟩, -⟩ := user_combo hw hX0 hX hD0 hD hη hy hh hh0 hhη hrow hlen hsum (fun k hk' => (hk k hk').1)
    obtain ⟨v, g1, g2, g3⟩ := hg (tf + cz * (.fin t' - .fin t)) Y (user_near hw hX0 hD0 hh0 hhη hsum (fun k hk' => (hk k hk').1) h2)
    obtain ⟨ks', e1, e2, e3⟩ := user_stages hw hX0 hX hD0 hD hη hy hh hh0 hhη hg tf hst (fun p hp => hts p (by simp [hp])) (ks := ks ++ [v]) (by
      intro k hk'
      rcases List.mem_append.1 hk' with hk' | hk'
      · exact hk k hk'
      · simp at hk'; subst hk'; exact ⟨g2, g3⟩)
    refine ⟨ks', ?_, e2, by simp [e3]; omega⟩
    have hl : (toFl y : Vec (b64Of libm)).length = n := by simp [toFl]
    have hlv : (toFl v : Vec (b64Of libm)).length = n := by simp [toFl]
    rw [rkStagesFl, hl, h1, g1]
    simp only [bind, Except.bind, fitRow_of_length hlv]
    rw [List.map_append] at e1
    exact e1

/-- one accepted step of the solver -/
theorem user_rkStep {X D η : ℚ} (hw : Weights w) (hX0 : 0 ≤ X) (hX : X ≤ 2 ^ 100) (hD0 : 0 ≤ D) (hD : D ≤ 2 ^ 50) (hη : η ≤ 2 ^ 50) {y : Fin n → ℚ} (hy : ∀ i, |y i| ≤ w i * X)
    {t t' h : ℚ} (hh : h = t' - t) (hh0 : 0 ≤ h) (hhη : h ≤ η) {g : Rhs (b64Of libm)} {F : Fin n → ℝ} {W : ℝ}
    (hg : ∀ tf (Y : Fin n → ℚ), ‖castW w Y - castW w y‖ ≤ 26 * η * D + userR X D η → ∃ v : Fin n → ℚ, g tf (toFl Y) = .ok (toFl v) ∧ (∀ i, |v i| ≤ w i * D) ∧
      ‖castW w v - F‖ ≤ W) :
    ∃ y' : Fin n → ℚ, rkStepFl dopri g (.fin t) (.fin t' - .fin t) (toFl y) = .ok (toFl y') ∧
      ‖castW w y' - (castW w y + (h : ℝ) • F)‖ ≤ h * (17 / 10 * W) + userR X D η := by
  have hr0 := userR_nonneg hX0 hD0 (hh0.trans hhη)
  have hη0 := hh0.trans hhη
  obtain ⟨d1, d2⟩ := near_dopri (b64_rounds libm) (by decide +kernel)
  have hrow : ∀ r ∈ (kdopri : KTab ℚ).b :: (kdopri : KTab ℚ).stages.map (·.2), r.length ≤ 6 ∧ (r.map (fun c => |c| + 2 ^ (-1022 : ℤ))).sum ≤ 25 := by
    have hτ : (2 : ℚ) ^ (-1022 : ℤ) ≤ 1 / 10000 := by decide +kernel
    generalize (2 : ℚ) ^ (-1022 : ℤ) = τ at hτ
    intro r hr'
    simp only [kdopri, List.map_cons, List.map_nil, List.mem_cons, List.not_mem_nil, or_false] at hr'
    rcases hr' with rfl | rfl | rfl | rfl | rfl | rfl <;> constructor <;> simp [abs_div, neg_div] <;> linarith
  obtain ⟨v, g1, g2, g3⟩ := hg (.fin t) y (by
    rw [sub_self, norm_zero]
    exact_mod_cast (by positivity : (0 : ℚ) ≤ 26 * η * D + userR X D η))
  obtain ⟨ks, e1, e2, e3⟩ := user_stages hw hX0 hX hD0 hD hη hy hh hh0 hhη hg (.fin t) d1
    (fun p hp => hrow p.2 (List.mem_cons_of_mem _ (List.mem_map_of_mem hp))) (ks := [v]) (by simpa using ⟨g2, g3⟩)
  obtain ⟨hlen, hsum⟩ := hrow (kdopri : KTab ℚ).b (by simp)
  obtain ⟨-, y', h1, h2⟩ := user_combo hw hX0 hX hD0 hD hη hy hh hh0 hhη d2 hlen hsum (fun k hk' => (e2 k hk').1)
  refine ⟨y', ?_, ?_⟩
  · have hl : (toFl y : Vec (b64Of libm)).length = n := by simp [toFl]
    have hlv : (toFl v : Vec (b64Of libm)).length = n := by simp [toFl]
    simp only [rkStepFl, g1, bind, Except.bind, hl, fitRow_of_length hlv, pure, Except.pure]
    simp only [List.map_cons, List.map_nil] at e1
    rw [e1]
    exact congrArg _ h1
  · have h3 := user_combo_near hw hr0 h2
    have hhR : (0 : ℝ) ≤ h := by exact_mod_cast hh0
    have hW : 0 ≤ W := (norm_nonneg _).trans g3
    have h4 : ‖castW w (combo (kdopri : KTab ℚ).b ks) - F‖ ≤ 17 / 10 * W := by
      have := norm_combo_sub_le F ((kdopri : KTab ℚ).b.map (fun c : ℚ => (c : ℝ))) (ks.map (castW w)) (by simp [e3, kdopri]) (W := W) (by
        intro k hk
        obtain ⟨k, hk', rfl⟩ := List.mem_map.1 hk
        exact (e2 k hk').2)
      rw [← combo_castW, abs_sum_cast] at this
      have s1 : ((kdopri : KTab ℚ).b.map (fun c : ℚ => (c : ℝ))).sum = 1 := by simp [kdopri]; norm_num
      have s2 : ((kdopri : KTab ℚ).b.map (|·|)).sum ≤ 17 / 10 := by decide +kernel
      rw [s1, one_smul] at this
      refine this.trans (mul_le_mul_of_nonneg_right ?_ hW)
      have : ((((kdopri : KTab ℚ).b.map (|·|)).sum : ℚ) : ℝ) ≤ ((17 / 10 : ℚ) : ℝ) := Rat.cast_le.2 s2
      push_cast at this
      push_cast
      exact this
    have e : castW w y' - (castW w y + (h : ℝ) • F) = (castW w y' - (castW w y + (h : ℝ) • castW w (combo (kdopri : KTab ℚ).b ks)))
        + (h : ℝ) • (castW w (combo (kdopri : KTab ℚ).b ks) - F) := by module
    rw [e]
    refine (norm_add_le_of_le h3 (?_ : _ ≤ h * (17 / 10 * W))).trans (by linarith)
    rw [norm_smul, Real.norm_eq_abs, abs_of_nonneg hhR]
    exact mul_le_mul_of_nonneg_left h4 hhR

/-- one Euler step -/
theorem user_eulerStep {X D η : ℚ} (hw : Weights w) (hX0 : 0 ≤ X) (hX : X ≤ 2 ^ 100) (hD0 : 0 ≤ D) (hD : D ≤ 2 ^ 50) (hη : η ≤ 2 ^ 50) {y : Fin n → ℚ} (hy : ∀ i, |y i| ≤ w i * X)
    {h : ℚ} (hh0 : 0 ≤ h) (hhη : h ≤ η) {v : Fin n → ℚ} (hv : ∀ i, |v i| ≤ w i * D) {F : Fin n → ℝ} {W : ℝ} (hF : ‖castW w v - F‖ ≤ W) :
    ∃ y' : Fin n → ℚ, vadd (toFl y : Vec (b64Of libm)) (vscale (.fin h) (toFl v)) = .ok (toFl y') ∧
      ‖castW w y' - (castW w y + (h : ℝ) • F)‖ ≤ h * (17 / 10 * W) + userR X D η := by
  have hη0 := hh0.trans hhη
  obtain ⟨τ, hτ⟩ : ∃ τ : ℚ, τ = 2 ^ (-1022 : ℤ) := ⟨_, rfl⟩
  obtain ⟨κ, hκ⟩ : ∃ κ : ℚ, κ = 2⁻¹ ^ 500 := ⟨_, rfl⟩
  have hR := b64_rounds libm
  rw [← hτ] at hR
  have hτκ : ∀ i, 2 * τ ≤ w i * κ := fun i =>
    le_trans (show 2 * τ ≤ 2⁻¹ ^ 100 * κ by rw [hτ, hκ]; decide +kernel) (mul_le_mul_of_nonneg_right (hw i).1 (by rw [hκ]; exact pow_nonneg (by norm_num) _))
  have hκ1 : κ ≤ 1 := by rw [hκ]; exact pow_le_one₀ (by norm_num) (by norm_num)
  have hhD : h * D ≤ η * D := mul_le_mul_of_nonneg_right hhη hD0
  have hmag : ∀ i, |y i| + |h| * |v i| + 2 * τ ≤ w i * (X + 26 * η * D + κ) := fun i => by
    have h1 := mul_le_mul_of_nonneg_left (hv i) hh0
    have hwi := (hw.pos i).le
    have h2 : 0 ≤ w i * (η * D) := by positivity
    have h3 := mul_le_mul_of_nonneg_left hhD hwi
    rw [abs_of_nonneg hh0]
    nlinarith [hy i, hτκ i]
  have hbig : ∀ i, w i * (X + 26 * η * D + κ) ≤ 2 ^ 170 := fun i => by
    refine (mul_le_mul (hw i).2 (?_ : _ ≤ (2 : ℚ) ^ 120) ?_ (by norm_num)).trans (by norm_num)
    swap
    · have : 0 ≤ κ := by rw [hκ]; exact pow_nonneg (by norm_num) _
      positivity
    have : η * D ≤ 2 ^ 50 * 2 ^ 50 := mul_le_mul hη hD hD0 (by norm_num)
    have : (2 : ℚ) ^ 100 + 26 * (2 ^ 50 * 2 ^ 50) + 1 ≤ 2 ^ 120 := by norm_num
    linarith
  have hγ : (1 + (2⁻¹ : ℚ) ^ 53) ^ (0 + 2) - 1 ≤ 2⁻¹ ^ 48 := by decide +kernel
  have hpos : ∀ i, 0 ≤ |y i| + |h| * |v i| + 2 * τ := fun i => by have := hR.tau; positivity
  obtain ⟨y', h1, h2⟩ := near_euler hR (k := 0) h y v v (fun i => |v i|) (fun i => le_rfl) (fun i => by simp) (fun i => by
    calc _ ≤ (2 : ℚ) * 2 ^ 170 := mul_le_mul (by linarith [show (2⁻¹ : ℚ) ^ 48 ≤ 1 by norm_num]) ((hmag i).trans (hbig i)) (hpos i) (by norm_num)
      _ ≤ _ := by decide +kernel)
  refine ⟨y', h1, ?_⟩
  have hr0 := userR_nonneg hX0 hD0 hη0
  have h3 : ‖castW w (fun i => y' i - (y i + h * v i))‖ ≤ userR X D η := norm_castW_le hw hr0 fun i => (h2 i).trans (by
    rw [userR, ← hκ, mul_left_comm]
    exact mul_le_mul hγ (hmag i) (hpos i) (by positivity))
  have hhR : (0 : ℝ) ≤ h := by exact_mod_cast hh0
  have e : castW w y' - (castW w y + (h : ℝ) • F) = castW w (fun i => y' i - (y i + h * v i)) + (h : ℝ) • (castW w v - F) := by
    funext i
    simp [castW]
    ring
  rw [e]
  refine (norm_add_le_of_le h3 (?_ : _ ≤ h * (17 / 10 * W))).trans (by linarith)
  rw [norm_smul, Real.norm_eq_abs, abs_of_nonneg hhR]
  have := (norm_nonneg _).trans hF
  exact mul_le_mul_of_nonneg_left (hF.trans (by linarith)) hhR

end b64

/-! ### against the exact motion -/

/-- error per unit of time -/
noncomputable def userP (L δ : ℝ) (D η : ℚ) : ℝ := 2 * δ + 46 * L * D * η

/-- error bound after the time `T` and `N` steps, from the error `E`, with a further error `ω` per step -/
noncomputable def userB (L δ : ℝ) (D X η : ℚ) (ω T N E : ℝ) : ℝ := grow L 0 (userP L δ D η) (2 * userR X D η + ω) T N E

/-- everything fixed during a simulation -/
structure UserSizes (L δ : ℝ) (D X η : ℚ) : Prop where
  X0 : 0 ≤ X
  X1 : X ≤ 2 ^ 100
  D0 : 0 ≤ D
  D1 : D ≤ 2 ^ 50
  eta0 : 0 ≤ η
  eta1 : η ≤ 2 ^ 50
  L0 : 0 ≤ L
  del0 : 0 ≤ δ
  etaL : η * L ≤ 1 / 2

/-- within the distance `ρ` of the motion, after scaling -/
def Near0 {n : ℕ} (φ : ℝ → Fin n → ℝ) (ρ T : ℝ) (y : Fin n → ℝ) : Prop := ∃ t ∈ Set.Icc 0 T, ‖y - φ t‖ ≤ ρ

/-- `Shadows`, after scaling -/
structure Scaled {libm : Fmt ℚ} {n m : ℕ} (w : Fin n → ℚ) (d : Dyn (b64Of libm)) (U : Fin m → ℚ) (f : (Fin n → ℝ) → Fin n → ℝ) (φ : ℝ → Fin n → ℝ)
    (L δ ρ : ℝ) (D X : ℚ) (T : ℝ) : Prop where
  solves : ∀ t ∈ Set.Icc 0 T, HasDerivWithinAt φ (f (φ t)) (Set.Icc 0 T) t
  computes : ∀ (t : Fl (b64Of libm)) (y : Fin n → ℚ), Near0 φ ρ T (castW w y) → ∃ v : Fin n → ℚ,
    d.computeStateDot t (toFl y) (toFl U) = .ok (toFl v) ∧ (∀ i, |v i| ≤ w i * D) ∧ ‖castW w v - f (castW w y)‖ ≤ δ
  lipschitz : ∀ y z, Near0 φ ρ T y → Near0 φ ρ T z → ‖f y - f z‖ ≤ L * ‖y - z‖
  speed : ∀ y, Near0 φ ρ T y → ‖f y‖ ≤ D
  size : ∀ y, Near0 φ ρ T y → ‖y‖ ≤ X

theorem scaled_norm {n : ℕ} {w : Fin n → ℚ} (hw : Weights w) {v : Fin n → ℝ} {c : ℝ} (hc : 0 ≤ c) :
    ‖fun i => v i / w i‖ ≤ c ↔ ∀ i, |v i| ≤ w i * c := by
  rw [pi_norm_le_iff_of_nonneg hc]
  refine forall_congr' fun i => ?_
  have h1 := hw.cast_pos i
  rw [Real.norm_eq_abs, abs_div, abs_of_pos h1, div_le_iff₀ h1, mul_comm]

theorem Spec.Shadows.scaled {libm : Fmt ℚ} {n m : ℕ} {w : Fin n → ℚ} (hw : Weights w) {d : Dyn (b64Of libm)} {U : Fin m → ℚ} {f : (Fin n → ℝ) → Fin n → ℝ}
    {φ : ℝ → Fin n → ℝ} {L δ ρ : ℝ} {D X : ℚ} {T : ℝ} (hL : 0 ≤ L) (hδ : 0 ≤ δ) (hρ : 0 ≤ ρ) (hD : 0 ≤ D) (hX : 0 ≤ X) (S : Shadows w d U f φ L δ ρ D X T) :
    Scaled w d U (fun y i => f (fun j => y j * w j) i / w i) (fun t i => φ t i / w i) L δ ρ D X T := by
  have hD' : (0 : ℝ) ≤ D := by exact_mod_cast hD
  have hX' : (0 : ℝ) ≤ X := by exact_mod_cast hX
  have hne : ∀ i, (w i : ℝ) ≠ 0 := fun i => (hw.cast_pos i).ne'
  have near : ∀ y : Fin n → ℝ, Near0 (fun t i => φ t i / w i) ρ T y → Around w φ ρ T (fun j => y j * w j) := by
    rintro y ⟨t, ht, h⟩
    refine ⟨t, ht, (scaled_norm hw hρ).1 (le_of_eq_of_le (congrArg _ ?_) h)⟩
    funext i
    have := hne i
    simp only [Pi.sub_apply]
    field_simp
  have back : ∀ y : Fin n → ℚ, (fun j => castW w y j * w j) = fun j => (y j : ℝ) := fun y => by
    funext j
    have := hne j
    simp only [castW]
    field_simp
  constructor
  · intro t ht
    have hφ : (fun i => φ t i / (w i : ℝ) * w i) = φ t := by
      funext i
      have := hne i
      field_simp
    rw [hφ]
    exact hasDerivWithinAt_pi.2 fun i => (hasDerivWithinAt_pi.1 (S.solves t ht) i).div_const _
  · intro t y hy
    have h1 := near _ hy
    rw [back] at h1
    obtain ⟨v, k1, k2⟩ := S.computes t y h1
    refine ⟨v, k1, fun i => (k2 i).2, ?_⟩
    rw [back]
    refine le_of_eq_of_le (congrArg _ ?_) ((scaled_norm hw hδ).2 fun i => (k2 i).1)
    funext i
    simp only [castW, Pi.sub_apply]
    ring
  · intro y z hy hz
    have h1 := S.lipschitz _ _ ‖y - z‖ (near y hy) (near z hz) ((scaled_norm hw (norm_nonneg _)).1 (le_of_eq (congrArg _ (by
      funext i
      have := hne i
      simp only [Pi.sub_apply]
      field_simp))))
    refine le_of_eq_of_le (congrArg _ ?_) ((scaled_norm hw (mul_nonneg hL (norm_nonneg _))).2 h1)
    funext i
    simp only [Pi.sub_apply]
    ring
  · exact fun y hy => (scaled_norm hw hD').2 (S.speed _ (near y hy))
  · intro y hy
    refine le_of_eq_of_le (congrArg _ ?_) ((scaled_norm hw hX').2 (S.size _ (near y hy)))
    funext i
    have := hne i
    field_simp

section
variable {libm : Fmt ℚ} {n m : ℕ} {w : Fin n → ℚ} {d : Dyn (b64Of libm)} {U : Fin m → ℚ} {f : (Fin n → ℝ) → Fin n → ℝ} {φ : ℝ → Fin n → ℝ} {L δ ρ : ℝ} {D X η : ℚ} {T : ℝ}

theorem UserSizes.parts (Z : UserSizes L δ D X η) : 0 ≤ userP L δ D η ∧ (0 : ℝ) ≤ 2 * userR X D η ∧ (0 : ℝ) ≤ D ∧ (0 : ℝ) ≤ η ∧ (0 : ℝ) ≤ userR X D η := by
  have h1 : (0 : ℝ) ≤ D := by exact_mod_cast Z.D0
  have h2 : (0 : ℝ) ≤ η := by exact_mod_cast Z.eta0
  have h3 : (0 : ℝ) ≤ userR X D η := by exact_mod_cast userR_nonneg Z.X0 Z.D0 Z.eta0
  have h4 := Z.L0
  have h5 := Z.del0
  refine ⟨by unfold userP; positivity, by positivity, h1, h2, h3⟩

/-- the derivative within a step -/
theorem user_field (S : Scaled w d U f φ L δ ρ D X T) (Z : UserSizes L δ D X η) {y : Fin n → ℚ} {s E : ℝ} (hs : s ∈ Set.Icc 0 T)
    (hE : ‖castW w y - φ s‖ ≤ E) (hρ : E + 26 * η * D + userR X D η ≤ ρ) (tf : Fl (b64Of libm)) (Y : Fin n → ℚ)
    (hY : ‖castW w Y - castW w y‖ ≤ 26 * η * D + userR X D η) :
    ∃ v : Fin n → ℚ, d.computeStateDot tf (toFl Y) (toFl U) = .ok (toFl v) ∧ (∀ i, |v i| ≤ w i * D) ∧
      ‖castW w v - f (castW w y)‖ ≤ δ + L * (26 * η * D + userR X D η) := by
  obtain ⟨-, -, hD, hη, hr⟩ := Z.parts
  have a1 : Near0 φ ρ T (castW w Y) := ⟨s, hs, by
    have e : castW w Y - φ s = (castW w Y - castW w y) + (castW w y - φ s) := by abel
    rw [e]
    exact (norm_add_le_of_le hY hE).trans (by linarith)⟩
  have a2 : Near0 φ ρ T (castW w y) := ⟨s, hs, hE.trans (by
    have : 0 ≤ 26 * (η : ℝ) * D := by positivity
    linarith)⟩
  obtain ⟨v, h1, h2, h3⟩ := S.computes tf Y a1
  refine ⟨v, h1, h2, ?_⟩
  have h4 := (S.lipschitz _ _ a1 a2).trans (mul_le_mul_of_nonneg_left hY Z.L0)
  have e : castW w v - f (castW w y) = (castW w v - f (castW w Y)) + (f (castW w Y) - f (castW w y)) := by abel
  rw [e]
  exact norm_add_le_of_le h3 h4

/-- the error after a step from the error before -/
theorem user_error (S : Scaled w d U f φ L δ ρ D X T) (Z : UserSizes L δ D X η) {y y' : Fin n → ℚ} {s E : ℝ} {h : ℚ} (hs : 0 ≤ s) (hsT : s + h ≤ T)
    (hh0 : 0 ≤ h) (hhη : h ≤ η) (hE0 : 0 ≤ E) (hE : ‖castW w y - φ s‖ ≤ E) (hρ : E + 26 * η * D + userR X D η ≤ ρ)
    (hstep : ‖castW w y' - (castW w y + (h : ℝ) • f (castW w y))‖ ≤ h * (17 / 10 * (δ + L * (26 * η * D + userR X D η))) + userR X D η) :
    ‖castW w y' - φ (s + h)‖ ≤ userB L δ D X η 0 h 1 E := by
  obtain ⟨hp, hq, hD, hη, hr⟩ := Z.parts
  have hL := Z.L0
  have hδ := Z.del0
  have hhR : (0 : ℝ) ≤ h := by exact_mod_cast hh0
  have hhηR : (h : ℝ) ≤ η := by exact_mod_cast hhη
  have hρ0 : 0 ≤ ρ := le_trans (by positivity) hρ
  have hs' : s ∈ Set.Icc 0 T := ⟨hs, by linarith⟩
  have on : ∀ t ∈ Set.Icc 0 T, Near0 φ ρ T (φ t) := fun t ht => ⟨t, ht, by simpa using hρ0⟩
  have fl : Flows f (Near0 φ ρ T) D T φ := ⟨S.solves, fun t ht => S.speed _ (on t ht), on⟩
  have h1 := fl.local' hL S.lipschitz hs hhR hsT
  have a2 : Near0 φ ρ T (castW w y) := ⟨s, hs', hE.trans (by
    have : 0 ≤ 26 * (η : ℝ) * D := by positivity
    linarith)⟩
  have h2 := (S.lipschitz _ _ a2 (on s hs')).trans (mul_le_mul_of_nonneg_left hE hL)
  have e : castW w y' - φ (s + h) = (castW w y' - (castW w y + (h : ℝ) • f (castW w y))) + ((castW w y - φ s) + (h : ℝ) • (f (castW w y) - f (φ s)))
      - (φ (s + h) - (φ s + (h : ℝ) • f (φ s))) := by module
  have h3 : ‖(castW w y - φ s) + (h : ℝ) • (f (castW w y) - f (φ s))‖ ≤ E + h * (L * E) := by
    refine norm_add_le_of_le hE ?_
    rw [norm_smul, Real.norm_eq_abs, abs_of_nonneg hhR]
    exact mul_le_mul_of_nonneg_left h2 hhR
  have h4 := grow_step (b := L) (c := 0) (p := userP L δ D η) (q := 2 * userR X D η + 0) (T := h) (E := E) hL le_rfl hp (by rw [add_zero]; exact hq) hhR hE0
  rw [e]
  refine (norm_sub_le_of_le (norm_add_le_of_le hstep h3) h1).trans (le_trans ?_ h4)
  have x1 := Real.add_one_le_exp (L * h)
  have x2 : (L * h + 1) * E ≤ Real.exp (L * h) * E := mul_le_mul_of_nonneg_right x1 hE0
  have x3 : L * D * (h : ℝ) ^ 2 ≤ L * D * η * h := by
    rw [pow_two, ← mul_assoc]
    exact mul_le_mul_of_nonneg_right (mul_le_mul_of_nonneg_left hhηR (by positivity)) hhR
  have x4 : h * L * (userR X D η : ℝ) ≤ 1 / 2 * userR X D η := mul_le_mul_of_nonneg_right ((mul_le_mul_of_nonneg_right hhηR hL).trans Z.etaL) hr
  unfold userP
  have x5 : 0 ≤ h * δ := by positivity
  have x6 : 0 ≤ L * D * η * h := by positivity
  nlinarith

end
end SAD
