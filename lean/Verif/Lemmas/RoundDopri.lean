import Verif.Lemmas.RoundRk
import Mathlib.Tactic.NormNum

/-! # Rounding errors of a Dormand-Prince step -/

set_option linter.unusedSectionVars false

namespace SAD
open Spec

section
variable {K : Type} [Field K] [LinearOrder K] [IsStrictOrderedRing K] {R : Fmt K} {n : ℕ} {ε τ M θ Q : K} {w : Fin n → K} {kmax : ℕ}

theorem comboMag_le (hτ : 0 ≤ τ) (hθ : 0 ≤ θ) {H P : K} (hH : 0 ≤ H) : ∀ (row : List K) {Ds gs : List K},
    List.Forall₂ (fun D g => H * D ≤ g * P) Ds gs →
    H * comboMag τ θ row Ds ≤ ((List.zip row gs).map (fun p => (|p.1| + τ) * p.2)).sum * P + 2 * θ * H * row.length
  | [], _, _, _ => by simp [comboMag]
  | c :: row, _, _, .nil => by
    simp only [comboMag, List.zip_nil_right, List.map_nil, List.sum_nil, mul_zero, zero_mul, zero_add]
    positivity
  | c :: row, D :: Ds, g :: gs, .cons h hs => by
    have ih := comboMag_le hτ hθ hH row hs
    rw [comboMag_cons]
    simp only [List.zip_cons_cons, List.map_cons, List.sum_cons, List.length_cons]
    push_cast
    have : (|c| + τ) * (H * D) ≤ (|c| + τ) * (g * P) := mul_le_mul_of_nonneg_left h (by positivity)
    nlinarith

theorem comboMag_le_rowSum (hτ : 0 ≤ τ) (hθ : 0 ≤ θ) {D : K} (hD : 0 ≤ D) : ∀ (row Ds : List K), (∀ d ∈ Ds, 0 ≤ d ∧ d ≤ D) →
    comboMag τ θ row Ds ≤ (row.map (fun c => |c| + τ)).sum * D + 2 * θ * row.length
  | [], Ds, _ => by simp [comboMag]
  | c :: row, [], _ => by
    have : 0 ≤ ((c :: row).map (fun c => |c| + τ)).sum := List.sum_nonneg (by
      intro x hx; obtain ⟨y, -, rfl⟩ := List.mem_map.1 hx; positivity)
    simp only [comboMag, List.zip_nil_right, List.map_nil, List.sum_nil]
    positivity
  | c :: row, d :: Ds, h => by
    have ih := comboMag_le_rowSum hτ hθ hD row Ds (fun x hx => h x (by simp [hx]))
    obtain ⟨h0, h1⟩ := h d (by simp)
    rw [comboMag_cons]
    simp only [List.map_cons, List.sum_cons, List.length_cons]
    push_cast
    have : (|c| + τ) * d ≤ (|c| + τ) * D := mul_le_mul_of_nonneg_left h1 (by positivity)
    nlinarith

theorem near_lit (hR : Rounds R ε τ M) (hM : 16 ≤ M) (a b : ℕ) (hb : b ≠ 0) (hab : a ≤ 16 * b) :
    Near ε 1 ((.fin (a : K) : Fl R) / .fin (b : K)) ((a : K) / b) (|(a : K) / b| + τ) := by
  have hb' : (0 : K) < b := by exact_mod_cast Nat.pos_of_ne_zero hb
  refine near_div hR hb'.ne' ?_
  rw [abs_of_nonneg (by positivity)]
  refine le_trans ?_ hM
  rw [div_le_iff₀ hb']
  exact_mod_cast hab

theorem near_lit_neg (hR : Rounds R ε τ M) (hM : 16 ≤ M) (a b : ℕ) (hb : b ≠ 0) (hab : a ≤ 16 * b) :
    Near ε 1 ((-.fin (a : K) : Fl R) / .fin (b : K)) (-(a : K) / b) (|-(a : K) / b| + τ) := by
  have hb' : (0 : K) < b := by exact_mod_cast Nat.pos_of_ne_zero hb
  refine near_div hR hb'.ne' ?_
  rw [neg_div, abs_neg, abs_of_nonneg (by positivity)]
  refine le_trans ?_ hM
  rw [div_le_iff₀ hb']
  exact_mod_cast hab

theorem near_lit_zero (hR : Rounds R ε τ M) : Near ε 1 (0 : Fl R) 0 (|(0 : K)| + τ) := by
  have := (near_fin (R := R) (ε := ε) (0 : K)).mono hR.eps (Nat.zero_le 1) (show |(0 : K)| ≤ |(0 : K)| + τ by linarith [hR.tau])
  rwa [Fl.zero_fin]

/-- the coefficients, as computed -/
theorem near_dopri (hR : Rounds R ε τ M) (hM : 16 ≤ M) :
    List.Forall₂ (fun s t => NearRow R ε τ s.2 t.2) (dopri : Tableau R).stages (kdopri : KTab K).stages ∧
      NearRow R ε τ (dopri : Tableau R).b (kdopri : KTab K).b := by
  have p := fun a b hb hab => near_lit hR hM a b hb hab
  have q := fun a b hb hab => near_lit_neg hR hM a b hb hab
  have e : ∀ (a : ℕ) [a.AtLeastTwo], (OfNat.ofNat a : K) = ((OfNat.ofNat a : ℕ) : K) := fun a _ => (Nat.cast_ofNat).symm
  constructor
  · unfold dopri kdopri
    refine .cons ?_ (.cons ?_ (.cons ?_ (.cons ?_ (.cons ?_ .nil))))
    · refine .cons ?_ .nil
      have := p 1 5 (by norm_num) (by norm_num)
      rw [Nat.cast_one] at this
      show Near ε 1 ((1 : Fl R) / _) _ _
      rw [Fl.one_fin]
      exact this
    · refine .cons ?_ (.cons ?_ .nil)
      · exact p 3 40 (by norm_num) (by norm_num)
      · exact p 9 40 (by norm_num) (by norm_num)
    · refine .cons ?_ (.cons ?_ (.cons ?_ .nil))
      · exact p 44 45 (by norm_num) (by norm_num)
      · exact q 56 15 (by norm_num) (by norm_num)
      · exact p 32 9 (by norm_num) (by norm_num)
    · refine .cons ?_ (.cons ?_ (.cons ?_ (.cons ?_ .nil)))
      · exact p 19372 6561 (by norm_num) (by norm_num)
      · exact q 25360 2187 (by norm_num) (by norm_num)
      · exact p 64448 6561 (by norm_num) (by norm_num)
      · exact q 212 729 (by norm_num) (by norm_num)
    · refine .cons ?_ (.cons ?_ (.cons ?_ (.cons ?_ (.cons ?_ .nil))))
      · exact p 9017 3168 (by norm_num) (by norm_num)
      · exact q 355 33 (by norm_num) (by norm_num)
      · exact p 46732 5247 (by norm_num) (by norm_num)
      · exact p 49 176 (by norm_num) (by norm_num)
      · exact q 5103 18656 (by norm_num) (by norm_num)
  · unfold dopri kdopri
    refine .cons ?_ (.cons ?_ (.cons ?_ (.cons ?_ (.cons ?_ (.cons ?_ .nil)))))
    · exact p 35 384 (by norm_num) (by norm_num)
    · exact near_lit_zero hR
    · exact p 500 1113 (by norm_num) (by norm_num)
    · exact p 125 192 (by norm_num) (by norm_num)
    · exact q 2187 6784 (by norm_num) (by norm_num)
    · exact p 11 84 (by norm_num) (by norm_num)

/-- the magnitudes of the six stages -/
theorem dopri_stageMags (F : (Fin n → K) → Fin n → K) (α μ X H h : K) (y : Fin n → K) :
    ∃ D0 D1 D2 D3 D4 D5 : K,
      (rkStagesMag F τ θ α μ X H h y (kdopri : KTab K).stages [(F y, α * X + μ)]).map (·.2) = [D0, D1, D2, D3, D4, D5] ∧
      D0 = α * X + μ ∧
      D1 = α * (X + (H * comboMag τ θ [1/5] [D0] + θ) + θ) + μ ∧
      D2 = α * (X + (H * comboMag τ θ [3/40, 9/40] [D0, D1] + θ) + θ) + μ ∧
      D3 = α * (X + (H * comboMag τ θ [44/45, -56/15, 32/9] [D0, D1, D2] + θ) + θ) + μ ∧
      D4 = α * (X + (H * comboMag τ θ [19372/6561, -25360/2187, 64448/6561, -212/729] [D0, D1, D2, D3] + θ) + θ) + μ ∧
      D5 = α * (X + (H * comboMag τ θ [9017/3168, -355/33, 46732/5247, 49/176, -5103/18656] [D0, D1, D2, D3, D4] + θ) + θ) + μ := by
  refine ⟨_, _, _, _, _, _, rfl, rfl, rfl, rfl, rfl, rfl, rfl⟩

/-- one stage -/
theorem stage_le {α μ X H P G c : K} (hα : 0 ≤ α) (hX : 0 ≤ X) (hH : 0 ≤ H) (hθ : 0 ≤ θ) (hc : 0 ≤ c) (hHα : H * α ≤ 1) (L : ℕ)
    (hL : L ≤ 5) (hP : P = X + H * μ + 12 * (1 + H) * θ) (hcG : H * c ≤ (G - 1) * P + 2 * θ * H * L) :
    X + (H * c + θ) + θ ≤ G * P - H * μ ∧ H * (α * (X + (H * c + θ) + θ) + μ) ≤ G * P := by
  have hL' : (L : K) ≤ 5 := by exact_mod_cast hL
  have h1 : θ * H * L ≤ θ * H * 5 := mul_le_mul_of_nonneg_left hL' (by positivity)
  have h2 : X + (H * c + θ) + θ ≤ G * P - H * μ := by
    have h0 : 0 ≤ H * θ := by positivity
    have : G * P = P + (G - 1) * P := by ring
    rw [this]
    nlinarith
  refine ⟨h2, ?_⟩
  have h3 : 0 ≤ X + (H * c + θ) + θ := by positivity
  have h4 : H * α * (X + (H * c + θ) + θ) ≤ X + (H * c + θ) + θ := mul_le_of_le_one_left h3 hHα
  calc _ = H * α * (X + (H * c + θ) + θ) + H * μ := by ring
    _ ≤ _ := by linarith

theorem dopri_stages_le (hτ : 0 ≤ τ) (hτ1 : τ ≤ 1 / 10000) (hθ : 0 ≤ θ) (F : (Fin n → K) → Fin n → K) {α μ X H P D : K} (h : K) (y : Fin n → K)
    (hα : 0 ≤ α) (hμ : 0 ≤ μ) (hX : 0 ≤ X) (hH : 0 ≤ H) (hHα : H * α ≤ 1) (hP : P = X + H * μ + 12 * (1 + H) * θ) (hD : D = 42 * (α * P) + μ) :
    ∃ D0 D1 D2 D3 D4 D5 : K,
      (rkStagesMag F τ θ α μ X H h y (kdopri : KTab K).stages [(F y, α * X + μ)]).map (·.2) = [D0, D1, D2, D3, D4, D5] ∧
      ∀ d ∈ [D0, D1, D2, D3, D4, D5], 0 ≤ d ∧ d ≤ D := by
  obtain ⟨D0, D1, D2, D3, D4, D5, hmap, e0, e1, e2, e3, e4, e5⟩ := dopri_stageMags (τ := τ) (θ := θ) F α μ X H h y
  have hP0 : 0 ≤ P := by rw [hP]; positivity
  have hHμ : 0 ≤ H * μ := mul_nonneg hH hμ
  have n0 : 0 ≤ D0 := by rw [e0]; positivity
  have hs0 : H * D0 ≤ 1 * P := by
    rw [e0, hP]
    have : H * α * X ≤ X := mul_le_of_le_one_left hX hHα
    have : 0 ≤ (1 + H) * θ := by positivity
    nlinarith
  have y0 : X ≤ 42 * P - H * μ := by
    have : 0 ≤ (1 + H) * θ := by positivity
    rw [hP]; linarith
  have cn : ∀ row (Ds : List K), (∀ d ∈ Ds, 0 ≤ d) → 0 ≤ comboMag τ θ row Ds := fun row Ds hd => comboMag_nonneg hτ hθ row Ds hd
  have dn : ∀ {c : K}, 0 ≤ c → 0 ≤ α * (X + (H * c + θ) + θ) + μ := fun {c} hc => by positivity
  have num : ∀ {row gs : List K} {G : K}, ((List.zip row gs).map (fun p => (|p.1| + τ) * p.2)).sum ≤ G - 1 →
      ∀ {Ds : List K}, List.Forall₂ (fun D g => H * D ≤ g * P) Ds gs → H * comboMag τ θ row Ds ≤ (G - 1) * P + 2 * θ * H * row.length :=
    fun {row gs G} hG {Ds} hDs => (comboMag_le hτ hθ hH row hDs).trans (by
      have := mul_le_mul_of_nonneg_right hG hP0
      linarith)
  have c1 := cn [1/5] [D0] (by simp [n0])
  obtain ⟨y1, s1⟩ := stage_le hα hX hH hθ c1 hHα 1 (by norm_num) hP (num (G := 6/5 + 1/1000) (gs := [1]) (by
    simp [abs_div]; linarith) (.cons hs0 .nil))
  have n1 := dn c1
  rw [← e1] at s1 n1
  have c2 := cn [3/40, 9/40] [D0, D1] (by simp [n0, n1])
  obtain ⟨y2, s2⟩ := stage_le hα hX hH hθ c2 hHα 2 (by norm_num) hP (num (G := 1346/1000) (gs := [1, 6/5 + 1/1000]) (by
    simp [abs_div]; linarith) (.cons hs0 (.cons s1 .nil)))
  have n2 := dn c2
  rw [← e2] at s2 n2
  have c3 := cn [44/45, -56/15, 32/9] [D0, D1, D2] (by simp [n0, n1, n2])
  obtain ⟨y3, s3⟩ := stage_le hα hX hH hθ c3 hHα 3 (by norm_num) hP (num (G := 1126/100) (gs := [1, 6/5 + 1/1000, 1346/1000]) (by
    simp [abs_div, neg_div]; linarith) (.cons hs0 (.cons s1 (.cons s2 .nil))))
  have n3 := dn c3
  rw [← e3] at s3 n3
  have c4 := cn [19372/6561, -25360/2187, 64448/6561, -212/729] [D0, D1, D2, D3] (by simp [n0, n1, n2, n3])
  obtain ⟨y4, s4⟩ := stage_le hα hX hH hθ c4 hHα 4 (by norm_num) hP (num (G := 345/10) (gs := [1, 6/5 + 1/1000, 1346/1000, 1126/100]) (by
    simp [abs_div, neg_div]; linarith) (.cons hs0 (.cons s1 (.cons s2 (.cons s3 .nil)))))
  have n4 := dn c4
  rw [← e4] at s4 n4
  have c5 := cn [9017/3168, -355/33, 46732/5247, 49/176, -5103/18656] [D0, D1, D2, D3, D4] (by simp [n0, n1, n2, n3, n4])
  obtain ⟨y5, s5⟩ := stage_le hα hX hH hθ c5 hHα 5 (by norm_num) hP (num (G := 42) (gs := [1, 6/5 + 1/1000, 1346/1000, 1126/100, 345/10]) (by
    simp [abs_div, neg_div]; linarith) (.cons hs0 (.cons s1 (.cons s2 (.cons s3 (.cons s4 .nil))))))
  have n5 := dn c5
  rw [← e5] at s5 n5
  have up : ∀ {Y G : K}, Y ≤ G * P - H * μ → G ≤ 42 → α * Y + μ ≤ D := fun {Y G} hY hG => by
    rw [hD]
    have h1 : Y ≤ 42 * P := by nlinarith
    have := mul_le_mul_of_nonneg_left h1 hα
    linarith
  have all : ∀ d ∈ [D0, D1, D2, D3, D4, D5], 0 ≤ d ∧ d ≤ D := by
    intro d hd
    simp only [List.mem_cons, List.not_mem_nil, or_false] at hd
    rcases hd with rfl | rfl | rfl | rfl | rfl | rfl
    · exact ⟨n0, by rw [e0]; exact up y0 le_rfl⟩
    · exact ⟨n1, by rw [e1]; exact up y1 (by norm_num)⟩
    · exact ⟨n2, by rw [e2]; exact up y2 (by norm_num)⟩
    · exact ⟨n3, by rw [e3]; exact up y3 (by norm_num)⟩
    · exact ⟨n4, by rw [e4]; exact up y4 (by norm_num)⟩
    · exact ⟨n5, by rw [e5]; exact up y5 (by norm_num)⟩
  exact ⟨D0, D1, D2, D3, D4, D5, hmap, all⟩

theorem dopri_mag_le (hτ : 0 ≤ τ) (hτ1 : τ ≤ 1 / 10000) (hθ : 0 ≤ θ) (F : (Fin n → K) → Fin n → K) {α μ X H P D : K} (h : K) (y : Fin n → K)
    (hα : 0 ≤ α) (hμ : 0 ≤ μ) (hX : 0 ≤ X) (hH : 0 ≤ H) (hHα : H * α ≤ 1) (hP : P = X + H * μ + 12 * (1 + H) * θ) (hD : D = 42 * (α * P) + μ) :
    (∀ p ∈ rkStagesMag F τ θ α μ X H h y (kdopri : KTab K).stages [(F y, α * X + μ)], 0 ≤ p.2 ∧ p.2 ≤ D) ∧
      X + (H * comboMag τ θ (kdopri : KTab K).b ((rkStagesMag F τ θ α μ X H h y (kdopri : KTab K).stages [(F y, α * X + μ)]).map (·.2)) + θ) + θ
        ≤ X + 74 * (H * (α * X + μ)) + 900 * (1 + H) * θ := by
  obtain ⟨D0, D1, D2, D3, D4, D5, hmap, all⟩ := dopri_stages_le hτ hτ1 hθ F h y hα hμ hX hH hHα hP hD
  have n0 := (all D0 (by simp)).1
  refine ⟨fun p hp => all p.2 (by rw [← hmap]; exact List.mem_map_of_mem hp), ?_⟩
  rw [hmap]
  have hD0 : 0 ≤ D := n0.trans (all D0 (by simp)).2
  have hb := comboMag_le_rowSum hτ hθ hD0 (kdopri : KTab K).b [D0, D1, D2, D3, D4, D5] all
  have hb' : ((kdopri : KTab K).b.map (fun c => |c| + τ)).sum ≤ 17/10 := by
    simp [kdopri, abs_div, neg_div]; linarith
  have hl : ((kdopri : KTab K).b.length : K) = 6 := by simp [kdopri]
  rw [hl] at hb
  have h1 : H * comboMag τ θ (kdopri : KTab K).b [D0, D1, D2, D3, D4, D5] ≤ H * (17/10 * D + 12 * θ) := by
    refine mul_le_mul_of_nonneg_left (hb.trans ?_) hH
    have := mul_le_mul_of_nonneg_right hb' hD0
    linarith
  have h2 : H * α * P ≤ H * α * X + H * μ + 12 * (1 + H) * θ := by
    have hr : 0 ≤ H * μ + 12 * (1 + H) * θ := by positivity
    have := mul_le_of_le_one_left hr hHα
    rw [hP]
    calc H * α * (X + H * μ + 12 * (1 + H) * θ) = H * α * X + H * α * (H * μ + 12 * (1 + H) * θ) := by ring
      _ ≤ _ := by linarith
  have h3 : 0 ≤ H * θ := by positivity
  have h3' : 0 ≤ H * μ := by positivity
  have h4 : 0 ≤ H * α * X := by positivity
  have h5 : H * (17/10 * D + 12 * θ) = 17/10 * 42 * (H * α * P) + 17/10 * (H * μ) + 12 * (H * θ) := by rw [hD]; ring
  have h6 : 74 * (H * (α * X + μ)) = 74 * (H * α * X) + 74 * (H * μ) := by ring
  have h7 : 900 * (1 + H) * θ = 900 * θ + 900 * (H * θ) := by ring
  have h8 : 12 * (1 + H) * θ = 12 * θ + 12 * (H * θ) := by ring
  rw [h8] at h2
  linarith

/-- a Dormand-Prince step, computed with rounding -/
theorem near_dopriStep (hr : Roomy R ε τ M θ Q w kmax) (hτ1 : τ ≤ 1 / 10000) (hM : 16 ≤ M) {α μ : K} {q : ℕ} {f : Rhs R} {F : (Fin n → K) → Fin n → K}
    (hα : 0 ≤ α) (hμ : 0 ≤ μ) (hf : NearField R ε w kmax Q α μ q f F) (hkm : 6 * (q + 11) ≤ kmax) {X H h P D : K} (hX : 0 ≤ X) {hz : Fl R}
    (hh : Near ε 1 hz h H) (hHα : H * α ≤ 1) (hP : P = X + H * μ + 12 * (1 + H) * θ) (hD : D = 42 * (α * P) + μ)
    (hQ : X + (1 + H) * (25 * D + 12 * θ) + 2 * θ ≤ Q) {yz : Vec R} {y : Fin n → K} (hy : NearV ε w 0 yz y X) (t : Fl R) :
    ∃ z', rkStepFl dopri f t hz yz = .ok z' ∧ NearV ε w (6 * (q + 11)) z' (rkStep kdopri (fun _ => F) 0 h y)
      (X + 74 * (H * (α * X + μ)) + 900 * (1 + H) * θ) := by
  have hτ := hr.rounds.tau
  have hθ := hr.theta
  have hH := hh.nonneg
  have hP0 : 0 ≤ P := by rw [hP]; positivity
  have hD0 : 0 ≤ D := by rw [hD]; positivity
  obtain ⟨m1, m2⟩ := dopri_mag_le hτ hτ1 hθ F h y hα hμ hX hH hHα hP hD
  obtain ⟨d1, d2⟩ := near_dopri hr.rounds hM
  have hrow : ∀ r ∈ (kdopri : KTab K).b :: (kdopri : KTab K).stages.map (·.2), r.length ≤ 6 ∧ (r.map (fun c => |c| + τ)).sum ≤ 25 := by
    intro r hr'
    simp only [kdopri, List.map_cons, List.map_nil, List.mem_cons, List.not_mem_nil, or_false] at hr'
    rcases hr' with rfl | rfl | rfl | rfl | rfl | rfl <;> constructor <;> simp [abs_div, neg_div] <;> linarith
  have hHS : 0 ≤ H * (25 * D + 12 * θ) := by positivity
  have hS0 : 0 ≤ 25 * D + 12 * θ := by positivity
  obtain ⟨z', h1, h2⟩ := near_rkStep hr hα hμ hf (ρ := 6) (S := 25 * D + 12 * θ) hS0 hD0 hX hh hy (by nlinarith) (by nlinarith) d1 d2
    (fun r hr' => ⟨(hrow r hr').1, fun Ds hDs => by
      refine (comboMag_le_rowSum hτ hθ hD0 r Ds hDs).trans ?_
      have a1 := mul_le_mul_of_nonneg_right (hrow r hr').2 hD0
      have a2 : (r.length : K) ≤ 6 := by exact_mod_cast (hrow r hr').1
      have a3 : θ * r.length ≤ θ * 6 := mul_le_mul_of_nonneg_left a2 hθ
      linarith⟩) (by simp [kdopri]; omega) (fun p hp => (m1 p hp).2) t
  refine ⟨z', h1, ?_⟩
  have e : ((kdopri : KTab K).stages.length + 1) * (6 + q + 5) = 6 * (q + 11) := by simp [kdopri]; ring
  rw [e] at h2
  exact h2.mono hr.rounds.eps hr.pos le_rfl m2

end
end SAD
