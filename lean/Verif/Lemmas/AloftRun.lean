import Verif.Spec.Aloft
import Verif.Lemmas.RoundTurning
import Verif.Lemmas.UserRun
import Verif.Props.DubinsPrecision

/-! # Motions with a heading, in double precision, call by call -/

set_option linter.unusedSectionVars false

namespace SAD
open Spec

section
variable {n : ℕ}

/-- whole turns back -/
noncomputable def backBy (j : Fin n) (y : Fin n → ℝ) (k : ℤ) : Fin n → ℝ := fun i => y i - if i = j then 2 * Real.pi * k else 0

variable {j : Fin n}

theorem backBy_ne {y : Fin n → ℝ} {k : ℤ} {i : Fin n} (hi : i ≠ j) : backBy j y k i = y i := by
  unfold backBy
  rw [if_neg hi, sub_zero]

theorem backBy_self (y : Fin n → ℝ) (k : ℤ) : backBy j y k j = y j - 2 * Real.pi * k := by
  unfold backBy
  rw [if_pos rfl]

theorem backBy_add (y : Fin n → ℝ) (k k' : ℤ) : backBy j (backBy j y k) k' = backBy j y (k + k') := by
  funext i
  by_cases hi : i = j
  · subst hi
    rw [backBy_self, backBy_self, backBy_self]
    push_cast
    ring
  · rw [backBy_ne hi, backBy_ne hi, backBy_ne hi]

theorem backBy_zero (y : Fin n → ℝ) : backBy j y 0 = y := by
  funext i
  unfold backBy
  simp

/-- one element changes by at most `v t` -/
theorem elem_change {φ : ℝ → Fin n → ℝ} {f : ℝ → Fin n → ℝ} {T v : ℝ} (hφ : ∀ t ∈ Set.Icc 0 T, HasDerivWithinAt φ (f t) (Set.Icc 0 T) t)
    (hf : ∀ t ∈ Set.Icc 0 T, |f t j| ≤ v) {t : ℝ} (ht : t ∈ Set.Icc 0 T) : |φ t j - φ 0 j| ≤ v * t := by
  have h0 : (0 : ℝ) ∈ Set.Icc 0 T := ⟨le_rfl, ht.1.trans ht.2⟩
  have := Convex.norm_image_sub_le_of_norm_hasDerivWithin_le (f := fun t => φ t j) (f' := fun t => f t j) (C := v) (fun x hx => (hasDerivWithinAt_pi.1 (hφ x hx)) j)
    (fun x hx => by rw [Real.norm_eq_abs]; exact hf x hx) (convex_Icc 0 T) h0 ht
  rwa [Real.norm_eq_abs, Real.norm_eq_abs, sub_zero, abs_of_nonneg ht.1] at this

end

section
variable {libm : Fmt ℚ}

/-- the wrapped heading -/
theorem wrap_heading {y : ℚ} (hb : |y| ≤ 2 ^ 30) : ∃ (a : ℚ) (k : ℤ), wrapElem (.fin y : Fl (b64Of libm)) (.fin 0) = .fin a ∧ |a| ≤ 4 ∧
    |(a : ℝ) - (y - 2 * Real.pi * k)| ≤ 2⁻¹ ^ 50 * (|(y : ℝ)| + 20) := by
  obtain ⟨a, k, w1, w2, w3, w4⟩ := round_wrap (b64_rounds libm) (by norm_num) (by decide +kernel)
    (show rndBin 53 (-1022) 1023 (2 * (884279719003555 / 281474976710656)) = .val (2 * (884279719003555 / 281474976710656)) by decide +kernel)
    (show (3 : ℚ) ≤ 884279719003555 / 281474976710656 by norm_num) (show (884279719003555 / 281474976710656 : ℚ) ≤ 16 / 5 by norm_num) (h := y) (by
      refine (mul_le_mul_of_nonneg_left (add_le_add_left hb 20) (by norm_num)).trans ?_
      decide +kernel)
  refine ⟨a, k, w1, w2, ?_⟩
  have w3' : ((|a - (y - 2 * (b64Of libm).pi * k)| : ℚ) : ℝ) ≤ ((2⁻¹ ^ 53 * (|y| + 20) : ℚ) : ℝ) := Rat.cast_le.2 w3
  have w4' : ((|(k : ℚ)| : ℚ) : ℝ) ≤ ((|y| + 3 : ℚ) : ℝ) := Rat.cast_le.2 w4
  push_cast at w3' w4'
  have e1 := abs_add_le ((a : ℝ) - (y - 2 * (b64Of libm).pi * k)) (2 * (k * (Real.pi - (b64Of libm).pi)))
  rw [show (a : ℝ) - (y - 2 * (b64Of libm).pi * k) + 2 * (k * (Real.pi - (b64Of libm).pi)) = a - (y - 2 * Real.pi * k) by ring,
    abs_mul 2, abs_mul (k : ℝ), abs_sub_comm Real.pi, abs_two] at e1
  have n0 := abs_nonneg (y : ℝ)
  have e2 : |(k : ℝ)| * |((b64Of libm).pi : ℝ) - Real.pi| ≤ (|(y : ℝ)| + 3) * (2 * 2⁻¹ ^ 53) := mul_le_mul w4' b64_pi_near (abs_nonneg _) (by positivity)
  have e3 : (2⁻¹ : ℝ) ^ 50 = 2⁻¹ ^ 53 * 8 := by norm_num
  rw [e3]
  obtain ⟨ε, hε⟩ : ∃ ε : ℝ, ε = 2⁻¹ ^ 53 := ⟨_, rfl⟩
  have ε0 : 0 ≤ ε := by rw [hε]; positivity
  rw [← hε] at w3' e2 ⊢
  have p := mul_nonneg ε0 n0
  linarith

/-- a small wrapped angle -/
theorem wrap_angle_small {y : ℚ} (hb : |y| ≤ 2) : ∃ a : ℚ, wrapElem (.fin y : Fl (b64Of libm)) (.fin 0) = .fin a ∧ |a - y| ≤ 22 * 2⁻¹ ^ 53 :=
  round_wrap_small (b64_rounds libm) (by norm_num) (by decide +kernel)
    (show rndBin 53 (-1022) 1023 (2 * (884279719003555 / 281474976710656)) = .val (2 * (884279719003555 / 281474976710656)) by decide +kernel)
    (show (31 / 10 : ℚ) ≤ 884279719003555 / 281474976710656 by norm_num) (show (884279719003555 / 281474976710656 : ℚ) ≤ 16 / 5 by norm_num) hb (by decide +kernel)

variable {n m : ℕ} {env : Env (b64Of libm)} {e : Entity (b64Of libm)} {w : Fin n → ℚ} {j : Fin n} {f : (Fin m → ℚ) → (Fin n → ℝ) → Fin n → ℝ}
  {G : (Fin m → ℚ) → (Fin n → ℝ) → Prop} {L Δ ρ ω : ℝ} {D X : ℚ} {R H : ℝ}

/-- an exact motion, and what the wrapped heading makes of it -/
theorem Spec.MovesUnder.upTo (hshift : ∀ U y k, f U (backBy j y k) = f U y) (hG : ∀ U y k, G U y → G U (backBy j y k)) (R0 : 0 ≤ R) (hrate : ∀ U y, G U y → |f U y j| ≤ R)
    (hshadow : ∀ (U : Fin m → ℚ) (φ : ℝ → Fin n → ℝ) (T : ℝ), 0 ≤ T →
      (∀ t ∈ Set.Icc 0 T, HasDerivWithinAt φ (f U (φ t)) (Set.Icc 0 T) t) → (∀ t ∈ Set.Icc 0 T, G U (φ t) ∧ |φ t j| ≤ 6 + R * H) →
      Shadows w e.dynamics U (f U) φ L Δ ρ D X T)
    (hfin : ∀ (U : Fin m → ℚ) (y : Fin n → ℝ) (y1 : Fin n → ℚ), G U y → |y j| ≤ 6 + R * H → (∀ i, |y1 i - y i| ≤ w i * ρ) → ∃ (y2 : Fin n → ℚ) (k : ℤ),
      Finished e.dynamics y1 y2 ∧ |y j - 2 * Real.pi * k| ≤ 6 ∧
        ∀ E, 0 ≤ E → (∀ i, |y1 i - y i| ≤ w i * E) → ∀ i, |y2 i - backBy j y k i| ≤ w i * (E + ω)) :
    ∀ {hist : List (ℚ × Action (b64Of libm))} {y z : Fin n → ℝ}, (∀ p ∈ hist, (p.1 : ℝ) ≤ H) → MovesUnder env e f G hist y z → ∀ k : ℤ,
      |y j - 2 * Real.pi * k| ≤ 6 → FollowsUpTo env e w f L Δ ρ ω D X (fun z' => ∃ k : ℤ, z' = backBy j z k) hist (backBy j y k)
  | [], y, z, _, hz, k, _ => ⟨k, by rw [show z = y from hz]⟩
  | (T, a) :: hist, y, z, hH, hz, k, hk => by
    obtain ⟨hT0, U, φ, hap, hφ, rfl, hrest⟩ := hz
    have hTR : (0 : ℝ) ≤ T := by exact_mod_cast hT0
    have hTH : (T : ℝ) ≤ H := hH (T, a) (by simp)
    have hT : (T : ℝ) ∈ Set.Icc 0 (T : ℝ) := ⟨hTR, le_rfl⟩
    have hd : ∀ t ∈ Set.Icc 0 (T : ℝ), HasDerivWithinAt (fun t => backBy j (φ t) k) (f U (backBy j (φ t) k)) (Set.Icc 0 (T : ℝ)) t := by
      intro t ht
      rw [hshift, hasDerivWithinAt_pi]
      intro i
      exact ((hasDerivWithinAt_pi.1 (hφ t ht).1) i).sub_const _
    have hg : ∀ t ∈ Set.Icc 0 (T : ℝ), G U (backBy j (φ t) k) := fun t ht => hG _ _ _ (hφ t ht).2
    have head : ∀ t ∈ Set.Icc 0 (T : ℝ), |backBy j (φ t) k j| ≤ 6 + R * H := by
      intro t ht
      have q1 := elem_change hd (fun t ht => hrate U _ (hg t ht)) ht
      have q2 := abs_sub_abs_le_abs_sub (backBy j (φ t) k j) (backBy j (φ 0) k j)
      have q3 : R * t ≤ R * H := mul_le_mul_of_nonneg_left (ht.2.trans hTH) R0
      have q4 : |backBy j (φ 0) k j| ≤ 6 := by rw [backBy_self]; exact hk
      linarith
    refine ⟨hT0, U, fun t => backBy j (φ t) k, hap, hshadow U _ T hTR hd (fun t ht => ⟨hg t ht, head t ht⟩), rfl, fun y1 hy1 => ?_⟩
    obtain ⟨y2, k', s1, s2, s3⟩ := hfin U _ y1 (hg T hT) (head T hT) hy1
    refine ⟨y2, _, s1, s3, ?_⟩
    rw [backBy_add]
    refine Spec.MovesUnder.upTo hshift hG R0 hrate hshadow hfin (fun p hp => hH p (by simp [hp])) hrest (k + k') ?_
    rw [backBy_self] at s2
    convert s2 using 2
    push_cast
    ring

theorem Spec.MovesUnder.nonneg : ∀ {hist : List (ℚ × Action (b64Of libm))} {y z : Fin n → ℝ}, MovesUnder env e f G hist y z → ∀ p ∈ hist, 0 ≤ p.1
  | [], _, _, _ => by simp
  | _ :: _, _, _, ⟨h0, _, _, _, _, _, h⟩ => fun p hp => by
    rcases List.mem_cons.1 hp with rfl | hp
    · exact h0
    · exact h.nonneg p hp

/-- a limited rate, where the limits do not matter -/
theorem limited_rate {lo hi u y r : ℚ} (h : (lo < y ∧ y < hi) ∨ u = 0) : |klimit (some lo) (some hi) none none y r - u| ≤ |r - u| := by
  rcases h with ⟨h1, h2⟩ | rfl
  · have : klimit (some lo) (some hi) none none y r = r := by simp [klimit, kclip, not_le.2 h1, not_le.2 h2]
    rw [this]
  · simp only [klimit, kclip, sub_zero]
    split_ifs
    · rcases le_total r 0 with h | h
      · rw [min_eq_left h]
      · rw [min_eq_right h, abs_zero]; exact abs_nonneg _
    · rcases le_total r 0 with h | h
      · rw [max_eq_right h, abs_zero]; exact abs_nonneg _
      · rw [max_eq_left h]
    · exact le_rfl

/-- near a quantity that keeps off its limits -/
theorem Spec.Keeps.near {lo hi u : ℚ} {r v : ℝ} (h : Keeps lo hi u r v) {y : ℚ} (hy : |(y : ℝ) - v| ≤ r) : (lo < y ∧ y < hi) ∨ u = 0 := by
  rcases h with ⟨h1, h2⟩ | ⟨h, -⟩
  · obtain ⟨a, b⟩ := abs_le.1 hy
    have l1 : (lo : ℝ) < y := by linarith
    have l2 : (y : ℝ) < hi := by linarith
    exact .inl ⟨by exact_mod_cast l1, by exact_mod_cast l2⟩
  · exact .inr h

/-- clipping to the limits brings a number no further from such a quantity -/
theorem Spec.Keeps.clip {lo hi u : ℚ} {r v : ℝ} (h : Keeps lo hi u r v) (hr : 0 ≤ r) (y : ℚ) : |((min (max y lo) hi : ℚ) : ℝ) - v| ≤ |(y : ℝ) - v| := by
  have h1 : (lo : ℝ) ≤ v ∧ v ≤ hi := by
    rcases h with ⟨h1, h2⟩ | ⟨-, h1, h2⟩
    · exact ⟨by linarith, by linarith⟩
    · exact ⟨h1, h2⟩
  have h2 : min (max v lo) hi = v := by rw [max_eq_left h1.1, min_eq_left h1.2]
  push_cast
  nth_rw 1 [← h2]
  exact kclip_lip _ _ _ _

end
end SAD
