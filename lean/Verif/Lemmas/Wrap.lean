import Verif.Lemmas.Base

/-! # Lemmas about angle wrapping -/

set_option linter.unusedSectionVars false

namespace SAD
open Spec

variable {K : Type} {R : Fmt K} [Field K] [LinearOrder K] [IsStrictOrderedRing K] [FloorRing K]

theorem fmod_cases (a b : K) (hb : 0 < b) :
    (Fl.fmod a b = a - b * ⌊a / b⌋ ∧ 0 ≤ Fl.fmod a b ∧ Fl.fmod a b < b) ∨
    (Fl.fmod a b < 0 ∧ -b < Fl.fmod a b ∧ Fl.fmod a b + b = a - b * ⌊a / b⌋) := by
  have h1 := Int.floor_le (a / b)
  have h2 := Int.lt_floor_add_one (a / b)
  have ea : a = b * (a / b) := by field_simp
  have k0 : 0 ≤ a - b * ⌊a / b⌋ := by
    have := mul_le_mul_of_nonneg_left h1 hb.le
    rw [← ea] at this; linarith
  have k1 : a - b * ⌊a / b⌋ < b := by
    have := mul_lt_mul_of_pos_left h2 hb
    rw [← ea] at this; linarith
  by_cases h : 0 ≤ a / b
  · left
    have e : Fl.fmod a b = a - b * ⌊a / b⌋ := by simp [Fl.fmod, h]
    rw [e]; exact ⟨rfl, k0, k1⟩
  · have e : Fl.fmod a b = a - b * ⌈a / b⌉ := by simp [Fl.fmod, h]
    have c1 := Int.le_ceil (a / b)
    have c2 := Int.ceil_lt_add_one (a / b)
    have m1 : a - b * ⌈a / b⌉ ≤ 0 := by
      have := mul_le_mul_of_nonneg_left c1 hb.le
      rw [← ea] at this; linarith
    have m2 : -b < a - b * ⌈a / b⌉ := by
      have := mul_lt_mul_of_pos_left c2 hb
      rw [mul_add, ← ea] at this; linarith
    rcases eq_or_lt_of_le m1 with m0 | m0
    · left
      have hq : a / b = ⌈a / b⌉ := by
        have : a = b * ⌈a / b⌉ := by linarith
        field_simp; linarith
      have hfl : ⌊a / b⌋ = ⌈a / b⌉ := by
        conv_lhs => rw [hq]
        exact Int.floor_intCast _
      rw [e, hfl]; exact ⟨rfl, by linarith, by linarith⟩
    · right
      rw [e]
      refine ⟨m0, m2, ?_⟩
      have hne : a / b < ⌈a / b⌉ := by
        rcases eq_or_lt_of_le c1 with h' | h'
        · exfalso
          have : b * (a / b) = b * ⌈a / b⌉ := by rw [← h']
          rw [← ea] at this; linarith
        · exact h'
      have hfl : ⌊a / b⌋ = ⌈a / b⌉ - 1 := by
        rw [Int.floor_eq_iff]
        push_cast
        constructor <;> linarith
      rw [hfl]; push_cast; ring

/-- in an exact format, `%` by a positive number is the Euclidean remainder -/
theorem pyMod_exact [Exact R] (a b : K) (hb : 0 < b) :
    Fl.pyMod (.fin a : Fl R) (.fin b) = .fin (a - b * ⌊a / b⌋) := by
  have hb0 : b ≠ 0 := ne_of_gt hb
  have hbn : ¬ b < 0 := not_lt.2 hb.le
  rcases fmod_cases a b hb with ⟨h1, h2, h3⟩ | ⟨h1, h2, h3⟩
  · by_cases hm : Fl.fmod a b = 0
    · simp [Fl.pyMod, hb0, hm, ← h1]
    · have : ¬ Fl.fmod a b < 0 := not_lt.2 h2
      rw [← h1]
      simp only [Fl.pyMod, hb0, if_false, hm, hbn, this, if_true]
  · have hm : Fl.fmod a b ≠ 0 := ne_of_lt h1
    have e : Fl.pyMod (.fin a : Fl R) (.fin b) = .fin (Fl.fmod a b + b) := by
      simp [Fl.pyMod, hb0, hm, hbn, h1]
    rw [e, h3]

/-- the wrapped value in an exact format -/
theorem wrapElem_exact [Exact R] (hpi : 0 < R.pi) (s c : K) :
    wrapElem (.fin s : Fl R) (.fin c) = .fin (s + c - 2 * R.pi * ⌊(s + R.pi) / (2 * R.pi)⌋) := by
  unfold wrapElem
  simp only [Fl.pi, Fl.two_fin, Fl.fin_add_fin, Fl.fin_mul_fin]
  rw [pyMod_exact _ _ (by linarith)]
  simp only [Fl.fin_sub_fin, Fl.fin_add_fin]
  congr 1; ring

theorem wrapElem_exact_nonfin [Exact R] (s c : Fl R) (h : s.isFin = false) : wrapElem s c = .nan := by
  cases s <;> simp [Fl.isFin] at h <;>
    simp only [wrapElem, Fl.pi, Fl.two_fin, Fl.fin_mul_fin] <;> rfl

theorem wrap_range (hpi : 0 < R.pi) (s c : K) :
    c - R.pi ≤ s + c - 2 * R.pi * ⌊(s + R.pi) / (2 * R.pi)⌋ ∧
    s + c - 2 * R.pi * ⌊(s + R.pi) / (2 * R.pi)⌋ < c + R.pi := by
  have hb : (0 : K) < 2 * R.pi := by linarith
  have h1 := Int.floor_le ((s + R.pi) / (2 * R.pi))
  have h2 := Int.lt_floor_add_one ((s + R.pi) / (2 * R.pi))
  rw [le_div_iff₀ hb] at h1
  rw [div_lt_iff₀ hb] at h2
  constructor <;> nlinarith

/-- `%` under a sound rounding lands in `[0, 2 pi]` -/
theorem pyMod_sound (hR : Sound R) (a : K) :
    ∃ m, Fl.pyMod (.fin a : Fl R) (.fin (2 * R.pi)) = .fin m ∧ 0 ≤ m ∧ m ≤ 2 * R.pi := by
  have hpi := hR.pi_pos
  have hb : (0 : K) < 2 * R.pi := by linarith
  have hb0 : (2 * R.pi) ≠ 0 := ne_of_gt hb
  have hbn : ¬ 2 * R.pi < 0 := not_lt.2 hb.le
  rcases fmod_cases a _ hb with ⟨h1, h2, h3⟩ | ⟨h1, h2, h3⟩
  · by_cases hm : Fl.fmod a (2 * R.pi) = 0
    · exact ⟨0, by simp only [Fl.pyMod, hb0, if_false, hm, if_true], le_refl _, hb.le⟩
    · have hn : ¬ Fl.fmod a (2 * R.pi) < 0 := not_lt.2 h2
      refine ⟨Fl.fmod a (2 * R.pi), ?_, h2, h3.le⟩
      simp only [Fl.pyMod, hb0, if_false, hm, hbn, hn, if_true]
  · have hm : Fl.fmod a (2 * R.pi) ≠ 0 := ne_of_lt h1
    have e : Fl.pyMod (.fin a : Fl R) (.fin (2 * R.pi)) = Fl.round (Fl.fmod a (2 * R.pi) + 2 * R.pi) := by
      simp only [Fl.pyMod, hb0, if_false, hm, hbn, h1, false_iff, not_true, if_false]
    have l1 := hR.mono 0 (Fl.fmod a (2 * R.pi) + 2 * R.pi) (by linarith)
    have l2 := hR.mono (Fl.fmod a (2 * R.pi) + 2 * R.pi) (2 * R.pi) (by linarith)
    rw [hR.rnd_zero] at l1
    rw [hR.rnd_two_pi] at l2
    rw [e]
    generalize (Fl.round (Fl.fmod a (2 * R.pi) + 2 * R.pi) : Fl R) = z at l1 l2
    cases z with
    | nan => simp at l1
    | ninf => simp at l1
    | pinf => simp at l2
    | fin m => exact ⟨m, rfl, by simpa using l1, by simpa using l2⟩

theorem two_pi_sound (hR : Sound R) : (2 * Fl.pi : Fl R) = .fin (2 * R.pi) := by
  show Fl.mul _ _ = _
  simp only [Fl.two_fin, Fl.pi, Fl.mul]
  exact hR.rnd_two_pi

/-- centred part of the wrapped value under a sound rounding -/
theorem wrapCore_sound (hR : Sound R) (s : Fl R) :
    Fl.pyMod (s + Fl.pi) (2 * Fl.pi) - Fl.pi = (.nan : Fl R) ∨
    ∃ y, Fl.pyMod (s + Fl.pi) (2 * Fl.pi) - Fl.pi = (.fin y : Fl R) ∧ -R.pi ≤ y ∧ y ≤ R.pi ∧
      (Fl.round y : Fl R) = .fin y := by
  rw [two_pi_sound hR]
  cases hs : s + Fl.pi with
  | nan => left; rfl
  | ninf => left; rfl
  | pinf => left; rfl
  | fin a =>
    right
    obtain ⟨m, hm, h0, h1⟩ := pyMod_sound hR a
    rw [hm]
    have e : (Fl.fin m - Fl.pi : Fl R) = Fl.round (m + -R.pi) := rfl
    have l1 := hR.mono (-R.pi) (m + -R.pi) (by linarith)
    have l2 := hR.mono (m + -R.pi) R.pi (by linarith)
    rw [hR.rnd_neg_pi] at l1
    rw [hR.rnd_pi] at l2
    rw [e]
    cases hz : (Fl.round (m + -R.pi) : Fl R) with
    | nan => rw [hz] at l1; simp at l1
    | ninf => rw [hz] at l1; simp at l1
    | pinf => rw [hz] at l2; simp at l2
    | fin y =>
      rw [hz] at l1 l2
      exact ⟨y, rfl, by simpa using l1, by simpa using l2, hR.idem _ _ hz⟩

theorem pyMod_id (a : K) (h0 : 0 ≤ a) (h1 : a < 2 * R.pi) : Fl.pyMod (.fin a : Fl R) (.fin (2 * R.pi)) = .fin a := by
  have hb : (0 : K) < 2 * R.pi := by linarith
  have hfl : ⌊a / (2 * R.pi)⌋ = 0 := by
    rw [Int.floor_eq_zero_iff]
    exact ⟨div_nonneg h0 hb.le, by rw [div_lt_one hb]; exact h1⟩
  have e : Fl.fmod a (2 * R.pi) = a := by
    rcases fmod_cases a _ hb with ⟨h, -⟩ | ⟨h2, -, h⟩
    · rw [h, hfl]; simp
    · rw [hfl] at h
      simp at h
      have : 0 ≤ a / (2 * R.pi) := div_nonneg h0 hb.le
      simp [Fl.fmod, this, hfl]
  have hbn : ¬ 2 * R.pi < 0 := not_lt.2 hb.le
  have han : ¬ a < 0 := not_lt.2 h0
  by_cases ha : a = 0
  · simp [Fl.pyMod, hb.ne', e, ha, Fl.fmod]
  · simp only [Fl.pyMod, hb.ne', if_false, e, ha, hbn, han, if_true]

theorem round_fin_between {a b c x y : K} (hR : Sound R) (h1 : a ≤ b) (h2 : b ≤ c) (ha : (Fl.round a : Fl R) = .fin x)
    (hc : (Fl.round c : Fl R) = .fin y) : ∃ z, (Fl.round b : Fl R) = .fin z ∧ x ≤ z ∧ z ≤ y := by
  have l1 := hR.mono _ _ h1
  have l2 := hR.mono _ _ h2
  rw [ha] at l1
  rw [hc] at l2
  cases hb : (Fl.round b : Fl R) with
  | nan => rw [hb] at l1; simp at l1
  | ninf => rw [hb] at l1; simp at l1
  | pinf => rw [hb] at l2; simp at l2
  | fin z => rw [hb] at l1 l2; exact ⟨z, rfl, by simpa using l1, by simpa using l2⟩

/-- Limits that wrapping (with centre 0) leaves alone bound the wrapped value of everything between them. -/
theorem wrapElem_between (hR : Sound R) {lo x hi : K} (h0 : -R.pi ≤ lo) (h1 : lo ≤ x) (h2 : x ≤ hi) (h3 : hi < R.pi)
    (hlo : wrapElem (.fin lo : Fl R) 0 = .fin lo) (hhi : wrapElem (.fin hi : Fl R) 0 = .fin hi) :
    ∃ z, wrapElem (.fin x : Fl R) 0 = .fin z ∧ lo ≤ z ∧ z ≤ hi := by
  have hpi := hR.pi_pos
  have hw : ∀ s : K, wrapElem (.fin s : Fl R) 0 = Fl.pyMod (Fl.round (s + R.pi)) (.fin (2 * R.pi)) - Fl.pi + 0 := by
    intro s; unfold wrapElem; rw [two_pi_sound hR]; rfl
  -- the sums with pi are finite and in [0, 2 pi)
  obtain ⟨b, hb, b0, b1⟩ := round_fin_between (b := hi + R.pi) hR (by linarith) (by linarith) hR.rnd_zero hR.rnd_two_pi
  obtain ⟨a, ha, a0, a1⟩ := round_fin_between (b := lo + R.pi) hR (by linarith) (by linarith) hR.rnd_zero hb
  obtain ⟨c, hc, c0, c1⟩ := round_fin_between (b := x + R.pi) hR (by linarith) (by linarith) ha hb
  have core : ∀ s, 0 ≤ s → s < 2 * R.pi → Fl.pyMod (.fin s) (.fin (2 * R.pi)) - Fl.pi + 0 = (Fl.round (s + -R.pi) + 0 : Fl R) := by
    intro s h h'
    rw [pyMod_id s h h']
    rfl
  have core0 : ∀ s y, (Fl.round s : Fl R) = .fin y → (Fl.round s + 0 : Fl R) = .fin y := by
    intro s y h
    rw [h, Fl.zero_fin]
    show Fl.round (y + 0) = _
    rw [add_zero, hR.idem _ _ h]
  have hfin : ∀ s, 0 ≤ s → s < 2 * R.pi → ∃ y, (Fl.round (s + -R.pi) : Fl R) = .fin y := by
    intro s h h'
    obtain ⟨y, hy, -⟩ := round_fin_between (b := s + -R.pi) hR (by linarith) (by linarith) hR.rnd_neg_pi hR.rnd_pi
    exact ⟨y, hy⟩
  have b2 : b < 2 * R.pi := by
    rcases eq_or_lt_of_le b1 with h | h
    · exfalso
      rw [hw, hb, h] at hhi
      have e : Fl.pyMod (.fin (2 * R.pi) : Fl R) (.fin (2 * R.pi)) = .fin 0 := by
        have hz : Fl.fmod (2 * R.pi) (2 * R.pi) = 0 := by
          have : (2 * R.pi) / (2 * R.pi) = 1 := div_self (by linarith)
          simp [Fl.fmod, this]
        have : (2 * R.pi) ≠ 0 := by linarith
        simp only [Fl.pyMod, this, if_false, hz, if_true]
      have e2 : (Fl.fin 0 - Fl.pi : Fl R) = Fl.round (0 + -R.pi) := rfl
      have e3 : (Fl.round (0 + -R.pi) : Fl R) = .fin (-R.pi) := by rw [zero_add]; exact hR.rnd_neg_pi
      rw [e, e2, core0 _ _ e3] at hhi
      cases hhi
      have e4 : -R.pi + R.pi = 0 := by ring
      rw [e4, hR.rnd_zero] at hb
      cases hb
      linarith
    · exact h
  rw [hw, ha, core a a0 (by linarith)] at hlo
  rw [hw, hb, core b b0 b2] at hhi
  obtain ⟨y1, e1⟩ := hfin a a0 (by linarith)
  obtain ⟨y2, e2⟩ := hfin b b0 b2
  rw [core0 _ _ e1] at hlo
  rw [core0 _ _ e2] at hhi
  cases hlo
  cases hhi
  obtain ⟨z, hz, z0, z1⟩ := round_fin_between (b := c + -R.pi) hR (by linarith) (by linarith) e1 e2
  exact ⟨z, by rw [hw, hc, core c (by linarith) (by linarith), core0 _ _ hz], z0, z1⟩

end SAD
