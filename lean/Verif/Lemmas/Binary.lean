import Verif.Model.Binary
import Verif.Spec.Base
import Verif.Lemmas.Flt

/-! # binary64 is a sound format -/

namespace SAD
open Spec

theorem roundEven_mono {x y : ℚ} (h : x ≤ y) : roundEven x ≤ roundEven y := by
  have hf := Int.floor_le_floor h
  have lo : ∀ z : ℚ, ⌊z⌋ ≤ roundEven z := by intro z; unfold roundEven; simp only; split_ifs <;> omega
  have hi : ∀ z : ℚ, roundEven z ≤ ⌊z⌋ + 1 := by intro z; unfold roundEven; simp only; split_ifs <;> omega
  rcases eq_or_lt_of_le hf with he | hl
  · unfold roundEven
    simp only [← he]
    have : x - ⌊x⌋ ≤ y - ⌊x⌋ := by linarith
    split_ifs <;> first | omega | (exfalso; linarith)
  · have := hi x; have := lo y; omega

theorem roundEven_intCast (n : ℤ) : roundEven n = n := by
  unfold roundEven
  simp

theorem roundEven_neg (x : ℚ) : roundEven (-x) = -roundEven x := by
  by_cases hx : x = ⌊x⌋
  · rw [hx, roundEven_intCast, ← Int.cast_neg, roundEven_intCast]
  · have hlt : (⌊x⌋ : ℚ) < x := lt_of_le_of_ne (Int.floor_le x) (Ne.symm hx)
    have hlt2 := Int.lt_floor_add_one x
    have hf : ⌊-x⌋ = -⌊x⌋ - 1 := by
      rw [Int.floor_eq_iff]; push_cast; constructor <;> linarith
    unfold roundEven
    simp only [hf]
    push_cast
    split_ifs <;> first | omega | (exfalso; linarith)

theorem roundEven_le_of_le {x : ℚ} {n : ℤ} (h : x ≤ n) : roundEven x ≤ n := by
  have := roundEven_mono h; rwa [roundEven_intCast] at this

theorem le_roundEven_of_le {x : ℚ} {n : ℤ} (h : (n : ℚ) ≤ x) : n ≤ roundEven x := by
  have := roundEven_mono h; rwa [roundEven_intCast] at this

variable (p : ℕ) (emin : ℤ)

theorem ulpOf_pos (x : ℚ) : 0 < ulpOf p emin x := by unfold ulpOf; positivity

theorem nearestBin_neg (x : ℚ) : nearestBin p emin (-x) = -nearestBin p emin x := by
  have : ulpOf p emin (-x) = ulpOf p emin x := by simp [ulpOf, binExp]
  unfold nearestBin
  rw [this, neg_div, roundEven_neg]
  push_cast; ring

theorem nearestBin_zero : nearestBin p emin 0 = 0 := by
  simp [nearestBin, show roundEven 0 = 0 from roundEven_intCast 0]

theorem nearestBin_nonneg {x : ℚ} (h : 0 ≤ x) : 0 ≤ nearestBin p emin x := by
  have hu := ulpOf_pos p emin x
  have : 0 ≤ roundEven (x / ulpOf p emin x) := le_roundEven_of_le (by push_cast; positivity)
  have h2 : (0 : ℚ) ≤ roundEven (x / ulpOf p emin x) := by exact_mod_cast this
  exact mul_nonneg h2 hu.le

theorem lt_binExp_succ {x : ℚ} (hx : 0 < x) : x < (2 : ℚ) ^ (binExp emin x + 1) := by
  have h := Int.lt_zpow_succ_log_self (b := 2) (by norm_num) x
  have hm : Int.log 2 x + 1 ≤ binExp emin x + 1 := by
    unfold binExp; rw [abs_of_pos hx]; omega
  calc x < ((2 : ℕ) : ℚ) ^ (Int.log 2 x + 1) := h
    _ ≤ (2 : ℚ) ^ (binExp emin x + 1) := by
      push_cast
      exact zpow_le_zpow_right₀ (by norm_num) hm

theorem binExp_le {x : ℚ} (hx : 0 < x) (h : emin < binExp emin x) : (2 : ℚ) ^ (binExp emin x) ≤ x := by
  have e : binExp emin x = Int.log 2 x := by
    unfold binExp at *; rw [abs_of_pos hx] at *; omega
  rw [e]
  have := Int.zpow_log_le_self (b := 2) (by norm_num) hx
  exact_mod_cast this

theorem binExp_mono {x y : ℚ} (hx : 0 < x) (h : x ≤ y) : binExp emin x ≤ binExp emin y := by
  unfold binExp
  rw [abs_of_pos hx, abs_of_pos (lt_of_lt_of_le hx h)]
  have := Int.log_mono_right (b := 2) hx h
  omega

/-- the rounded value does not leave the binade upwards -/
theorem nearestBin_le_binade (hp : 1 ≤ p) {x : ℚ} (hx : 0 < x) : nearestBin p emin x ≤ (2 : ℚ) ^ (binExp emin x + 1) := by
  have hu := ulpOf_pos p emin x
  have e2 : (2 : ℚ) ^ (binExp emin x + 1) = ((2 ^ p : ℤ) : ℚ) * ulpOf p emin x := by
    unfold ulpOf; push_cast
    rw [← zpow_natCast, ← zpow_add₀ (by norm_num)]; congr 1; omega
  rw [e2]
  unfold nearestBin
  apply mul_le_mul_of_nonneg_right _ hu.le
  have : roundEven (x / ulpOf p emin x) ≤ 2 ^ p := by
    apply roundEven_le_of_le
    rw [div_le_iff₀ hu, ← e2]
    exact (lt_binExp_succ emin hx).le
  exact_mod_cast this

/-- nor downwards -/
theorem binade_le_nearestBin (hp : 1 ≤ p) {x : ℚ} (hx : (2 : ℚ) ^ (binExp emin x) ≤ x) :
    (2 : ℚ) ^ (binExp emin x) ≤ nearestBin p emin x := by
  have hu := ulpOf_pos p emin x
  obtain ⟨q, rfl⟩ : ∃ q, p = q + 1 := ⟨p - 1, by omega⟩
  have e2 : (2 : ℚ) ^ (binExp emin x) = ((2 ^ q : ℤ) : ℚ) * ulpOf (q + 1) emin x := by
    unfold ulpOf; push_cast
    rw [← zpow_natCast, ← zpow_add₀ (by norm_num)]; congr 1; omega
  rw [e2]
  unfold nearestBin
  apply mul_le_mul_of_nonneg_right _ hu.le
  have : 2 ^ q ≤ roundEven (x / ulpOf (q + 1) emin x) := by
    apply le_roundEven_of_le
    rw [le_div_iff₀ hu, ← e2]
    exact hx
  exact_mod_cast this

theorem nearestBin_mono_pos (hp : 1 ≤ p) {x y : ℚ} (hx : 0 < x) (h : x ≤ y) :
    nearestBin p emin x ≤ nearestBin p emin y := by
  have hy : 0 < y := lt_of_lt_of_le hx h
  rcases eq_or_lt_of_le (binExp_mono emin hx h) with he | hl
  · have hu := ulpOf_pos p emin x
    have eu : ulpOf p emin y = ulpOf p emin x := by unfold ulpOf; rw [he]
    unfold nearestBin
    rw [eu]
    apply mul_le_mul_of_nonneg_right _ hu.le
    have := roundEven_mono (div_le_div_of_nonneg_right h hu.le)
    exact_mod_cast this
  · have h1 := nearestBin_le_binade p emin hp hx
    have hmin : emin ≤ binExp emin x := by unfold binExp; omega
    have h2 := binade_le_nearestBin p emin hp (binExp_le emin hy (by omega))
    refine h1.trans (le_trans ?_ h2)
    exact zpow_le_zpow_right₀ (by norm_num) (by omega)

theorem nearestBin_mono (hp : 1 ≤ p) {x y : ℚ} (h : x ≤ y) : nearestBin p emin x ≤ nearestBin p emin y := by
  rcases lt_trichotomy x 0 with hx | hx | hx
  · rcases lt_or_ge y 0 with hy | hy
    · have := nearestBin_mono_pos p emin hp (x := -y) (y := -x) (by linarith) (by linarith)
      rw [nearestBin_neg, nearestBin_neg] at this
      linarith
    · have h1 := nearestBin_nonneg p emin (x := -x) (by linarith)
      rw [nearestBin_neg] at h1
      have h2 := nearestBin_nonneg p emin hy
      linarith
  · subst hx; rw [nearestBin_zero]; exact nearestBin_nonneg p emin h
  · exact nearestBin_mono_pos p emin hp hx h

/-- a multiple `n` of a finer spacing is its own rounding -/
theorem nearestBin_of_mul {x : ℚ} {n : ℤ} (h : x = n * ulpOf p emin x) : nearestBin p emin x = x := by
  have hu := ulpOf_pos p emin x
  have e : x / ulpOf p emin x = n := by rw [div_eq_iff hu.ne']; exact h
  unfold nearestBin
  rw [e, roundEven_intCast]; exact h.symm

theorem nearestBin_idem_pos (hp : 1 ≤ p) {x : ℚ} (hx : 0 < x) :
    nearestBin p emin (nearestBin p emin x) = nearestBin p emin x := by
  set y := nearestBin p emin x with hy
  rcases eq_or_lt_of_le (nearestBin_nonneg p emin hx.le) with h0 | h0
  · rw [← hy] at h0; rw [← h0, nearestBin_zero]
  rw [← hy] at h0
  have hle := nearestBin_le_binade p emin hp hx
  rw [← hy] at hle
  have hlog : Int.log 2 y ≤ binExp emin x + 1 := by
    have := Int.log_mono_right (b := 2) h0 hle
    have e : Int.log 2 ((2 : ℚ) ^ (binExp emin x + 1)) = binExp emin x + 1 := by
      have := Int.log_zpow (R := ℚ) (b := 2) (by norm_num) (binExp emin x + 1)
      exact_mod_cast this
    rwa [e] at this
  have hemin : emin ≤ binExp emin x := by unfold binExp; omega
  by_cases hc : binExp emin y ≤ binExp emin x
  · -- finer or equal spacing
    obtain ⟨k, hk⟩ : ∃ k : ℕ, binExp emin x = binExp emin y + k := ⟨(binExp emin x - binExp emin y).toNat, by omega⟩
    apply nearestBin_of_mul p emin (n := roundEven (x / ulpOf p emin x) * 2 ^ k)
    have eu : ulpOf p emin x = 2 ^ k * ulpOf p emin y := by
      unfold ulpOf
      rw [hk, ← zpow_natCast, ← zpow_add₀ (by norm_num)]; congr 1; ring
    have ey : y = roundEven (x / ulpOf p emin x) * ulpOf p emin x := hy
    generalize roundEven (x / ulpOf p emin x) = r at ey ⊢
    rw [eu] at ey
    push_cast
    conv_lhs => rw [ey]
    ring
  · -- the rounded value is the next power of two
    have hbe : binExp emin y = binExp emin x + 1 := by
      have : binExp emin y = Int.log 2 y := by
        unfold binExp at *; rw [abs_of_pos h0] at *; omega
      omega
    have hge := binExp_le emin h0 (by omega)
    rw [hbe] at hge
    have hye : y = (2 : ℚ) ^ (binExp emin x + 1) := le_antisymm hle hge
    obtain ⟨q, rfl⟩ : ∃ q, p = q + 1 := ⟨p - 1, by omega⟩
    apply nearestBin_of_mul (q + 1) emin (n := 2 ^ q)
    unfold ulpOf
    rw [hbe]
    conv_lhs => rw [hye]
    push_cast
    rw [← zpow_natCast, ← zpow_add₀ (by norm_num)]; congr 1; ring

theorem nearestBin_idem (hp : 1 ≤ p) (x : ℚ) : nearestBin p emin (nearestBin p emin x) = nearestBin p emin x := by
  rcases lt_trichotomy x 0 with hx | hx | hx
  · have := nearestBin_idem_pos p emin hp (x := -x) (by linarith)
    rw [nearestBin_neg, nearestBin_neg] at this
    linarith
  · subst hx; rw [nearestBin_zero, nearestBin_zero]
  · exact nearestBin_idem_pos p emin hp hx

theorem rndBin_mono (emax : ℤ) {R : Fmt ℚ} (hp : 1 ≤ p) {x y : ℚ} (h : x ≤ y) :
    (Fl.ofExt (rndBin p emin emax x) : Fl R) ≤ Fl.ofExt (rndBin p emin emax y) := by
  have := nearestBin_mono p emin hp h
  have hpos : (0 : ℚ) < (2 : ℚ) ^ (emax + 1) := by positivity
  unfold rndBin
  simp only
  split_ifs <;> simp only [Fl.ofExt] <;> first | (exfalso; linarith) | (simp; done) | (simp; linarith)

/-- binary64 (with any libm) satisfies the rounding assumptions of the framework theorems. -/
theorem b64Of_sound (libm : Fmt ℚ) : Sound (b64Of libm) where
  mono := fun _ _ h => rndBin_mono 53 (-1022) 1023 (by norm_num) h
  idem := by
    intro x y h
    have h' : (Fl.ofExt (rndBin 53 (-1022) 1023 x) : Fl (b64Of libm)) = .fin y := h
    show (Fl.ofExt (rndBin 53 (-1022) 1023 y) : Fl (b64Of libm)) = .fin y
    unfold rndBin at h' ⊢
    simp only at h' ⊢
    split_ifs at h' with h1 h2
    · simp [Fl.ofExt] at h'
    · simp [Fl.ofExt] at h'
    · simp only [Fl.ofExt, Fl.fin.injEq] at h'
      subst h'
      rw [nearestBin_idem 53 (-1022) (by norm_num)]
      rw [if_neg h1, if_neg h2]; rfl
  pi_pos := by show (0 : ℚ) < 884279719003555 / 281474976710656; norm_num
  rnd_pi := by
    show (Fl.ofExt (rndBin 53 (-1022) 1023 (884279719003555 / 281474976710656)) : Fl (b64Of libm)) = .fin (884279719003555 / 281474976710656)
    rw [show rndBin 53 (-1022) 1023 (884279719003555 / 281474976710656) = .val (884279719003555 / 281474976710656) by decide +kernel]
    rfl
  rnd_neg_pi := by
    show (Fl.ofExt (rndBin 53 (-1022) 1023 (-(884279719003555 / 281474976710656))) : Fl (b64Of libm)) = .fin (-(884279719003555 / 281474976710656))
    rw [show rndBin 53 (-1022) 1023 (-(884279719003555 / 281474976710656)) = .val (-(884279719003555 / 281474976710656)) by decide +kernel]
    rfl
  rnd_two_pi := by
    show (Fl.ofExt (rndBin 53 (-1022) 1023 (2 * (884279719003555 / 281474976710656))) : Fl (b64Of libm)) = .fin (2 * (884279719003555 / 281474976710656))
    rw [show rndBin 53 (-1022) 1023 (2 * (884279719003555 / 281474976710656)) = .val (2 * (884279719003555 / 281474976710656)) by decide +kernel]
    rfl
  rnd_zero := by
    show (Fl.ofExt (rndBin 53 (-1022) 1023 0) : Fl (b64Of libm)) = .fin 0
    rw [show rndBin 53 (-1022) 1023 0 = .val 0 by decide +kernel]
    rfl
  rnd32_zero := by
    rw [Fl.zero_fin]
    show (Fl.ofExt (rndBin 24 (-126) 127 0) : Fl (b64Of libm)) = .fin 0
    rw [show rndBin 24 (-126) 127 0 = .val 0 by decide +kernel]
    rfl

end SAD
