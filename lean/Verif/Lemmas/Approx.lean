import Verif.Lemmas.RoundDubins3
import Verif.Lemmas.Single

/-! # Approximation in double precision, with magnitudes far from underflow and overflow -/

set_option linter.unusedSectionVars false

namespace SAD

section
variable {libm : Fmt ℚ}

/-- `z` is a finite float that approximates `x`, of magnitude at most `a`, up to `c` units in the last place of `a`; `a` is between `2 ^ -p` and `2 ^ p` -/
def App (p c : ℕ) (z : Fl (b64Of libm)) (x a : ℚ) : Prop := 2⁻¹ ^ p ≤ a ∧ a ≤ 2 ^ p ∧ |x| ≤ a ∧ ∃ v : ℚ, z = .fin v ∧ |v - x| ≤ c * 2⁻¹ ^ 52 * a

variable {p q c d : ℕ} {z z' : Fl (b64Of libm)} {x x' a a' : ℚ}

theorem App.pos (h : App p c z x a) : 0 < a := lt_of_lt_of_le (by positivity) h.1

theorem App.mono (h : App p c z x a) (hp : p ≤ q) (hc : c ≤ d) (ha : a ≤ a') (ha' : a' ≤ 2 ^ q) : App q d z x a' := by
  obtain ⟨h1, h2, h3, v, h4, h5⟩ := h
  have a0 : 0 ≤ a := (abs_nonneg x).trans h3
  refine ⟨le_trans (pow_le_pow_of_le_one (by norm_num) (by norm_num) hp) (h1.trans ha), ha', h3.trans ha, v, h4, h5.trans ?_⟩
  have hc' : (c : ℚ) ≤ d := by exact_mod_cast hc
  gcongr

/-- the same magnitude, more room -/
theorem App.more (h : App p c z x a) (hp : p ≤ q) (hc : c ≤ d) : App q d z x a :=
  h.mono hp hc le_rfl (h.2.1.trans (pow_le_pow_right₀ (by norm_num) hp))

theorem app_fin (h : |x| ≤ a) (h1 : 2⁻¹ ^ p ≤ a) (h2 : a ≤ 2 ^ p) : App p 0 (.fin x : Fl (b64Of libm)) x a := ⟨h1, h2, h, x, rfl, by simp⟩

theorem App.neg (h : App p c z x a) : App p c (-z) (-x) a := by
  obtain ⟨h1, h2, h3, v, rfl, h5⟩ := h
  refine ⟨h1, h2, by rwa [abs_neg], -v, rfl, ?_⟩
  rw [show -v - -x = -(v - x) by ring, abs_neg]
  exact h5

theorem app_slack (hc : c ≤ 2 ^ 20) : (c : ℚ) * 2⁻¹ ^ 52 ≤ 2⁻¹ ^ 32 := by
  have : (c : ℚ) ≤ 2 ^ 20 := by exact_mod_cast hc
  calc (c : ℚ) * 2⁻¹ ^ 52 ≤ 2 ^ 20 * 2⁻¹ ^ 52 := by gcongr
    _ = _ := by norm_num

theorem app_room (hp : p ≤ 1000) : (2 : ℚ) ^ p * 2 ≤ 2 ^ (1023 : ℤ) := by
  have : (2 : ℚ) ^ p ≤ 2 ^ 1000 := pow_le_pow_right₀ (by norm_num) hp
  have h2 : (2 : ℚ) ^ 1000 * 2 ≤ 2 ^ (1023 : ℤ) := by decide +kernel
  exact (mul_le_mul_of_nonneg_right this (by norm_num)).trans h2

theorem app_tiny (hp : p ≤ 1000) (h : 2⁻¹ ^ p ≤ a) : (2 : ℚ) ^ (-1022 : ℤ) ≤ 2⁻¹ ^ 20 * a := by
  have : (2⁻¹ : ℚ) ^ 1000 ≤ 2⁻¹ ^ p := pow_le_pow_of_le_one (by norm_num) (by norm_num) hp
  have h2 : (2 : ℚ) ^ (-1022 : ℤ) ≤ 2⁻¹ ^ 20 * 2⁻¹ ^ 1000 := by decide +kernel
  exact h2.trans (mul_le_mul_of_nonneg_left (this.trans h) (by positivity))

/-- a rounded number -/
theorem app_round {w : ℚ} {e : ℕ} (hp : p ≤ 1000) (h1 : 2⁻¹ ^ p ≤ a) (h2 : a ≤ 2 ^ p) (hx : |x| ≤ a) (he : e ≤ 2 ^ 21) {s : ℚ} (hs : s ≤ 2⁻¹ ^ 20)
    (hw : |w - x| ≤ (e + s) * 2⁻¹ ^ 52 * a) : App p (e + 1) (Fl.round w : Fl (b64Of libm)) x a := by
  have a0 : 0 ≤ a := (abs_nonneg x).trans hx
  have e1 : ((e : ℚ) + s) * 2⁻¹ ^ 52 ≤ 2⁻¹ ^ 30 := by
    have : (e : ℚ) ≤ 2 ^ 21 := by exact_mod_cast he
    calc ((e : ℚ) + s) * 2⁻¹ ^ 52 ≤ (2 ^ 21 + 2⁻¹ ^ 20) * 2⁻¹ ^ 52 := by gcongr
      _ ≤ _ := by norm_num
  have e2 := mul_le_mul_of_nonneg_right e1 a0
  have hwa : |w| ≤ (1 + 2⁻¹ ^ 30) * a := by
    have := abs_sub_abs_le_abs_sub w x
    linarith
  obtain ⟨v, v1, v2⟩ := round_fin (b64_rounds libm) (x := w) (hwa.trans (le_trans (by
    have : (2⁻¹ : ℚ) ^ 30 ≤ 1 := by norm_num
    nlinarith) (app_room hp)))
  refine ⟨h1, h2, hx, v, v1, ?_⟩
  have h3 : |v - x| ≤ |v - w| + |w - x| := by
    have := abs_add_le (v - w) (w - x)
    rwa [sub_add_sub_cancel] at this
  have h4 := app_tiny hp h1
  have h5 : 2⁻¹ ^ 53 * (|w| + 2 ^ (-1022 : ℤ)) ≤ 2⁻¹ ^ 53 * ((1 + 2⁻¹ ^ 30 + 2⁻¹ ^ 20) * a) := by
    refine mul_le_mul_of_nonneg_left ?_ (by positivity)
    linarith
  have h6 : 2⁻¹ ^ 53 * ((1 + 2⁻¹ ^ 30 + 2⁻¹ ^ 20) * a) + s * (2⁻¹ ^ 52 * a) ≤ 2⁻¹ ^ 52 * a := by
    have : s * (2⁻¹ ^ 52 * a) ≤ 2⁻¹ ^ 20 * (2⁻¹ ^ 52 * a) := by gcongr
    have e3 : (2⁻¹ : ℚ) ^ 53 * (1 + 2⁻¹ ^ 30 + 2⁻¹ ^ 20) + 2⁻¹ ^ 20 * 2⁻¹ ^ 52 ≤ 2⁻¹ ^ 52 := by norm_num
    nlinarith
  push_cast
  linarith

theorem App.add (h : App p c z x a) (h' : App p c z' x' a') (hp : p ≤ 999) (hc : c ≤ 2 ^ 20) : App (p + 1) (c + 1) (z + z') (x + x') (a + a') := by
  have a0 := h.pos
  have a0' := h'.pos
  obtain ⟨h1, h2, h3, v, rfl, h5⟩ := h
  obtain ⟨h1', h2', h3', v', rfl, h5'⟩ := h'
  refine app_round (w := v + v') (s := 0) (by omega) ?_ ?_ ((abs_add_le _ _).trans (add_le_add h3 h3')) (hc.trans (by norm_num)) (by positivity) ?_
  · have : (2⁻¹ : ℚ) ^ (p + 1) ≤ 2⁻¹ ^ p := pow_le_pow_of_le_one (by norm_num) (by norm_num) (by omega)
    linarith
  · rw [pow_succ]
    linarith
  · rw [show v + v' - (x + x') = (v - x) + (v' - x') by ring]
    refine (abs_add_le _ _).trans ?_
    linarith

theorem App.sub (h : App p c z x a) (h' : App p c z' x' a') (hp : p ≤ 999) (hc : c ≤ 2 ^ 20) : App (p + 1) (c + 1) (z - z') (x - x') (a + a') := by
  have := h.add h'.neg hp hc
  rwa [← sub_eq_add_neg] at this

theorem App.mul (h : App p c z x a) (h' : App q d z' x' a') (hp : p + q ≤ 1000) (hc : c ≤ 2 ^ 16) (hd : d ≤ 2 ^ 16) : App (p + q) (c + d + 1) (z * z') (x * x') (a * a') := by
  have a0 := h.pos
  have a0' := h'.pos
  obtain ⟨h1, h2, h3, v, rfl, h5⟩ := h
  obtain ⟨h1', h2', h3', v', rfl, h5'⟩ := h'
  have hcq : (c : ℚ) ≤ 2 ^ 16 := by exact_mod_cast hc
  have hdq : (d : ℚ) ≤ 2 ^ 16 := by exact_mod_cast hd
  have := app_round (libm := libm) (p := p + q) (w := v * v') (x := x * x') (a := a * a') (e := c + d) (s := c * d * 2⁻¹ ^ 52) hp (by rw [pow_add]; gcongr) (by rw [pow_add]; gcongr)
    (by rw [abs_mul]; gcongr) (by omega) (by
      calc (c : ℚ) * d * 2⁻¹ ^ 52 ≤ 2 ^ 16 * 2 ^ 16 * 2⁻¹ ^ 52 := by gcongr
        _ ≤ _ := by norm_num) (by
      have e1 : v * v' - x * x' = (v - x) * x' + (v' - x') * x + (v - x) * (v' - x') := by ring
      rw [e1]
      refine (abs_add_le _ _).trans ((add_le_add_left (abs_add_le _ _) _).trans ?_)
      rw [abs_mul, abs_mul, abs_mul]
      have m1 : |v - x| * |x'| ≤ c * 2⁻¹ ^ 52 * a * a' := by gcongr
      have m2 : |v' - x'| * |x| ≤ d * 2⁻¹ ^ 52 * a' * a := by gcongr
      have m3 : |v - x| * |v' - x'| ≤ (c * 2⁻¹ ^ 52 * a) * (d * 2⁻¹ ^ 52 * a') := by gcongr
      push_cast
      linarith)
  exact this

theorem app_zero (h1 : 2⁻¹ ^ p ≤ a) (h2 : a ≤ 2 ^ p) : App p 0 (0 : Fl (b64Of libm)) 0 a := by
  rw [Fl.zero_fin]
  exact app_fin (by rw [abs_zero]; exact le_trans (by positivity) h1) h1 h2

theorem App.addZero (h : App p c z x a) (hp : p ≤ 1000) (hc : c ≤ 2 ^ 20) : App p (c + 1) (z + 0) x a := by
  obtain ⟨h1, h2, h3, v, rfl, h5⟩ := h
  rw [Fl.zero_fin]
  exact app_round (w := v + 0) (s := 0) hp h1 h2 h3 (hc.trans (by norm_num)) (by positivity) (by rw [add_zero, add_zero]; exact h5)

theorem App.zeroAdd (h : App p c z x a) (hp : p ≤ 1000) (hc : c ≤ 2 ^ 20) : App p (c + 1) (0 + z) x a := by
  obtain ⟨h1, h2, h3, v, rfl, h5⟩ := h
  rw [Fl.zero_fin]
  exact app_round (w := 0 + v) (s := 0) hp h1 h2 h3 (hc.trans (by norm_num)) (by positivity) (by rw [zero_add, add_zero]; exact h5)

theorem app_div {b : ℚ} (hb : b ≠ 0) (hp : p ≤ 1000) (h1 : 2⁻¹ ^ p ≤ a) (h2 : a ≤ 2 ^ p) (hx : |x / b| ≤ a) : App p 1 (.fin x / .fin b : Fl (b64Of libm)) (x / b) a := by
  have : ((.fin x : Fl (b64Of libm)) / .fin b) = Fl.round (x / b) := by
    show Fl.div _ _ = _
    simp [Fl.div, hb]
  rw [this]
  exact app_round (e := 0) (s := 0) hp h1 h2 hx (by norm_num) (by positivity) (by simp)

theorem app_fin_sub {y : ℚ} (hp : p ≤ 1000) (h1 : 2⁻¹ ^ p ≤ a) (h2 : a ≤ 2 ^ p) (hx : |x - y| ≤ a) : App p 1 (.fin x - .fin y : Fl (b64Of libm)) (x - y) a := by
  have : ((.fin x : Fl (b64Of libm)) - .fin y) = Fl.round (x - y) := by
    show Fl.round (x + -y) = _
    rw [sub_eq_add_neg]
  rw [this]
  exact app_round (e := 0) (s := 0) hp h1 h2 hx (by norm_num) (by positivity) (by simp)

theorem app_half : App 1 0 (0.5 : Fl (b64Of libm)) (1 / 2) (1 / 2) := by
  have : (0.5 : Fl (b64Of libm)) = .fin (1 / 2) := by
    show Fl.round (if true then ((5 : ℕ) : ℚ) / (10 : ℚ) ^ 1 else _) = _
    rw [if_pos rfl, b64_round (by decide +kernel)]
    norm_num
  rw [this]
  exact app_fin (by norm_num) (by norm_num) (by norm_num)

/-- an entry of a derivative that is computed in two parts, the first in single precision -/
theorem app_entry (h : App p c z x a) (h' : App q d z' x' a') (hp : p ≤ 500) (hq : q ≤ 500) (hc : c ≤ 2 ^ 20) (hd : d ≤ 2 ^ 20) (ha : a ≤ 2 ^ 120) :
    ∃ v : ℚ, (z.cast32 + z' : Fl (b64Of libm)) = .fin v ∧ |v - (x + x')| ≤ 2⁻¹ ^ 22 * (a + 2⁻¹ ^ 100) + 2⁻¹ ^ 30 * a' := by
  have a0 := h.pos
  have a0' := h'.pos
  obtain ⟨h1, h2, h3, v, rfl, h5⟩ := h
  obtain ⟨h1', h2', h3', v', rfl, h5'⟩ := h'
  have k1 := mul_le_mul_of_nonneg_right (app_slack hc) a0.le
  have k2 := mul_le_mul_of_nonneg_right (app_slack hd) a0'.le
  have va : |v| ≤ (1 + 2⁻¹ ^ 32) * a := by
    have := abs_sub_abs_le_abs_sub v x
    linarith
  have va' : |v'| ≤ (1 + 2⁻¹ ^ 32) * a' := by
    have := abs_sub_abs_le_abs_sub v' x'
    linarith
  have r1 : (1 + (2⁻¹ : ℚ) ^ 32) * 2 ^ 120 ≤ 2 ^ (127 : ℤ) := by decide +kernel
  obtain ⟨s, s1, s2⟩ := single_near (x := v) (va.trans ((mul_le_mul_of_nonneg_left ha (by positivity)).trans r1))
  have t1 : (2 : ℚ) ^ (-126 : ℤ) ≤ 2⁻¹ ^ 20 * 2⁻¹ ^ 100 := by decide +kernel
  have s3 : |s - x| ≤ 2⁻¹ ^ 23 * (a + 2⁻¹ ^ 100) := by
    have e1 := abs_add_le (s - v) (v - x)
    rw [sub_add_sub_cancel] at e1
    have e2 : 2⁻¹ ^ 24 * (|v| + 2 ^ (-126 : ℤ)) ≤ 2⁻¹ ^ 24 * ((1 + 2⁻¹ ^ 32) * a + 2⁻¹ ^ 20 * 2⁻¹ ^ 100) := by gcongr
    obtain ⟨g, hg⟩ : ∃ g : ℚ, g = 2⁻¹ ^ 100 := ⟨_, rfl⟩
    have g0 : 0 ≤ g := by rw [hg]; positivity
    rw [← hg] at e2 ⊢
    norm_num at e2 k1 h5 ⊢
    linarith
  have sa : |s| ≤ (1 + 2⁻¹ ^ 22) * a + 2⁻¹ ^ 100 := by
    have e1 := abs_sub_abs_le_abs_sub s x
    have e2 : (2⁻¹ : ℚ) ^ 23 * (a + 2⁻¹ ^ 100) ≤ 2⁻¹ ^ 22 * a + 2⁻¹ ^ 100 := by
      have : (2⁻¹ : ℚ) ^ 23 ≤ 2⁻¹ ^ 22 := by norm_num
      have : (2⁻¹ : ℚ) ^ 23 * 2⁻¹ ^ 100 ≤ 2⁻¹ ^ 100 := by norm_num
      nlinarith
    linarith
  have big : |s + v'| ≤ 2 ^ (1023 : ℤ) := by
    have e1 := abs_add_le s v'
    have e2 : a' ≤ 2 ^ 500 := h2'.trans (pow_le_pow_right₀ (by norm_num) hq)
    have e3 : (1 + (2⁻¹ : ℚ) ^ 22) * 2 ^ 120 + 2⁻¹ ^ 100 + (1 + 2⁻¹ ^ 32) * 2 ^ 500 ≤ 2 ^ (1023 : ℤ) := by decide +kernel
    have e4 : (1 + (2⁻¹ : ℚ) ^ 22) * a ≤ (1 + 2⁻¹ ^ 22) * 2 ^ 120 := by gcongr
    have e5 : (1 + (2⁻¹ : ℚ) ^ 32) * a' ≤ (1 + 2⁻¹ ^ 32) * 2 ^ 500 := by gcongr
    exact e1.trans (le_trans (add_le_add (sa.trans (add_le_add_left e4 _)) (va'.trans e5)) e3)
  obtain ⟨r, r2, r3⟩ := round_fin (b64_rounds libm) big
  refine ⟨r, by rw [cast32_val s1]; exact r2, ?_⟩
  have e1 := abs_add_le (r - (s + v')) ((s - x) + (v' - x'))
  rw [show r - (s + v') + ((s - x) + (v' - x')) = r - (x + x') by ring] at e1
  have e2 := abs_add_le (s - x) (v' - x')
  have e3 := abs_add_le s v'
  have t2 : (2 : ℚ) ^ (-1022 : ℤ) ≤ 2⁻¹ ^ 100 := by decide +kernel
  have e4 : 2⁻¹ ^ 53 * (|s + v'| + 2 ^ (-1022 : ℤ)) ≤ 2⁻¹ ^ 53 * ((1 + 2⁻¹ ^ 22) * a + 2⁻¹ ^ 100 + (1 + 2⁻¹ ^ 32) * a' + 2⁻¹ ^ 100) := by
    refine mul_le_mul_of_nonneg_left ?_ (by positivity)
    linarith
  obtain ⟨g, hg⟩ : ∃ g : ℚ, g = 2⁻¹ ^ 100 := ⟨_, rfl⟩
  have g0 : 0 ≤ g := by rw [hg]; positivity
  rw [← hg] at e4 s3 ⊢
  norm_num at e4 s3 k2 h5' ⊢
  linarith

end
end SAD
