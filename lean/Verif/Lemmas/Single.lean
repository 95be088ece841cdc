import Verif.Lemmas.Rounding
import Verif.Lemmas.Rotational
import Verif.Lemmas.StateDot
import Verif.Lemmas.Applied

/-! # Casts to single precision in double-precision programs -/

set_option linter.unusedSectionVars false

namespace SAD
open Spec

/-- a number of the coarser format is a number of the finer one -/
theorem nearestBin_finer {p q : ℕ} {emin emin' : ℤ} (hpq : p ≤ q) (hm : emin' ≤ emin) (he : emin' - q ≤ emin - p) {y : ℚ} (h : nearestBin p emin y = y) :
    nearestBin q emin' y = y := by
  have hb : binExp emin' y - (q - 1) ≤ binExp emin y - (p - 1) := by
    unfold binExp
    omega
  obtain ⟨k, hk⟩ : ∃ k : ℕ, binExp emin y - ((p : ℤ) - 1) = binExp emin' y - ((q : ℤ) - 1) + k :=
    ⟨(binExp emin y - ((p : ℤ) - 1) - (binExp emin' y - ((q : ℤ) - 1))).toNat, by omega⟩
  apply nearestBin_of_mul q emin' (n := roundEven (y / ulpOf p emin y) * 2 ^ k)
  have eu : ulpOf p emin y = 2 ^ k * ulpOf q emin' y := by
    unfold ulpOf
    rw [hk, ← zpow_natCast, ← zpow_add₀ (by norm_num)]; congr 1; ring
  have ey : y = roundEven (y / ulpOf p emin y) * ulpOf p emin y := h.symm
  generalize roundEven (y / ulpOf p emin y) = r at ey ⊢
  rw [eu] at ey
  push_cast
  conv_lhs => rw [ey]
  ring

theorem rndBin_val {p : ℕ} {emin emax : ℤ} {x y : ℚ} (h : rndBin p emin emax x = .val y) :
    y = nearestBin p emin x ∧ y < 2 ^ (emax + 1) ∧ -2 ^ (emax + 1) < y := by
  unfold rndBin at h
  simp only at h
  split_ifs at h with h1 h2
  cases h
  exact ⟨rfl, not_le.1 h1, not_le.1 h2⟩

theorem rndBin_fix {p : ℕ} {emin emax : ℤ} {y : ℚ} (h : nearestBin p emin y = y) (h1 : y < 2 ^ (emax + 1)) (h2 : -2 ^ (emax + 1) < y) :
    rndBin p emin emax y = .val y := by
  unfold rndBin
  simp only [h]
  rw [if_neg (not_le.2 h1), if_neg (not_le.2 h2)]

/-- a single-precision number is unchanged by a cast and by a double-precision rounding -/
theorem single_fix {x y : ℚ} (h : rndBin 24 (-126) 127 x = .val y) :
    rndBin 24 (-126) 127 y = .val y ∧ rndBin 53 (-1022) 1023 y = .val y := by
  obtain ⟨hy, h1, h2⟩ := rndBin_val h
  have hi : nearestBin 24 (-126) y = y := by rw [hy]; exact nearestBin_idem 24 (-126) (by norm_num) x
  have hlt : (2 : ℚ) ^ ((127 : ℤ) + 1) < 2 ^ ((1023 : ℤ) + 1) := zpow_lt_zpow_right₀ (by norm_num) (by norm_num)
  exact ⟨rndBin_fix hi h1 h2, rndBin_fix (nearestBin_finer (by norm_num) (by norm_num) (by norm_num) hi) (h1.trans hlt) (by linarith)⟩

/-- a number within the range of single precision rounds to a single-precision number with relative error `2^-24` -/
theorem single_near {x : ℚ} (hx : |x| ≤ 2 ^ (127 : ℤ)) :
    ∃ y, rndBin 24 (-126) 127 x = .val y ∧ |y - x| ≤ 2⁻¹ ^ 24 * (|x| + 2 ^ (-126 : ℤ)) := by
  have hlt : (2 : ℚ) ^ (127 : ℤ) < 2 ^ ((127 : ℤ) + 1) := zpow_lt_zpow_right₀ (by norm_num) (by norm_num)
  have hid : nearestBin 24 (-126) (2 ^ (127 : ℤ)) = 2 ^ (127 : ℤ) := by decide +kernel
  have h1 : nearestBin 24 (-126) x ≤ 2 ^ (127 : ℤ) := by
    have := nearestBin_mono 24 (-126) (by norm_num) ((le_abs_self x).trans hx)
    rwa [hid] at this
  have h2 : -2 ^ (127 : ℤ) ≤ nearestBin 24 (-126) x := by
    have := nearestBin_mono 24 (-126) (by norm_num) (neg_le_of_abs_le hx)
    rwa [nearestBin_neg, hid] at this
  refine ⟨nearestBin 24 (-126) x, ?_, nearestBin_error 24 (-126) x⟩
  unfold rndBin
  simp only
  rw [if_neg (by linarith), if_neg (by linarith)]

section
variable {libm : Fmt ℚ}

theorem cast32_val {x y : ℚ} (h : rndBin 24 (-126) 127 x = .val y) : (.fin x : Fl (b64Of libm)).cast32 = .fin y := by
  show Fl.ofExt (rndBin 24 (-126) 127 x) = _
  rw [h]; rfl

theorem b64_round {y : ℚ} (h : rndBin 53 (-1022) 1023 y = .val y) : (Fl.round y : Fl (b64Of libm)) = .fin y := by
  show Fl.ofExt (rndBin 53 (-1022) 1023 y) = _
  rw [h]; rfl

theorem b64_round_zero : (Fl.round 0 : Fl (b64Of libm)) = .fin 0 := b64_round (by decide +kernel)

theorem b64_zero_mul (x : ℚ) : (0 * .fin x : Fl (b64Of libm)) = 0 := by
  rw [Fl.zero_fin]
  show Fl.round (0 * x) = _
  rw [zero_mul, b64_round_zero]

theorem b64_one_mul {x : ℚ} (h : rndBin 53 (-1022) 1023 x = .val x) : (1 * .fin x : Fl (b64Of libm)) = .fin x := by
  rw [Fl.one_fin]
  show Fl.round (1 * x) = _
  rw [one_mul, b64_round h]

theorem b64_add_zero {x : ℚ} (h : rndBin 53 (-1022) 1023 x = .val x) : (.fin x + 0 : Fl (b64Of libm)) = .fin x := by
  rw [Fl.zero_fin]
  show Fl.round (x + 0) = _
  rw [add_zero, b64_round h]

theorem b64_zero_add {x : ℚ} (h : rndBin 53 (-1022) 1023 x = .val x) : (0 + .fin x : Fl (b64Of libm)) = .fin x := by
  rw [Fl.zero_fin]
  show Fl.round (0 + x) = _
  rw [zero_add, b64_round h]

theorem b64_zero_add_zero : (0 + 0 : Fl (b64Of libm)) = 0 := by
  rw [Fl.zero_fin]
  show Fl.round (0 + 0) = _
  rw [add_zero, b64_round_zero]

end

section
variable {K : Type} [Field K] [LinearOrder K] [IsStrictOrderedRing K] {R : Fmt K} {ε τ M : K}

/-- a cast to single precision is a rounding -/
theorem Near.cast32 (hε : 0 ≤ ε) (hτ : 0 ≤ τ) (hR : ∀ x, |x| ≤ M → ∃ y, R.rnd32 x = .val y ∧ |y - x| ≤ ε * (|x| + τ)) {k : ℕ} {z : Fl R}
    {x a : K} (h : Near ε k z x a) (hM : (1 + ε) ^ k * a ≤ M) : Near ε (k + 1) z.cast32 x (a + τ) := by
  obtain ⟨h1, w, rfl, h2⟩ := h
  have hw : |w| ≤ (1 + ε) ^ k * a := by
    have := abs_add_le (w - x) x
    rw [sub_add_cancel] at this
    linarith
  obtain ⟨y, hy, hd⟩ := hR w (hw.trans hM)
  refine ⟨by linarith, y, by simp [Fl.cast32, hy, Fl.ofExt], ?_⟩
  have h3 : |y - x| ≤ |y - w| + |w - x| := by
    have := abs_add_le (y - w) (w - x)
    rwa [sub_add_sub_cancel] at this
  have h4 : ε * (|w| + τ) ≤ ε * ((1 + ε) ^ k * a + τ) := by gcongr
  have e1 := one_le_pow_eps hε k
  have h5 : ε * τ ≤ ((1 + ε) ^ (k + 1) - 1) * τ := by
    apply mul_le_mul_of_nonneg_right _ hτ
    rw [pow_succ]; nlinarith
  calc |y - x| ≤ ε * ((1 + ε) ^ k * a + τ) + ((1 + ε) ^ k - 1) * a := by linarith
    _ = ((1 + ε) ^ (k + 1) - 1) * a + ε * τ := by rw [pow_succ]; ring
    _ ≤ ((1 + ε) ^ (k + 1) - 1) * (a + τ) := by rw [mul_add]; linarith

end

/-- double precision, as a rounding with the accuracy and range of single precision -/
theorem b64_rounds24 (libm : Fmt ℚ) : Rounds (b64Of libm) (2⁻¹ ^ 24) (2 ^ (-126 : ℤ)) (2 ^ (127 : ℤ)) where
  eps := by positivity
  tau := by positivity
  rnd := by
    intro x hx
    obtain ⟨y, h1, h2⟩ := (b64_rounds libm).rnd x (hx.trans (by decide +kernel))
    refine ⟨y, h1, h2.trans ?_⟩
    have := abs_nonneg x
    have e1 : (2⁻¹ : ℚ) ^ 53 ≤ 2⁻¹ ^ 24 := by decide +kernel
    have e2 : (2 : ℚ) ^ (-1022 : ℤ) ≤ 2 ^ (-126 : ℤ) := by decide +kernel
    exact mul_le_mul e1 (by linarith) (by positivity) (by positivity)

theorem single_eps : (1 + (2⁻¹ : ℚ) ^ 24) ^ 10 - 1 ≤ 2⁻¹ ^ 20 := by decide +kernel

/-- one row of the derivative of the planar rotating spacecraft: the drift in single, the thrust in double precision -/
theorem near_single_row {libm : Fmt ℚ} {zc : Fin 4 → Fl (b64Of libm)} {c a s : Fin 4 → ℚ} {zg : Fin 3 → Fl (b64Of libm)} {g b u : Fin 3 → ℚ}
    (hc : ∀ j, Near (2⁻¹ ^ 24) 2 (zc j) (c j) (a j)) (ha : ∀ j, a j ≤ 2 ^ 70) (hs : ∀ j, |s j| ≤ 2 ^ 30)
    (hg : ∀ j, Near (2⁻¹ ^ 24) 1 (zg j) (g j) (b j)) (hb : ∀ j, b j ≤ 2 ^ 70) (hu : ∀ j, |u j| ≤ 2 ^ 30) :
    Near (2⁻¹ ^ 24) 10 (Fl.cast32 (dot (List.ofFn zc) (List.ofFn fun j => (.fin (s j) : Fl (b64Of libm)).cast32)) + dot (List.ofFn zg) (toFl u))
      (∑ j, c j * s j + ∑ j, g j * u j) (∑ j, a j * |s j| + ∑ j, b j * |u j| + 2⁻¹ ^ 50) := by
  have hR := b64_rounds24 libm
  have hε := hR.eps
  have hτ := hR.tau
  have hM : ∀ (k : ℕ) (y : ℚ), k ≤ 10 → 0 ≤ y → y ≤ 2 ^ 110 → (1 + 2⁻¹ ^ 24) ^ k * y ≤ (2 : ℚ) ^ (127 : ℤ) := fun k y hk hy hy' => by
    have e1 : (1 + (2⁻¹ : ℚ) ^ 24) ^ k ≤ 2 := by
      have := pow_le_pow_right₀ (a := 1 + (2⁻¹ : ℚ) ^ 24) (by norm_num) hk
      have := single_eps
      have : (2⁻¹ : ℚ) ^ 20 ≤ 1 := by norm_num
      linarith
    have e2 : (2 : ℚ) * 2 ^ 110 ≤ 2 ^ (127 : ℤ) := by decide +kernel
    exact (mul_le_mul e1 hy' hy (by norm_num)).trans e2
  have hcast : ∀ x, |x| ≤ (2 : ℚ) ^ (127 : ℤ) → ∃ y, (b64Of libm).rnd32 x = .val y ∧ |y - x| ≤ 2⁻¹ ^ 24 * (|x| + 2 ^ (-126 : ℤ)) :=
    fun x hx => single_near hx
  have ha0 := fun j => (hc j).nonneg
  have hb0 := fun j => (hg j).nonneg
  have ha1 : ∀ j, 0 ≤ a j * |s j| ∧ a j * |s j| ≤ 2 ^ 100 := fun j => ⟨mul_nonneg (ha0 j) (abs_nonneg _), by
    have := mul_le_mul (ha j) (hs j) (abs_nonneg _) (by positivity)
    have e : (2 : ℚ) ^ 70 * 2 ^ 30 = 2 ^ 100 := by norm_num
    linarith⟩
  have hb1 : ∀ j, 0 ≤ b j * |u j| ∧ b j * |u j| ≤ 2 ^ 100 := fun j => ⟨mul_nonneg (hb0 j) (abs_nonneg _), by
    have := mul_le_mul (hb j) (hu j) (abs_nonneg _) (by positivity)
    have e : (2 : ℚ) ^ 70 * 2 ^ 30 = 2 ^ 100 := by norm_num
    linarith⟩
  have hat : ∀ j, 0 ≤ a j * 2 ^ (-126 : ℤ) ∧ a j * 2 ^ (-126 : ℤ) ≤ 2⁻¹ ^ 56 := fun j => ⟨mul_nonneg (ha0 j) (by positivity), by
    have := mul_le_mul_of_nonneg_right (ha j) hτ
    have e : (2 : ℚ) ^ 70 * 2 ^ (-126 : ℤ) = 2⁻¹ ^ 56 := by decide +kernel
    exact this.trans e.le⟩
  have e126 : (2 : ℚ) ^ (-126 : ℤ) ≤ 2⁻¹ ^ 100 := by decide +kernel
  have hs1 : ∀ j, Near (2⁻¹ ^ 24) 1 ((.fin (s j) : Fl (b64Of libm)).cast32) (s j) (|s j| + 2 ^ (-126 : ℤ)) := fun j =>
    (near_fin (s j)).cast32 hε hτ hcast (hM 0 _ (by norm_num) (abs_nonneg _) ((hs j).trans (by norm_num)))
  have n100 : (2⁻¹ : ℚ) ^ 100 ≤ 2⁻¹ ^ 60 := by norm_num
  have n56 : 6 * (2⁻¹ : ℚ) ^ 56 + 30 * 2⁻¹ ^ 60 ≤ 2⁻¹ ^ 50 := by norm_num
  have n50 : (2⁻¹ : ℚ) ^ 50 ≤ 1 := by norm_num
  have n2 : 10 * (2 : ℚ) ^ 100 + 1 ≤ 2 ^ 110 := by norm_num
  obtain ⟨⟨_, _⟩, ⟨_, _⟩, ⟨_, _⟩, _, _⟩ := And.intro (ha1 0) (And.intro (ha1 1) (And.intro (ha1 2) (ha1 3)))
  obtain ⟨⟨_, _⟩, ⟨_, _⟩, ⟨_, _⟩, _, _⟩ := And.intro (hat 0) (And.intro (hat 1) (And.intro (hat 2) (hat 3)))
  obtain ⟨⟨_, _⟩, ⟨_, _⟩, _, _⟩ := And.intro (hb1 0) (And.intro (hb1 1) (hb1 2))
  generalize (2 : ℚ) ^ (-126 : ℤ) = τ at *
  have d1 := near_dot hR hc hs1 (hM _ _ (by norm_num) (by
      simp only [Fin.sum_univ_four, mul_add]; linarith) (by simp only [Fin.sum_univ_four, mul_add]; linarith))
  have d2 := d1.cast32 hε hτ hcast (hM _ _ (by norm_num) (by
      simp only [Fin.sum_univ_four, mul_add]; linarith) (by simp only [Fin.sum_univ_four, mul_add]; linarith))
  have d3 := near_dot hR hg (fun j => near_fin (u j)) (hM _ _ (by norm_num) (by
      simp only [Fin.sum_univ_three]; linarith) (by simp only [Fin.sum_univ_three]; linarith))
  have d4 := (d2.mono hε (l := 9) (by norm_num) le_rfl).add hR (d3.mono hε (l := 9) (by norm_num) le_rfl) (hM _ _ (by norm_num) (by
      simp only [Fin.sum_univ_three, Fin.sum_univ_four, mul_add]; linarith)
      (by simp only [Fin.sum_univ_three, Fin.sum_univ_four, mul_add]; linarith))
  refine d4.mono hε le_rfl ?_
  simp only [Fin.sum_univ_three, Fin.sum_univ_four, mul_add]
  linarith

section
variable {K : Type} {R : Fmt K} [Field K] [LinearOrder K]

/-- the right-hand side of the planar rotating spacecraft -/
theorem rot2d_rhs {env : Env R} {a : Rot2dArgs R} {e : Entity R} (h : newRot2d env a = .ok e) :
    e.dynamics.rhs = affineRhs (rot2dF ⟨[[0, 0, 1, 0], [0, 0, 0, 1], [3 * (a.n * a.n), 0, 0, 2 * a.n], [0, 0, -2 * a.n, 0]], 4⟩)
      (rot2dG a.m a.inertia) ∧ e.dynamics.custom = none ∧ e.dynamics.integrationMethod = a.integrationMethod ∧
      some e.dynamics.trajectorySamples = a.trajectorySamples ∧ Fl.eqb a.m 0 = false := by
  have h := instantiate_ok h
  unfold initRot2d at h
  obtain ⟨⟨acc, vel⟩, hl, h⟩ := Except.bind_ok.1 h
  obtain ⟨d, hd, h⟩ := Except.bind_ok.1 h
  obtain ⟨g1, -⟩ := baseInit_ok h
  unfold mkRot2dDynamics at hd
  obtain ⟨d', hd', hd⟩ := Except.bind_ok.1 hd
  obtain ⟨⟨A, B⟩, hAB, hd⟩ := Except.bind_ok.1 hd
  obtain ⟨k, hk, -, rfl⟩ := mkOdeDyn_ok hd'
  cases hd
  unfold generateCwhMatrices at hAB
  rw [if_pos rfl] at hAB
  obtain ⟨r, hr, hAB⟩ := Except.bind_ok.1 hAB
  cases hAB
  rw [g1]
  refine ⟨rfl, rfl, rfl, hk.symm, ?_⟩
  unfold pyDiv at hr
  split at hr
  · cases hr
  · rename_i hz
    simpa using hz

end
end SAD
