import Verif.Lemmas.Rounding
import Verif.Lemmas.Dubins
import Mathlib.Analysis.Real.Pi.Bounds
import Mathlib.Analysis.SpecialFunctions.Trigonometric.Bounds

/-! # Rounding errors of one Euler step of the 2d aircraft -/

set_option linter.unusedSectionVars false

namespace SAD
open Spec

section
variable {K : Type} {R : Fmt K} [Field K] [LinearOrder K] [IsStrictOrderedRing K] {ε τ M : K}

/-- one rounding -/
theorem round_fin (hR : Rounds R ε τ M) {x : K} (hx : |x| ≤ M) : ∃ y, (Fl.round x : Fl R) = .fin y ∧ |y - x| ≤ ε * (|x| + τ) := by
  obtain ⟨y, h1, h2⟩ := hR.rnd x hx
  exact ⟨y, by simp [Fl.round, h1, Fl.ofExt], h2⟩

theorem pow_eps_small {ε : K} (h0 : 0 ≤ ε) (h : ε ≤ 1 / 1000) : (1 + ε) ^ 2 - 1 ≤ 3 * ε ∧ (1 + ε) ^ 5 - 1 ≤ 6 * ε := by
  constructor
  · nlinarith
  · have h2 : ε ^ 2 ≤ ε / 1000 := by nlinarith
    have h3 : ε ^ 3 ≤ ε / 1000 := by nlinarith [mul_nonneg h0 (mul_nonneg h0 h0), mul_nonneg h0 h0]
    have h4 : ε ^ 4 ≤ ε / 1000 := by nlinarith [pow_nonneg h0 2, pow_nonneg h0 3, mul_nonneg (pow_nonneg h0 3) (sub_nonneg.2 h)]
    have h5 : ε ^ 5 ≤ ε / 1000 := by nlinarith [pow_nonneg h0 4, mul_nonneg (pow_nonneg h0 4) (sub_nonneg.2 h)]
    have : (1 + ε) ^ 5 - 1 = 5 * ε + 10 * ε ^ 2 + 10 * ε ^ 3 + 5 * ε ^ 4 + ε ^ 5 := by ring
    rw [this]; linarith

/-- `x + T * r` -/
theorem round_update (hR : Rounds R ε τ M) (hε : ε ≤ 1 / 1000) {x T r : K} (hM : 2 * (|x| + |T * r| + τ) ≤ M) :
    ∃ y, (.fin x + .fin T * .fin r : Fl R) = .fin y ∧ |y - (x + T * r)| ≤ 3 * ε * (|x| + |T * r| + τ) := by
  have h0 := hR.eps
  have h1 := hR.tau
  have hx := abs_nonneg x
  have hr := abs_nonneg (T * r)
  obtain ⟨p, p1, p2⟩ := round_fin hR (x := T * r) (by linarith)
  have hp : |p| ≤ |T * r| + ε * (|T * r| + τ) := by
    have := abs_add_le (p - T * r) (T * r)
    rw [sub_add_cancel] at this; linarith
  have hq : |x + p| ≤ |x| + |p| := abs_add_le _ _
  have hs : ε * (|T * r| + τ) ≤ 1 / 1000 * (|T * r| + τ) := mul_le_mul_of_nonneg_right hε (by linarith)
  obtain ⟨q, q1, q2⟩ := round_fin hR (x := x + p) (by linarith)
  refine ⟨q, ?_, ?_⟩
  · show Fl.add (.fin x) (Fl.round (T * r)) = _
    rw [p1]; exact q1
  · have := abs_add_le (q - (x + p)) (p - T * r)
    rw [show q - (x + p) + (p - T * r) = q - (x + T * r) by ring] at this
    have e1 : ε * (|x + p| + τ) ≤ ε * (|x| + (|T * r| + 1 / 1000 * (|T * r| + τ)) + τ) :=
      mul_le_mul_of_nonneg_left (by linarith) h0
    have e2 : 0 ≤ ε * |x| := by positivity
    have e3 : 0 ≤ ε * |T * r| := by positivity
    have e4 : 0 ≤ ε * τ := by positivity
    nlinarith

theorem kclip_lip (lo hi a b : K) : |min (max a lo) hi - min (max b lo) hi| ≤ |a - b| :=
  (abs_min_sub_min_le_max _ _ _ _).trans (max_le ((abs_max_sub_max_le_max _ _ _ _).trans (by simp)) (by simp))

/-- zero stays zero -/
theorem fl_zero_mul (hz : R.rnd 0 = .val 0) (x : K) : (0 : Fl R) * .fin x = .fin 0 := by
  show Fl.round (((0 : ℕ) : K) * x) = _
  simp [Fl.round, hz, Fl.ofExt]

theorem fl_zero_add_zero (hz : R.rnd 0 = .val 0) : (.fin 0 : Fl R) + .fin 0 = .fin 0 := by
  show Fl.round ((0 : K) + 0) = _
  simp [Fl.round, hz, Fl.ofExt]

theorem fl_zero : (0 : Fl R) = .fin 0 := by
  show Fl.fin ((0 : ℕ) : K) = _
  simp

/-- the derivative of an aircraft with the given horizontal velocity in floating-point arithmetic -/
theorem affine_rate (hR : Rounds R ε τ M) (hε : ε ≤ 1 / 1000) (hz : R.rnd 0 = .val 0) (f : Vec R → Py (Vec R)) (t : Fl R) (y : Vec R) (z0 z1 : Fl R)
    (c s w a : K) (hf : f y = .ok [z0, z1, 0, 0]) (hz0 : Near ε 1 z0 c (|c| + τ)) (hz1 : Near ε 1 z1 s (|s| + τ))
    (hM : 4 * (|c| + |s| + |w| + |a| + 5 * τ) ≤ M) :
    ∃ r0 r1 r2 r3 : K, affineRhs f dubins2dG t y [.fin w, .fin a] = .ok ([.fin r0, .fin r1, .fin r2, .fin r3] : Vec R) ∧
      |r0 - c| ≤ 3 * ε * (|c| + 2 * τ) ∧ |r1 - s| ≤ 3 * ε * (|s| + 2 * τ) ∧
      |r2 - w| ≤ 6 * ε * (|w| + 5 * τ) ∧ |r3 - a| ≤ 6 * ε * (|a| + 5 * τ) := by
  have h0 := hR.eps
  have hτ := hR.tau
  obtain ⟨s2, s5⟩ := pow_eps_small h0 hε
  have c0 := abs_nonneg c
  have c1 := abs_nonneg s
  have c2 := abs_nonneg w
  have c3 := abs_nonneg a
  have small : ∀ k ≤ 5, (1 + ε) ^ k ≤ 2 := fun k hk => by
    have : (1 + ε) ^ k ≤ (1 + ε) ^ 5 := pow_le_pow_right₀ (by linarith) hk
    linarith
  have room : ∀ k ≤ 5, ∀ z : K, 0 ≤ z → 4 * z ≤ M → (1 + ε) ^ k * z ≤ M := fun k hk z hz0 hz => by
    have := mul_le_mul_of_nonneg_right (small k hk) hz0
    linarith
  have pos : ∀ (z : Fl R) (c : K), Near ε 1 z c (|c| + τ) → 4 * (|c| + 2 * τ) ≤ M → ∃ r, z + .fin 0 = .fin r ∧ |r - c| ≤ 3 * ε * (|c| + 2 * τ) := by
    intro z c n1 hc
    have n0 := abs_nonneg c
    have n2 : Near ε 1 (.fin 0 : Fl R) 0 0 := ⟨by simp, 0, rfl, by simp⟩
    obtain ⟨-, q, q1, q2⟩ := n1.add hR n2 (room 1 (by norm_num) _ (by linarith) (by linarith))
    refine ⟨q, q1, ?_⟩
    rw [add_zero, add_zero] at q2
    refine q2.trans ?_
    have e : |c| + τ + τ = |c| + 2 * τ := by ring
    rw [e]
    exact mul_le_mul_of_nonneg_right s2 (by linarith)
  have zz := fl_zero_add_zero hz
  have near1 : ∀ b : K, 4 * (|b| + 5 * τ) ≤ M → Near ε 1 ((1 : Fl R) * .fin b) b (|b| + τ) := fun b hb => by
    have n0 := abs_nonneg b
    obtain ⟨p, p1, p2⟩ := round_fin hR (x := b) (by linarith)
    refine ⟨by linarith, p, ?_, by simpa using p2⟩
    show Fl.round (((1 : ℕ) : K) * b) = _
    simpa using p1
  have nz : ∀ k, Near ε k (.fin 0 : Fl R) 0 0 := fun k => ⟨by simp, 0, rfl, by simp⟩
  have near2 : ∀ b : K, 4 * (|b| + 5 * τ) ≤ M → Near ε 2 ((.fin 0 : Fl R) + (1 : Fl R) * .fin b) b (|b| + 2 * τ) := fun b hb => by
    have n0 := abs_nonneg b
    have := (nz 1).add hR (near1 b hb) (room 1 (by norm_num) _ (by linarith) (by linarith))
    rw [zero_add, zero_add, show |b| + τ + τ = |b| + 2 * τ by ring] at this
    exact this
  have near3 : ∀ b : K, 4 * (|b| + 5 * τ) ≤ M → Near ε 3 ((.fin 0 : Fl R) + (1 : Fl R) * .fin b + .fin 0) b (|b| + 3 * τ) := fun b hb => by
    have n0 := abs_nonneg b
    have := (near2 b hb).add hR (nz 2) (room 2 (by norm_num) _ (by linarith) (by linarith))
    rw [add_zero, add_zero, show |b| + 2 * τ + τ = |b| + 3 * τ by ring] at this
    exact this
  have fin5 : ∀ b : K, ∀ z : Fl R, ∀ k ≤ 5, ∀ g ≤ |b| + 5 * τ, Near ε k z b g → ∃ r, z = .fin r ∧ |r - b| ≤ 6 * ε * (|b| + 5 * τ) := by
    rintro b z k hk g hg ⟨g1, r, hr, hr'⟩
    have n0 := abs_nonneg b
    have g0 : 0 ≤ g := n0.trans g1
    refine ⟨r, hr, hr'.trans ?_⟩
    have : (1 + ε) ^ k ≤ (1 + ε) ^ 5 := pow_le_pow_right₀ (by linarith) hk
    exact (mul_le_mul_of_nonneg_right (by linarith) g0).trans (mul_le_mul_of_nonneg_left hg (by linarith))
  have rate2 : ∃ r, ((.fin 0 : Fl R) + ((.fin 0 : Fl R) + (1 : Fl R) * .fin w + .fin 0)) = .fin r ∧ |r - w| ≤ 6 * ε * (|w| + 5 * τ) := by
    have := (nz 3).add hR (near3 w (by linarith)) (room 3 (by norm_num) _ (by linarith) (by linarith))
    rw [zero_add, zero_add] at this
    exact fin5 w _ 4 (by norm_num) _ (by linarith) this
  have rate3 : ∃ r, ((.fin 0 : Fl R) + ((.fin 0 : Fl R) + (1 : Fl R) * .fin a)) = .fin r ∧ |r - a| ≤ 6 * ε * (|a| + 5 * τ) := by
    have := (nz 2).add hR (near2 a (by linarith)) (room 2 (by norm_num) _ (by linarith) (by linarith))
    rw [zero_add, zero_add] at this
    exact fin5 a _ 3 (by norm_num) _ (by linarith) this
  obtain ⟨r0, a0, b0⟩ := pos z0 c hz0 (by linarith)
  obtain ⟨r1, a1, b1⟩ := pos z1 s hz1 (by linarith)
  obtain ⟨r2, a2, b2⟩ := rate2
  obtain ⟨r3, a3, b3⟩ := rate3
  refine ⟨r0, r1, r2, r3, ?_, b0, b1, b2, b3⟩
  have m0 := fl_zero_mul hz w
  have m1 := fl_zero_mul hz a
  simp only [affineRhs, hf, dubins2dG, matVec, dot, bind, Except.bind, vadd, bcast2, List.length_cons, List.length_nil,
    List.map_cons, List.map_nil, List.zipWith_cons_cons, List.zipWith_nil_left, List.foldl_cons, List.foldl_nil, if_true, m0, m1]
  rw [fl_zero, zz, zz, a0, a1, a2, a3]

/-- the derivative of the 2d aircraft in floating-point arithmetic -/
theorem dubins2d_rate (hR : Rounds R ε τ M) (hε : ε ≤ 1 / 1000) (hz : R.rnd 0 = .val 0) (t : Fl R) (x y h v w a : K)
    (hM : 4 * (|v * R.cos h| + |v * R.sin h| + |w| + |a| + 5 * τ) ≤ M) :
    ∃ r0 r1 r2 r3 : K, affineRhs dubins2dF dubins2dG t [.fin x, .fin y, .fin h, .fin v] [.fin w, .fin a]
        = .ok ([.fin r0, .fin r1, .fin r2, .fin r3] : Vec R) ∧
      |r0 - v * R.cos h| ≤ 3 * ε * (|v * R.cos h| + 2 * τ) ∧ |r1 - v * R.sin h| ≤ 3 * ε * (|v * R.sin h| + 2 * τ) ∧
      |r2 - w| ≤ 6 * ε * (|w| + 5 * τ) ∧ |r3 - a| ≤ 6 * ε * (|a| + 5 * τ) := by
  have h0 := hR.eps
  have hτ := hR.tau
  have c0 := abs_nonneg (v * R.cos h)
  have c1 := abs_nonneg (v * R.sin h)
  have c2 := abs_nonneg w
  have c3 := abs_nonneg a
  have near : ∀ c, |v * c| ≤ M → Near ε 1 (.fin v * .fin c : Fl R) (v * c) (|v * c| + τ) := fun c hc => by
    obtain ⟨p, p1, p2⟩ := round_fin hR hc
    exact ⟨by linarith, p, p1, by simpa using p2⟩
  exact affine_rate hR hε hz dubins2dF t _ _ _ _ _ w a rfl (near _ (by linarith)) (near _ (by linarith)) hM

end

section
variable {K : Type} {R : Fmt K} [Field K] [LinearOrder K] [IsStrictOrderedRing K] [FloorRing K] {ε τ M : K}

/-- the `%` of floats -/
theorem round_pyMod (hR : Rounds R ε τ M) {a b : K} (hb : 0 < b) (hM : b ≤ M) :
    ∃ (q : K) (k : ℤ), Fl.pyMod (.fin a : Fl R) (.fin b) = .fin q ∧ 0 ≤ a - b * k ∧ a - b * k ≤ b ∧ |q - (a - b * k)| ≤ ε * (b + τ) := by
  have h0 := hR.eps
  have hτ := hR.tau
  have e0 : 0 ≤ ε * (b + τ) := by positivity
  have hab : b * (a / b) = a := by field_simp
  unfold Fl.pyMod
  dsimp only
  rw [if_neg hb.ne']
  obtain ⟨k, hk, hk1, hk2⟩ : ∃ k : ℤ, Fl.fmod a b = a - b * k ∧ a - b * k < b ∧ -b < a - b * k := by
    unfold Fl.fmod
    split
    · refine ⟨⌊a / b⌋, rfl, ?_, ?_⟩
      · have := mul_lt_mul_of_pos_left (Int.lt_floor_add_one (a / b)) hb
        rw [hab] at this; linarith
      · have := mul_le_mul_of_nonneg_left (Int.floor_le (a / b)) hb.le
        rw [hab] at this; linarith
    · refine ⟨⌈a / b⌉, rfl, ?_, ?_⟩
      · have := mul_le_mul_of_nonneg_left (Int.le_ceil (a / b)) hb.le
        rw [hab] at this; linarith
      · have := mul_lt_mul_of_pos_left (Int.ceil_lt_add_one (a / b)) hb
        rw [mul_add, hab] at this; linarith
  simp only [hk]
  split
  · rename_i h
    exact ⟨0, k, rfl, h.ge, h.le.trans hb.le, by rw [h]; simpa using e0⟩
  · rename_i h
    split
    · rename_i h'
      have : ¬ a - b * k < 0 := fun hc => absurd (h'.2 hc) (not_lt.2 hb.le)
      exact ⟨_, k, rfl, not_lt.1 this, hk1.le, by simpa using e0⟩
    · rename_i h'
      have hneg : a - b * k < 0 := by
        by_contra hc
        exact h' ⟨fun hb' => absurd hb' (not_lt.2 hb.le), fun hc' => absurd hc' hc⟩
      have hpos : |a - b * k + b| ≤ b := by rw [abs_of_pos (by linarith)]; linarith
      obtain ⟨q, q1, q2⟩ := round_fin hR (x := a - b * k + b) (hpos.trans hM)
      have ek : a - b * ((k - 1 : ℤ) : K) = a - b * k + b := by push_cast; ring
      refine ⟨q, k - 1, q1, by rw [ek]; linarith, by rw [ek]; linarith, ?_⟩
      rw [ek]
      exact q2.trans (mul_le_mul_of_nonneg_left (by linarith) h0)

/-- the wrapped angle in floating-point arithmetic: at most 4, and off by the angle by whole turns (of the float `2 π`) up to rounding -/
theorem round_wrap (hR : Rounds R ε τ M) (hε : ε ≤ 1 / 1000) (hτ : τ ≤ 1 / 1000) (h2 : R.rnd (2 * R.pi) = .val (2 * R.pi)) (hP : 3 ≤ R.pi)
    (hP' : R.pi ≤ 16 / 5) {h : K} (hM : 4 * (|h| + 20) ≤ M) :
    ∃ (h' : K) (k : ℤ), wrapElem (.fin h : Fl R) (.fin 0) = .fin h' ∧ |h'| ≤ 4 ∧ |h' - (h - 2 * R.pi * k)| ≤ ε * (|h| + 20) ∧ |(k : K)| ≤ |h| + 3 := by
  have h0 := hR.eps
  have ht := hR.tau
  have n0 := abs_nonneg h
  have hPa : |R.pi| = R.pi := abs_of_pos (by linarith)
  obtain ⟨s, s1, s2⟩ := round_fin hR (x := h + R.pi) (by have := abs_add_le h R.pi; linarith)
  have s3 : |h + R.pi| ≤ |h| + R.pi := (abs_add_le _ _).trans (by rw [hPa])
  obtain ⟨q, k, q1, q2, q3, q4⟩ := round_pyMod hR (a := s) (b := 2 * R.pi) (by linarith) (by linarith)
  have q5 : ε * (2 * R.pi + τ) ≤ 1 / 100 := by nlinarith
  obtain ⟨q6, q7⟩ := abs_le.1 q4
  have q8 : |q + -R.pi| ≤ R.pi + 1 / 100 := abs_le.2 ⟨by linarith, by linarith⟩
  obtain ⟨r, r1, r2⟩ := round_fin hR (x := q + -R.pi) (by linarith)
  have r3 : ε * (|q + -R.pi| + τ) ≤ 1 / 100 := by nlinarith
  have r4 : |r| ≤ R.pi + 2 / 100 := by
    have := abs_add_le (r - (q + -R.pi)) (q + -R.pi)
    rw [sub_add_cancel] at this; linarith
  obtain ⟨w, w1, w2⟩ := round_fin hR (x := r + 0) (by rw [add_zero]; linarith)
  rw [add_zero] at w2
  have w3 : ε * (|r| + τ) ≤ 1 / 100 := by nlinarith
  have w4 : |w| ≤ R.pi + 3 / 100 := by
    have := abs_add_le (w - r) r
    rw [sub_add_cancel] at this; linarith
  refine ⟨w, k, ?_, by linarith, ?_, ?_⟩
  · have two : (2 * Fl.pi : Fl R) = .fin (2 * R.pi) := by
      show Fl.round (((2 : ℕ) : K) * R.pi) = _
      rw [Nat.cast_ofNat]
      simp [Fl.round, h2, Fl.ofExt]
    unfold wrapElem
    rw [two]
    show Fl.add (Fl.add (Fl.pyMod (Fl.round (h + R.pi)) _) (Fl.neg (.fin R.pi))) _ = _
    rw [s1, q1]
    show Fl.add (Fl.round (q + -R.pi)) _ = _
    rw [r1]
    exact w1
  · have t : |w - (h - 2 * R.pi * k)| ≤ |w - r| + |r - (q + -R.pi)| + |q - (s - 2 * R.pi * k)| + |s - (h + R.pi)| := by
      have a1 := abs_add_le (w - r) (r - (q + -R.pi))
      have a2 := abs_add_le (w - r + (r - (q + -R.pi))) (q - (s - 2 * R.pi * k))
      have a3 := abs_add_le (w - r + (r - (q + -R.pi)) + (q - (s - 2 * R.pi * k))) (s - (h + R.pi))
      rw [show w - r + (r - (q + -R.pi)) + (q - (s - 2 * R.pi * k)) + (s - (h + R.pi)) = w - (h - 2 * R.pi * k) by ring] at a3
      linarith
    have e1 : ε * (|r| + τ) ≤ ε * (33 / 10) := mul_le_mul_of_nonneg_left (by linarith) h0
    have e2 : ε * (|q + -R.pi| + τ) ≤ ε * (33 / 10) := mul_le_mul_of_nonneg_left (by linarith) h0
    have e3 : ε * (2 * R.pi + τ) ≤ ε * (65 / 10) := mul_le_mul_of_nonneg_left (by linarith) h0
    have e4 : ε * (|h + R.pi| + τ) ≤ ε * (|h| + 33 / 10) := mul_le_mul_of_nonneg_left (by linarith) h0
    linarith
  · have s4 : |s| ≤ |h| + R.pi + ε * (|h| + R.pi + τ) := by
      have := abs_add_le (s - (h + R.pi)) (h + R.pi)
      rw [sub_add_cancel] at this
      have e : ε * (|h + R.pi| + τ) ≤ ε * (|h| + R.pi + τ) := mul_le_mul_of_nonneg_left (by linarith) h0
      linarith
    have s5 : ε * (|h| + R.pi + τ) ≤ 1 / 1000 * (|h| + R.pi + τ) := mul_le_mul_of_nonneg_right hε (by linarith)
    have s6 : |2 * R.pi * (k : K)| ≤ |s| + 2 * R.pi := by
      have := abs_sub s (s - 2 * R.pi * k)
      rw [show s - (s - 2 * R.pi * k) = 2 * R.pi * k by ring, abs_of_nonneg q2] at this
      linarith
    rw [abs_mul, abs_of_pos (by linarith : (0:K) < 2 * R.pi)] at s6
    have s7 : 6 * |(k : K)| ≤ 2 * R.pi * |(k : K)| := mul_le_mul_of_nonneg_right (by linarith) (abs_nonneg _)
    linarith

theorem toFl_four (y : Fin 4 → K) : (toFl y : Vec R) = [.fin (y 0), .fin (y 1), .fin (y 2), .fin (y 3)] := by simp [toFl, List.ofFn_succ]

/-- the limits and the method of a 2d aircraft under Euler's method, with any derivative -/
structure EulerFlyer (d : Dyn R) (lo hi : K) : Prop where
  stateMin : d.stateMin = .vec [.ninf, .ninf, .ninf, .fin lo]
  stateMax : d.stateMax = .vec [.pinf, .pinf, .pinf, .fin hi]
  dotMin : d.stateDotMin = .scalar .ninf
  dotMax : d.stateDotMax = .scalar .pinf
  wrap : d.angleWrapCenters = some [.nan, .nan, .fin 0, .nan]
  custom : d.custom = none
  method : d.integrationMethod = "Euler"
  samples : d.trajectorySamples ≤ 0

/-- a 2d aircraft under Euler's method -/
structure EulerDubins (d : Dyn R) (lo hi : K) : Prop extends EulerFlyer d lo hi where
  rhs : d.rhs = affineRhs dubins2dF dubins2dG

/-- an update with a rounded rate -/
theorem round_rate_update (hR : Rounds R ε τ M) (hε : ε ≤ 1 / 1000) {T θ : K} (hT : 0 ≤ T) (hθ : τ + T * τ ≤ θ) (hθ' : θ ≤ 1 / 1000)
    {z c r C m : K} (C0 : 0 ≤ C) (C6 : C ≤ 6) (m0 : 0 ≤ m) (m5 : m ≤ 5) (hrc : |r - c| ≤ C * ε * (|c| + m * τ))
    (hb : 100 * (|z| + |c| + T * |c| + 10) ≤ M) :
    ∃ z', (.fin z + .fin T * .fin r : Fl R) = .fin z' ∧ |z' - (z + T * r)| ≤ ε * (3 * |z| + (3 + 1 / 10) * (T * |c|) + 3 * θ) ∧
      T * |r - c| ≤ ε * (C * (T * |c|) + C * m * θ) := by
  have h0 := hR.eps
  have ht := hR.tau
  have hTτ : 0 ≤ T * τ := by positivity
  have nz := abs_nonneg z
  have ncc := abs_nonneg c
  have hTc : 0 ≤ T * |c| := by positivity
  have e1 : C * ε ≤ 6 / 1000 := (mul_le_mul C6 hε h0 (by norm_num)).trans (by norm_num)
  have e2 : C * ε * (|c| + m * τ) ≤ 6 / 1000 * (|c| + m * τ) := mul_le_mul_of_nonneg_right e1 (by positivity)
  have e3 : |r| ≤ |c| + 6 / 1000 * (|c| + m * τ) := by
    have := abs_add_le (r - c) c
    rw [sub_add_cancel] at this; linarith
  have m1 : m * (T * τ) ≤ 5 * (T * τ) := mul_le_mul_of_nonneg_right m5 hTτ
  have e4 : T * |r| ≤ T * |c| + 6 / 1000 * (T * |c| + 5 * (T * τ)) := by
    have := mul_le_mul_of_nonneg_left e3 hT
    rw [show T * (|c| + 6 / 1000 * (|c| + m * τ)) = T * |c| + 6 / 1000 * (T * |c| + m * (T * τ)) by ring] at this
    linarith
  have e5 : |T * r| = T * |r| := by rw [abs_mul, abs_of_nonneg hT]
  obtain ⟨z', z1, z2⟩ := round_update hR hε (x := z) (T := T) (r := r) (by rw [e5]; linarith)
  refine ⟨z', z1, z2.trans ?_, ?_⟩
  · rw [e5, mul_comm (3 : K) ε, mul_assoc]
    refine mul_le_mul_of_nonneg_left ?_ h0
    linarith
  · have := mul_le_mul_of_nonneg_left hrc hT
    refine this.trans (le_trans (b := ε * (C * (T * |c|) + C * m * (T * τ))) (le_of_eq (by ring)) ?_)
    have : C * m * (T * τ) ≤ C * m * θ := mul_le_mul_of_nonneg_left (by linarith) (by positivity)
    exact mul_le_mul_of_nonneg_left (by linarith) h0

/-- the speed: the rate is zeroed at the limits, the new speed clipped -/
theorem round_speed (hR : Rounds R ε τ M) (hε : ε ≤ 1 / 1000) {T θ : K} (hT : 0 ≤ T) (hθ : τ + T * τ ≤ θ) (hθ' : θ ≤ 1 / 1000)
    {lo hi v a r : K} (hlim : lo ≤ hi) (hv : lo ≤ v) (hv' : v ≤ hi) (b3 : |r - a| ≤ 6 * ε * (|a| + 5 * τ))
    (hb : 100 * (|v| + |a| + T * |a| + 10) ≤ M) :
    ∃ v1, (.fin v + .fin T * .fin (klimit (some lo) (some hi) none none v r) : Fl R) = .fin v1 ∧
      |min (max v1 lo) hi - min (max (v + T * r) lo) hi| ≤ ε * (3 * |v| + (3 + 1 / 10) * (T * |a|) + 3 * θ) ∧
      T * |r - a| ≤ ε * (6 * (T * |a|) + 30 * θ) := by
  have h0 := hR.eps
  have ht := hR.tau
  have hTτ : 0 ≤ T * τ := by positivity
  have nv := abs_nonneg v
  have na := abs_nonneg a
  have hTa : 0 ≤ T * |a| := by positivity
  obtain ⟨g, hg⟩ : ∃ g, g = klimit (some lo) (some hi) none none v r := ⟨_, rfl⟩
  rw [← hg]
  obtain ⟨v1, p3, q3, s3⟩ := round_rate_update hR hε hT hθ hθ' (z := v) (C := 6) (m := 5) (by norm_num) (by norm_num) (by norm_num) (by norm_num) b3 hb
  rw [show (6 : K) * 5 = 30 by norm_num] at s3
  obtain ⟨v2, p4, q4⟩ := round_update hR hε (x := v) (T := T) (r := 0) (by rw [mul_zero, abs_zero]; linarith)
  have q5 : |v2 - v| ≤ ε * (3 * |v| + (3 + 1 / 10) * (T * |a|) + 3 * θ) := by
    rw [mul_zero, abs_zero, add_zero, add_zero, mul_comm (3 : K) ε, mul_assoc] at q4
    exact q4.trans (mul_le_mul_of_nonneg_left (by linarith) h0)
  have self : min (max v lo) hi = v := by rw [max_eq_left hv, min_eq_left hv']
  by_cases c1 : hi ≤ v
  · have hvh : v = hi := le_antisymm hv' c1
    have hgv : g = min r 0 := by simp [hg, klimit, kclip, c1]
    by_cases c2 : r ≤ 0
    · rw [min_eq_left c2] at hgv
      rw [hgv]
      exact ⟨v1, p3, (kclip_lip _ _ _ _).trans q3, s3⟩
    · rw [min_eq_right (not_le.1 c2).le] at hgv
      rw [hgv]
      refine ⟨v2, p4, ?_, s3⟩
      have : min (max (v + T * r) lo) hi = min (max v lo) hi := by
        rw [self, min_eq_right, hvh]
        exact le_max_of_le_left (by have := mul_nonneg hT (not_le.1 c2).le; linarith)
      rw [this]
      exact (kclip_lip _ _ _ _).trans q5
  · by_cases c3 : v ≤ lo
    · have hvl : v = lo := le_antisymm c3 hv
      have hgv : g = max r 0 := by simp [hg, klimit, kclip, c1, c3]
      by_cases c2 : 0 ≤ r
      · rw [max_eq_left c2] at hgv
        rw [hgv]
        exact ⟨v1, p3, (kclip_lip _ _ _ _).trans q3, s3⟩
      · rw [max_eq_right (not_le.1 c2).le] at hgv
        rw [hgv]
        refine ⟨v2, p4, ?_, s3⟩
        have : min (max (v + T * r) lo) hi = min (max v lo) hi := by
          rw [self, max_eq_right, hvl, min_eq_left hlim]
          have := mul_nonneg hT (neg_nonneg.2 (not_le.1 c2).le)
          linarith
        rw [this]
        exact (kclip_lip _ _ _ _).trans q5
    · have hgv : g = r := by simp [hg, klimit, kclip, c1, c3]
      rw [hgv]
      exact ⟨v1, p3, (kclip_lip _ _ _ _).trans q3, s3⟩

/-- one Euler step in floating-point arithmetic -/
theorem EulerFlyer.step {d : Dyn R} {lo hi : K} (hd : EulerFlyer d lo hi) (hR : Rounds R ε τ M) (hε : ε ≤ 1 / 1000) (hτ : τ ≤ 1 / 1000)
    (h2 : R.rnd (2 * R.pi) = .val (2 * R.pi)) (hP : 3 ≤ R.pi) (hP' : R.pi ≤ 16 / 5) (hlim : lo ≤ hi) (env : Env R)
    {T x y h v w a c s r0 r1 r2 r3 θ : K} (hT : 0 ≤ T) (hv : lo ≤ v) (hv' : v ≤ hi) (hθ : τ + T * τ ≤ θ) (hθ' : θ ≤ 1 / 1000)
    (hM : 100 * (|x| + |y| + |h| + |v| + (1 + T) * (|c| + |s| + |w| + |a|) + 10) ≤ M)
    (hr : d.rhs 0 [.fin x, .fin y, .fin h, .fin v] [.fin w, .fin a] = .ok [.fin r0, .fin r1, .fin r2, .fin r3])
    (b0 : |r0 - c| ≤ 3 * ε * (|c| + 2 * τ)) (b1 : |r1 - s| ≤ 3 * ε * (|s| + 2 * τ)) (b2 : |r2 - w| ≤ 6 * ε * (|w| + 5 * τ))
    (b3 : |r3 - a| ≤ 6 * ε * (|a| + 5 * τ)) :
    ∃ (x' y' h' v' : K) (k : ℤ) (sd : Vec R),
      d.step env (.fin T) [.fin x, .fin y, .fin h, .fin v] [.fin w, .fin a] = (d, .ok ([.fin x', .fin y', .fin h', .fin v'], sd)) ∧
      |x' - (x + T * c)| ≤ ε * (3 * |x| + 7 * (T * |c|) + 9 * θ) ∧
      |y' - (y + T * s)| ≤ ε * (3 * |y| + 7 * (T * |s|) + 9 * θ) ∧
      |h'| ≤ 4 ∧ |h' - (h + T * w - 2 * R.pi * k)| ≤ ε * (5 * |h| + 12 * (T * |w|) + 21) ∧ |(k : K)| ≤ 2 * |h| + 2 * (T * |w|) + 4 ∧
      lo ≤ v' ∧ v' ≤ hi ∧ |v' - min (max (v + T * a) lo) hi| ≤ ε * (3 * |v| + 10 * (T * |a|) + 33 * θ) := by
  have h0 := hR.eps
  have ht := hR.tau
  have hTτ : 0 ≤ T * τ := by positivity
  have nx := abs_nonneg x
  have ny := abs_nonneg y
  have nh := abs_nonneg h
  have nv := abs_nonneg v
  have nc := abs_nonneg c
  have ns := abs_nonneg s
  have nw := abs_nonneg w
  have na := abs_nonneg a
  have hTc : 0 ≤ T * |c| := by positivity
  have hTs : 0 ≤ T * |s| := by positivity
  have hTw : 0 ≤ T * |w| := by positivity
  have hTa : 0 ≤ T * |a| := by positivity
  have hM' : 100 * (|x| + |y| + |h| + |v| + (|c| + |s| + |w| + |a|)
      + (T * |c| + T * |s| + T * |w| + T * |a|) + 10) ≤ M := by
    refine le_trans (le_of_eq ?_) hM; ring
  -- the limited rates
  set g : K := klimit (some lo) (some hi) none none v r3 with hg
  have hdot : d.computeStateDot 0 (toFl ![x, y, h, v]) [.fin w, .fin a] = .ok (toFl ![r0, r1, r2, g]) := by
    have := computeStateDot_lift (R := R) (d := d) (lo := ![none, none, none, some lo]) (hi := ![none, none, none, some hi]) (dlo := fun _ => none)
      (dhi := fun _ => none) (.inl (by rw [hd.stateMin]; simp [List.ofFn_succ, loFl])) (.inl (by rw [hd.stateMax]; simp [List.ofFn_succ, hiFl]))
      (.inr ⟨_, hd.dotMin, fun _ => rfl⟩) (.inr ⟨_, hd.dotMax, fun _ => rfl⟩) (t := 0) (u := [.fin w, .fin a]) (y := ![x, y, h, v])
      (v := ![r0, r1, r2, r3]) (by rw [toFl_four, toFl_four]; exact hr)
    rw [this]
    congr 2
    funext i
    fin_cases i
    · simp [klimit_free]
    · simp [klimit_free]
    · simp [klimit_free]
    · simp [hg]
  have upd := fun z c r C m => @round_rate_update K R _ _ _ _ ε τ M hR hε T θ hT hθ hθ' z c r C m
  obtain ⟨x', p0, q0, s0⟩ := upd x c r0 3 2 (by norm_num) (by norm_num) (by norm_num) (by norm_num) b0 (by linarith)
  obtain ⟨y', p1, q1, s1⟩ := upd y s r1 3 2 (by norm_num) (by norm_num) (by norm_num) (by norm_num) b1 (by linarith)
  obtain ⟨h1, p2, q2, s2⟩ := upd h w r2 6 5 (by norm_num) (by norm_num) (by norm_num) (by norm_num) b2 (by linarith)
  have tri : ∀ z z' r c : K, |z' - (z + T * c)| ≤ |z' - (z + T * r)| + T * |r - c| := fun z z' r c => by
    have := abs_add_le (z' - (z + T * r)) (T * (r - c))
    rw [show z' - (z + T * r) + T * (r - c) = z' - (z + T * c) by ring, abs_mul T, abs_of_nonneg hT] at this
    exact this
  obtain ⟨v1, p3, q3, s3⟩ := round_speed hR hε hT hθ hθ' hlim hv hv' (a := a) (r := r3) b3 (by linarith)
  -- the heading
  have n1 : |h1 - (h + T * w)| ≤ ε * (3 * |h| + 10 * (T * |w|) + 33 * θ) := by
    refine (tri h h1 r2 w).trans ?_
    refine (add_le_add q2 s2).trans ?_
    rw [← mul_add]
    exact mul_le_mul_of_nonneg_left (by linarith) h0
  have n2 : |h + T * w| ≤ |h| + T * |w| := (abs_add_le _ _).trans (by rw [abs_mul, abs_of_nonneg hT])
  have n3 : ε * (3 * |h| + 10 * (T * |w|) + 33 * θ) ≤ 1 / 1000 * (3 * |h| + 10 * (T * |w|) + 33 * θ) :=
    mul_le_mul_of_nonneg_right hε (by linarith)
  have n4 : |h1| ≤ |h| + T * |w| + 1 / 1000 * (3 * |h| + 10 * (T * |w|) + 33 * θ) := by
    have := abs_add_le (h1 - (h + T * w)) (h + T * w)
    rw [sub_add_cancel] at this; linarith
  obtain ⟨h', k, w1, w2, w3, w4⟩ := round_wrap hR hε hτ h2 hP hP' (h := h1) (by linarith)
  refine ⟨x', y', h', min (max v1 lo) hi, k, toFl ![r0, r1, r2, g], ?_, ?_, ?_, w2, ?_, by linarith, le_min (le_max_right _ _) hlim, min_le_right _ _, ?_⟩
  · have hnext : vadd (toFl ![x, y, h, v] : Vec R) (vscale (.fin T) (toFl ![r0, r1, r2, g])) = .ok (toFl ![x', y', h1, v1]) := by
      rw [toFl_four, toFl_four, toFl_four]
      simp only [vadd, vscale, bcast2, List.length_cons, List.length_nil, List.map_cons, List.map_nil, List.zipWith_cons_cons,
        List.zipWith_nil_left, if_true]
      show Except.ok [(.fin x + .fin T * .fin r0 : Fl R), .fin y + .fin T * .fin r1, .fin h + .fin T * .fin r2, .fin v + .fin T * .fin g] = _
      rw [p0, p1, p2, p3]
      rfl
    have hraw : d.rawStep env (.fin T) (toFl ![x, y, h, v]) [.fin w, .fin a] = (d, .ok (toFl ![x', y', h1, v1], toFl ![r0, r1, r2, g])) := by
      simp only [Dyn.rawStep, hd.custom, Dyn.odeStep, hd.method, hdot, hnext, bind, Except.bind, pure, Except.pure]
      simp [hd.samples]
    have hclip : npClip (toFl ![x', y', h1, v1] : Vec R) d.stateMin d.stateMax = .ok (toFl ![x', y', h1, min (max v1 lo) hi]) := by
      have := npClip_toFl (R := R) ![x', y', h1, v1] (lo := d.stateMin) (hi := d.stateMax) (l := ![none, none, none, some lo])
        (h := ![none, none, none, some hi]) (.inl (by rw [hd.stateMin]; simp [List.ofFn_succ, loFl])) (.inl (by rw [hd.stateMax]; simp [List.ofFn_succ, hiFl]))
      rw [this]
      congr 2
      funext i
      fin_cases i <;> simp [kclip]
    have hwr : d.wrapAngles (toFl ![x', y', h1, min (max v1 lo) hi]) = .ok [.fin x', .fin y', .fin h', .fin (min (max v1 lo) hi)] := by
      rw [toFl_four]
      unfold Dyn.wrapAngles
      rw [hd.wrap]
      simp [bcast2, w1]
    have e : ([.fin x, .fin y, .fin h, .fin v] : Vec R) = toFl ![x, y, h, v] := by rw [toFl_four]; rfl
    unfold Dyn.step
    rw [e, hraw]
    simp only [hclip, hwr, bind, Except.bind, pure, Except.pure]
  · refine (tri x x' r0 _).trans ((add_le_add q0 s0).trans ?_)
    rw [← mul_add]
    exact mul_le_mul_of_nonneg_left (by linarith) h0
  · refine (tri y y' r1 _).trans ((add_le_add q1 s1).trans ?_)
    rw [← mul_add]
    exact mul_le_mul_of_nonneg_left (by linarith) h0
  · have := abs_add_le (h' - (h1 - 2 * R.pi * k)) (h1 - (h + T * w))
    rw [show h' - (h1 - 2 * R.pi * k) + (h1 - (h + T * w)) = h' - (h + T * w - 2 * R.pi * k) by ring] at this
    have e : ε * (|h1| + 20) + ε * (3 * |h| + 10 * (T * |w|) + 33 * θ) ≤ ε * (5 * |h| + 12 * (T * |w|) + 21) := by
      rw [← mul_add]
      exact mul_le_mul_of_nonneg_left (by linarith) h0
    linarith
  · have t1 := kclip_lip lo hi (v + T * r3) (v + T * a)
    rw [show v + T * r3 - (v + T * a) = T * (r3 - a) by ring, abs_mul T, abs_of_nonneg hT] at t1
    have t2 := abs_add_le (min (max v1 lo) hi - min (max (v + T * r3) lo) hi) (min (max (v + T * r3) lo) hi - min (max (v + T * a) lo) hi)
    rw [sub_add_sub_cancel] at t2
    have e : ε * (3 * |v| + (3 + 1 / 10) * (T * |a|) + 3 * θ) + ε * (6 * (T * |a|) + 30 * θ) ≤ ε * (3 * |v| + 10 * (T * |a|) + 33 * θ) := by
      rw [← mul_add]
      exact mul_le_mul_of_nonneg_left (by linarith) h0
    linarith


theorem EulerDubins.step {d : Dyn R} {lo hi : K} (hd : EulerDubins d lo hi) (hR : Rounds R ε τ M) (hε : ε ≤ 1 / 1000) (hτ : τ ≤ 1 / 1000)
    (hz : R.rnd 0 = .val 0) (h2 : R.rnd (2 * R.pi) = .val (2 * R.pi)) (hP : 3 ≤ R.pi) (hP' : R.pi ≤ 16 / 5) (hlim : lo ≤ hi) (env : Env R)
    {T x y h v w a θ : K} (hT : 0 ≤ T) (hv : lo ≤ v) (hv' : v ≤ hi) (hθ : τ + T * τ ≤ θ) (hθ' : θ ≤ 1 / 1000)
    (hM : 100 * (|x| + |y| + |h| + |v| + (1 + T) * (|v * R.cos h| + |v * R.sin h| + |w| + |a|) + 10) ≤ M) :
    ∃ (x' y' h' v' : K) (k : ℤ) (sd : Vec R),
      d.step env (.fin T) [.fin x, .fin y, .fin h, .fin v] [.fin w, .fin a] = (d, .ok ([.fin x', .fin y', .fin h', .fin v'], sd)) ∧
      |x' - (x + T * (v * R.cos h))| ≤ ε * (3 * |x| + 7 * (T * |v * R.cos h|) + 9 * θ) ∧
      |y' - (y + T * (v * R.sin h))| ≤ ε * (3 * |y| + 7 * (T * |v * R.sin h|) + 9 * θ) ∧
      |h'| ≤ 4 ∧ |h' - (h + T * w - 2 * R.pi * k)| ≤ ε * (5 * |h| + 12 * (T * |w|) + 21) ∧ |(k : K)| ≤ 2 * |h| + 2 * (T * |w|) + 4 ∧
      lo ≤ v' ∧ v' ≤ hi ∧ |v' - min (max (v + T * a) lo) hi| ≤ ε * (3 * |v| + 10 * (T * |a|) + 33 * θ) := by
  have hM' : 4 * (|v * R.cos h| + |v * R.sin h| + |w| + |a| + 5 * τ) ≤ M := by
    have h1 : 0 ≤ T * (|v * R.cos h| + |v * R.sin h| + |w| + |a|) := by positivity
    have h2 : 0 ≤ |v * R.cos h| + |v * R.sin h| + |w| + |a| := by positivity
    have h3 : 0 ≤ |x| + |y| + |h| + |v| := by positivity
    linarith
  obtain ⟨r0, r1, r2, r3, hr, b0, b1, b2, b3⟩ := dubins2d_rate hR hε hz (0 : Fl R) x y h v w a hM'
  exact hd.toEulerFlyer.step hR hε hτ h2 hP hP' hlim env hT hv hv' hθ hθ' hM (by rw [hd.rhs]; exact hr) b0 b1 b2 b3

end

end SAD
