import Verif.Lemmas.RoundDubins

/-! # Rounding errors of one Euler step of the 3d aircraft -/

set_option linter.unusedSectionVars false

namespace SAD
open Spec

section
variable {K : Type} {R : Fmt K} [Field K] [LinearOrder K] [IsStrictOrderedRing K] {ε τ M : K}

theorem room_small (h0 : 0 ≤ ε) (hε : ε ≤ 1 / 1000) {k : ℕ} (hk : k ≤ 5) {z : K} (hz0 : 0 ≤ z) (hz : 4 * z ≤ M) : (1 + ε) ^ k * z ≤ M := by
  have h1 : (1 + ε) ^ k ≤ (1 + ε) ^ 5 := pow_le_pow_right₀ (by linarith) hk
  have h2 := (pow_eps_small h0 hε).2
  have := mul_le_mul_of_nonneg_right (show (1 + ε) ^ k ≤ 2 by linarith) hz0
  linarith

theorem near_of_zero (k : ℕ) : Near ε k (.fin 0 : Fl R) 0 0 := ⟨by simp, 0, rfl, by simp⟩

theorem Near.addZero (hR : Rounds R ε τ M) {k : ℕ} {z : Fl R} {b g : K} (h : Near ε k z b g) (hM : (1 + ε) ^ k * g ≤ M) :
    Near ε (k + 1) (z + .fin 0) b (g + τ) := by
  have := h.add hR (near_of_zero (R := R) k) (by rw [add_zero]; exact hM)
  rwa [add_zero, add_zero] at this

theorem Near.zeroAdd (hR : Rounds R ε τ M) {k : ℕ} {z : Fl R} {b g : K} (h : Near ε k z b g) (hM : (1 + ε) ^ k * g ≤ M) :
    Near ε (k + 1) (.fin 0 + z) b (g + τ) := by
  have := (near_of_zero (R := R) k).add hR h (by rw [zero_add]; exact hM)
  rwa [zero_add, zero_add] at this

theorem near_product (hR : Rounds R ε τ M) {x y : K} (h : |x * y| ≤ M) : Near ε 1 (.fin x * .fin y : Fl R) (x * y) (|x * y| + τ) := by
  obtain ⟨p, p1, p2⟩ := round_fin hR h
  have := hR.tau
  exact ⟨by linarith, p, p1, by simpa using p2⟩

/-- the derivative of the 3d aircraft in floating-point arithmetic, with the given velocity and turn rate -/
theorem affine_rate3 (hR : Rounds R ε τ M) (hε : ε ≤ 1 / 1000) (hz : R.rnd 0 = .val 0) (f : Vec R → Py (Vec R)) (t : Fl R) (y : Vec R)
    (z0 z1 z2 z3 : Fl R) (c0 c1 c2 c3 p q a : K) (hf : f y = .ok [z0, z1, z2, z3, 0, 0, 0]) (n0 : Near ε 1 z0 c0 (|c0| + τ)) (n1 : Near ε 1 z1 c1 (|c1| + τ))
    (n2 : Near ε 1 z2 c2 (|c2| + τ)) (n3 : Near ε 1 z3 c3 (|c3| + τ)) (hM : 4 * (|c0| + |c1| + |c2| + |c3| + |p| + |q| + |a| + 5 * τ) ≤ M) :
    ∃ r0 r1 r2 r3 r4 r5 r6 : K, affineRhs f dubins3dG t y [.fin p, .fin q, .fin a] = .ok ([.fin r0, .fin r1, .fin r2, .fin r3, .fin r4, .fin r5, .fin r6] : Vec R) ∧
      |r0 - c0| ≤ 3 * ε * (|c0| + 2 * τ) ∧ |r1 - c1| ≤ 3 * ε * (|c1| + 2 * τ) ∧ |r2 - c2| ≤ 3 * ε * (|c2| + 2 * τ) ∧ |r3 - c3| ≤ 3 * ε * (|c3| + 2 * τ) ∧
      |r4 - p| ≤ 6 * ε * (|p| + 5 * τ) ∧ |r5 - q| ≤ 6 * ε * (|q| + 5 * τ) ∧ |r6 - a| ≤ 6 * ε * (|a| + 5 * τ) := by
  have h0 := hR.eps
  have hτ := hR.tau
  obtain ⟨s2, s5⟩ := pow_eps_small h0 hε
  have a0 := abs_nonneg c0
  have a1 := abs_nonneg c1
  have a2 := abs_nonneg c2
  have a3 := abs_nonneg c3
  have a4 := abs_nonneg p
  have a5 := abs_nonneg q
  have a6 := abs_nonneg a
  have room : ∀ k ≤ 5, ∀ z : K, 0 ≤ z → 4 * z ≤ M → (1 + ε) ^ k * z ≤ M := fun k hk z hz0 hz => room_small h0 hε hk hz0 hz
  have pos : ∀ (z : Fl R) (c : K), Near ε 1 z c (|c| + τ) → 4 * (|c| + 2 * τ) ≤ M → ∃ r, z + .fin 0 = .fin r ∧ |r - c| ≤ 3 * ε * (|c| + 2 * τ) := by
    intro z c n1 hc
    have n0 := abs_nonneg c
    obtain ⟨-, q, q1, q2⟩ := n1.addZero hR (room 1 (by norm_num) _ (by linarith) (by linarith))
    refine ⟨q, q1, q2.trans ?_⟩
    rw [show |c| + τ + τ = |c| + 2 * τ by ring]
    exact mul_le_mul_of_nonneg_right s2 (by linarith)
  have near1 : ∀ b : K, 4 * (|b| + 5 * τ) ≤ M → Near ε 1 ((1 : Fl R) * .fin b) b (|b| + τ) := fun b hb => by
    have n0 := abs_nonneg b
    obtain ⟨p, p1, p2⟩ := round_fin hR (x := b) (by linarith)
    refine ⟨by linarith, p, ?_, by simpa using p2⟩
    show Fl.round (((1 : ℕ) : K) * b) = _
    simpa using p1
  have fin5 : ∀ b : K, ∀ z : Fl R, ∀ k ≤ 5, ∀ g ≤ |b| + 5 * τ, Near ε k z b g → ∃ r, z = .fin r ∧ |r - b| ≤ 6 * ε * (|b| + 5 * τ) := by
    rintro b z k hk g hg ⟨g1, r, hr, hr'⟩
    have n0 := abs_nonneg b
    have g0 : 0 ≤ g := n0.trans g1
    refine ⟨r, hr, hr'.trans ?_⟩
    have : (1 + ε) ^ k ≤ (1 + ε) ^ 5 := pow_le_pow_right₀ (by linarith) hk
    exact (mul_le_mul_of_nonneg_right (by linarith) g0).trans (mul_le_mul_of_nonneg_left hg (by linarith))
  obtain ⟨r0, e0, b0⟩ := pos z0 c0 n0 (by linarith)
  obtain ⟨r1, e1, b1⟩ := pos z1 c1 n1 (by linarith)
  obtain ⟨r2, e2, b2⟩ := pos z2 c2 n2 (by linarith)
  obtain ⟨r3, e3, b3⟩ := pos z3 c3 n3 (by linarith)
  have up : ∀ b : K, 4 * (|b| + 5 * τ) ≤ M → ∀ k, k ≤ 4 → ∀ z : Fl R, Near ε k z b (|b| + k * τ) →
      Near ε (k + 1) (z + .fin 0) b (|b| + (k + 1 : ℕ) * τ) ∧ Near ε (k + 1) (.fin 0 + z) b (|b| + (k + 1 : ℕ) * τ) := fun b hb k hk z hz => by
    have n0 := abs_nonneg b
    have hk' : (k : K) ≤ 4 := by exact_mod_cast hk
    have hk0 : (0 : K) ≤ k := by positivity
    have : (k : K) * τ ≤ 4 * τ := mul_le_mul_of_nonneg_right hk' hτ
    have hm := room k (by omega) (|b| + k * τ) (by positivity) (by linarith)
    rw [show |b| + ((k + 1 : ℕ) : K) * τ = |b| + k * τ + τ by push_cast; ring]
    exact ⟨hz.addZero hR hm, hz.zeroAdd hR hm⟩
  have st : ∀ b : K, 4 * (|b| + 5 * τ) ≤ M → Near ε 1 ((1 : Fl R) * .fin b) b (|b| + (1 : ℕ) * τ) := fun b hb => by
    rw [Nat.cast_one, one_mul]; exact near1 b hb
  have zz := fl_zero_add_zero hz
  have rate4 : ∃ r, ((.fin 0 : Fl R) + ((.fin 0 : Fl R) + (1 : Fl R) * .fin p + .fin 0 + .fin 0)) = .fin r ∧ |r - p| ≤ 6 * ε * (|p| + 5 * τ) := by
    have hb : 4 * (|p| + 5 * τ) ≤ M := by linarith
    have u1 := (up p hb 1 (by norm_num) _ (st p hb)).2
    have u2 := (up p hb 2 (by norm_num) _ u1).1
    have u3 := (up p hb 3 (by norm_num) _ u2).1
    have u4 := (up p hb 4 (by norm_num) _ u3).2
    exact fin5 p _ 5 (by norm_num) _ (by push_cast; linarith) u4
  have rate5 : ∃ r, ((.fin 0 : Fl R) + ((.fin 0 : Fl R) + (1 : Fl R) * .fin q + .fin 0)) = .fin r ∧ |r - q| ≤ 6 * ε * (|q| + 5 * τ) := by
    have hb : 4 * (|q| + 5 * τ) ≤ M := by linarith
    have u1 := (up q hb 1 (by norm_num) _ (st q hb)).2
    have u2 := (up q hb 2 (by norm_num) _ u1).1
    have u3 := (up q hb 3 (by norm_num) _ u2).2
    exact fin5 q _ 4 (by norm_num) _ (by push_cast; linarith) u3
  have rate6 : ∃ r, ((.fin 0 : Fl R) + ((.fin 0 : Fl R) + (1 : Fl R) * .fin a)) = .fin r ∧ |r - a| ≤ 6 * ε * (|a| + 5 * τ) := by
    have hb : 4 * (|a| + 5 * τ) ≤ M := by linarith
    have u1 := (up a hb 1 (by norm_num) _ (st a hb)).2
    have u2 := (up a hb 2 (by norm_num) _ u1).2
    exact fin5 a _ 3 (by norm_num) _ (by push_cast; linarith) u2
  obtain ⟨r4, e4, b4⟩ := rate4
  obtain ⟨r5, e5, b5⟩ := rate5
  obtain ⟨r6, e6, b6⟩ := rate6
  refine ⟨r0, r1, r2, r3, r4, r5, r6, ?_, b0, b1, b2, b3, b4, b5, b6⟩
  have m0 := fl_zero_mul hz p
  have m1 := fl_zero_mul hz q
  have m2 := fl_zero_mul hz a
  simp only [affineRhs, hf, dubins3dG, matVec, dot, bind, Except.bind, vadd, bcast2, List.length_cons, List.length_nil,
    List.map_cons, List.map_nil, List.zipWith_cons_cons, List.zipWith_nil_left, List.foldl_cons, List.foldl_nil, if_true, m0, m1, m2]
  rw [fl_zero, zz, zz, zz, e0, e1, e2, e3, e4, e5, e6]

end

section
variable {K : Type} {R : Fmt K} [Field K] [LinearOrder K] [IsStrictOrderedRing K] [FloorRing K] {ε τ M : K}

/-- an update of a limited component: the rate is zeroed at and beyond the limits, the new value clipped -/
theorem round_limited (hR : Rounds R ε τ M) (hε : ε ≤ 1 / 1000) {T θ : K} (hT : 0 ≤ T) (hθ : τ + T * τ ≤ θ) (hθ' : θ ≤ 1 / 1000)
    {lo hi v a r : K} (b3 : |r - a| ≤ 6 * ε * (|a| + 5 * τ))
    (hb : 100 * (|v| + |a| + T * |a| + 10) ≤ M) :
    ∃ v1, (.fin v + .fin T * .fin (klimit (some lo) (some hi) none none v r) : Fl R) = .fin v1 ∧
      |min (max v1 lo) hi - min (max (v + T * a) lo) hi| ≤ ε * (3 * |v| + 10 * (T * |a|) + 33 * θ) := by
  have h0 := hR.eps
  have ht := hR.tau
  have hTτ : 0 ≤ T * τ := by positivity
  have nv := abs_nonneg v
  have na := abs_nonneg a
  have hTa : 0 ≤ T * |a| := by positivity
  obtain ⟨g, hg⟩ : ∃ g, g = klimit (some lo) (some hi) none none v r := ⟨_, rfl⟩
  rw [← hg]
  obtain ⟨v1, p3, q3, s3⟩ := round_rate_update hR hε hT hθ hθ' (z := v) (C := 6) (m := 5) (by norm_num) (by norm_num) (by norm_num) (by norm_num) b3 hb
  rw [show (6 : K) * 5 = 30 by norm_num] at s3
  obtain ⟨v2, p4, q4⟩ := round_update hR hε (x := v) (T := T) (r := 0) (by rw [mul_zero, abs_zero]; linarith)
  have q5 : |v2 - v| ≤ ε * (3 * |v| + (3 + 1 / 10) * (T * |a|) + 3 * θ) := by
    rw [mul_zero, abs_zero, add_zero, add_zero, mul_comm (3 : K) ε, mul_assoc] at q4
    exact q4.trans (mul_le_mul_of_nonneg_left (by linarith) h0)
  suffices h : ∃ v1, (.fin v + .fin T * .fin g : Fl R) = .fin v1 ∧
      |min (max v1 lo) hi - min (max (v + T * r) lo) hi| ≤ ε * (3 * |v| + (3 + 1 / 10) * (T * |a|) + 3 * θ) by
    obtain ⟨u, u1, u2⟩ := h
    refine ⟨u, u1, ?_⟩
    have t1 := kclip_lip lo hi (v + T * r) (v + T * a)
    rw [show v + T * r - (v + T * a) = T * (r - a) by ring, abs_mul T, abs_of_nonneg hT] at t1
    have t2 := abs_add_le (min (max u lo) hi - min (max (v + T * r) lo) hi) (min (max (v + T * r) lo) hi - min (max (v + T * a) lo) hi)
    rw [sub_add_sub_cancel] at t2
    have e : ε * (3 * |v| + (3 + 1 / 10) * (T * |a|) + 3 * θ) + ε * (6 * (T * |a|) + 30 * θ) ≤ ε * (3 * |v| + 10 * (T * |a|) + 33 * θ) := by
      rw [← mul_add]
      exact mul_le_mul_of_nonneg_left (by linarith) h0
    linarith
  by_cases c1 : hi ≤ v
  · have hgv : g = min r 0 := by simp [hg, klimit, kclip, c1]
    by_cases c2 : r ≤ 0
    · rw [min_eq_left c2] at hgv
      rw [hgv]
      exact ⟨v1, p3, (kclip_lip _ _ _ _).trans q3⟩
    · rw [min_eq_right (not_le.1 c2).le] at hgv
      rw [hgv]
      refine ⟨v2, p4, ?_⟩
      have : min (max (v + T * r) lo) hi = min (max v lo) hi := by
        rw [min_eq_right (le_max_of_le_left c1), min_eq_right]
        exact le_max_of_le_left (by have := mul_nonneg hT (not_le.1 c2).le; linarith)
      rw [this]
      exact (kclip_lip _ _ _ _).trans q5
  · by_cases c3 : v ≤ lo
    · have hgv : g = max r 0 := by simp [hg, klimit, kclip, c1, c3]
      by_cases c2 : 0 ≤ r
      · rw [max_eq_left c2] at hgv
        rw [hgv]
        exact ⟨v1, p3, (kclip_lip _ _ _ _).trans q3⟩
      · rw [max_eq_right (not_le.1 c2).le] at hgv
        rw [hgv]
        refine ⟨v2, p4, ?_⟩
        have : min (max (v + T * r) lo) hi = min (max v lo) hi := by
          rw [max_eq_right c3, max_eq_right]
          have := mul_nonneg hT (neg_nonneg.2 (not_le.1 c2).le)
          linarith
        rw [this]
        exact (kclip_lip _ _ _ _).trans q5
    · have hgv : g = r := by simp [hg, klimit, kclip, c1, c3]
      rw [hgv]
      exact ⟨v1, p3, (kclip_lip _ _ _ _).trans q3⟩

/-- small angles are wrapped to themselves up to rounding -/
theorem round_wrap_small (hR : Rounds R ε τ M) (hε : ε ≤ 1 / 1000) (hτ : τ ≤ 1 / 1000) (h2 : R.rnd (2 * R.pi) = .val (2 * R.pi)) (hP : 31 / 10 ≤ R.pi)
    (hP' : R.pi ≤ 16 / 5) {h : K} (hh : |h| ≤ 2) (hM : 100 ≤ M) :
    ∃ h' : K, wrapElem (.fin h : Fl R) (.fin 0) = .fin h' ∧ |h' - h| ≤ 22 * ε := by
  have h0 := hR.eps
  obtain ⟨h', k, w1, w2, w3, -⟩ := round_wrap hR hε hτ h2 (by linarith) hP' (h := h) (by linarith)
  refine ⟨h', w1, ?_⟩
  have e1 : ε * (|h| + 20) ≤ ε * 22 := mul_le_mul_of_nonneg_left (by linarith) h0
  have hk : |2 * R.pi * (k : K)| ≤ 61 / 10 := by
    have a1 := abs_add_le (h' - (h - 2 * R.pi * k)) (h - h')
    rw [show h' - (h - 2 * R.pi * k) + (h - h') = 2 * R.pi * k by ring] at a1
    have a2 := abs_sub h h'
    linarith
  rw [abs_mul, abs_of_pos (by linarith : (0:K) < 2 * R.pi)] at hk
  have hk1 : |(k : K)| < 1 := by
    by_contra hc
    have := mul_le_mul_of_nonneg_left (not_lt.1 hc) (by linarith : (0:K) ≤ 2 * R.pi)
    linarith
  have hk0 : k = 0 := by
    have : |k| < 1 := by exact_mod_cast hk1
    exact Int.abs_lt_one_iff.1 this
  rw [hk0, Int.cast_zero, mul_zero, sub_zero] at w3
  linarith

theorem toFl_seven (y : Fin 7 → K) : (toFl y : Vec R) = [.fin (y 0), .fin (y 1), .fin (y 2), .fin (y 3), .fin (y 4), .fin (y 5), .fin (y 6)] := by
  simp [toFl, List.ofFn_succ]

/-- a 3d aircraft under Euler's method; the limits are those of the flight path angle, the roll and the speed -/
structure EulerDubins3 (d : Dyn R) (glo ghi plo phi lo hi : K) : Prop where
  stateMin : d.stateMin = .vec [.ninf, .ninf, .ninf, .ninf, .fin glo, .fin plo, .fin lo]
  stateMax : d.stateMax = .vec [.pinf, .pinf, .pinf, .pinf, .fin ghi, .fin phi, .fin hi]
  dotMin : d.stateDotMin = .scalar .ninf
  dotMax : d.stateDotMax = .scalar .pinf
  wrap : d.angleWrapCenters = some [.nan, .nan, .nan, .fin 0, .fin 0, .fin 0, .nan]
  custom : d.custom = none
  method : d.integrationMethod = "Euler"
  samples : d.trajectorySamples ≤ 0
  rhs : d.rhs = affineRhs (dubins3dF dubinsGravity) dubins3dG

/-- an update of a free component -/
theorem round_free (hR : Rounds R ε τ M) (hε : ε ≤ 1 / 1000) {T θ : K} (hT : 0 ≤ T) (hθ : τ + T * τ ≤ θ) (hθ' : θ ≤ 1 / 1000) {x c r : K}
    (b : |r - c| ≤ 3 * ε * (|c| + 2 * τ)) (hb : 100 * (|x| + |c| + T * |c| + 10) ≤ M) :
    ∃ x', (.fin x + .fin T * .fin r : Fl R) = .fin x' ∧ |x' - (x + T * c)| ≤ ε * (3 * |x| + 7 * (T * |c|) + 9 * θ) := by
  have h0 := hR.eps
  have hTc : 0 ≤ T * |c| := by positivity
  obtain ⟨x', p, q, s⟩ := round_rate_update hR hε hT hθ hθ' (z := x) (c := c) (r := r) (C := 3) (m := 2) (by norm_num) (by norm_num) (by norm_num) (by norm_num) b hb
  refine ⟨x', p, ?_⟩
  have := abs_add_le (x' - (x + T * r)) (T * (r - c))
  rw [show x' - (x + T * r) + T * (r - c) = x' - (x + T * c) by ring, abs_mul T, abs_of_nonneg hT] at this
  refine this.trans ((add_le_add q s).trans ?_)
  rw [← mul_add]
  exact mul_le_mul_of_nonneg_left (by linarith) h0

/-- an update of the heading -/
theorem round_heading (hR : Rounds R ε τ M) (hε : ε ≤ 1 / 1000) (hτ : τ ≤ 1 / 1000) (h2 : R.rnd (2 * R.pi) = .val (2 * R.pi)) (hP : 3 ≤ R.pi)
    (hP' : R.pi ≤ 16 / 5) {T θ : K} (hT : 0 ≤ T) (hθ : τ + T * τ ≤ θ) (hθ' : θ ≤ 1 / 1000) {h c r : K}
    (b : |r - c| ≤ 3 * ε * (|c| + 2 * τ)) (hb : 100 * (|h| + |c| + T * |c| + 10) ≤ M) :
    ∃ (h1 h' : K) (k : ℤ), (.fin h + .fin T * .fin r : Fl R) = .fin h1 ∧ wrapElem (.fin h1 : Fl R) (.fin 0) = .fin h' ∧ |h'| ≤ 4 ∧
      |h' - (h + T * c - 2 * R.pi * k)| ≤ ε * (5 * |h| + 12 * (T * |c|) + 21) ∧ |(k : K)| ≤ 2 * |h| + 2 * (T * |c|) + 4 := by
  have h0 := hR.eps
  have ht := hR.tau
  have hTτ : 0 ≤ T * τ := by positivity
  have nh := abs_nonneg h
  have nc := abs_nonneg c
  have hTc : 0 ≤ T * |c| := by positivity
  obtain ⟨h1, p, q⟩ := round_free hR hε hT hθ hθ' b hb
  have i2 : |h + T * c| ≤ |h| + T * |c| := (abs_add_le _ _).trans (by rw [abs_mul, abs_of_nonneg hT])
  have i3 : ε * (3 * |h| + 7 * (T * |c|) + 9 * θ) ≤ 1 / 1000 * (3 * |h| + 7 * (T * |c|) + 9 * θ) :=
    mul_le_mul_of_nonneg_right hε (by linarith)
  have i4 : |h1| ≤ |h| + T * |c| + 1 / 1000 * (3 * |h| + 7 * (T * |c|) + 9 * θ) := by
    have := abs_add_le (h1 - (h + T * c)) (h + T * c)
    rw [sub_add_cancel] at this; linarith
  obtain ⟨h', k, w1, w2, w3, w4⟩ := round_wrap hR hε hτ h2 hP hP' (h := h1) (by linarith)
  refine ⟨h1, h', k, p, w1, w2, ?_, by linarith⟩
  have := abs_add_le (h' - (h1 - 2 * R.pi * k)) (h1 - (h + T * c))
  rw [show h' - (h1 - 2 * R.pi * k) + (h1 - (h + T * c)) = h' - (h + T * c - 2 * R.pi * k) by ring] at this
  have e : ε * (|h1| + 20) + ε * (3 * |h| + 7 * (T * |c|) + 9 * θ) ≤ ε * (5 * |h| + 12 * (T * |c|) + 21) := by
    rw [← mul_add]
    exact mul_le_mul_of_nonneg_left (by linarith) h0
  linarith

/-- an update of a limited angle -/
theorem round_angle (hR : Rounds R ε τ M) (hε : ε ≤ 1 / 1000) (hτ : τ ≤ 1 / 1000) (h2 : R.rnd (2 * R.pi) = .val (2 * R.pi)) (hP : 31 / 10 ≤ R.pi)
    (hP' : R.pi ≤ 16 / 5) {T θ : K} (hT : 0 ≤ T) (hθ : τ + T * τ ≤ θ) (hθ' : θ ≤ 1 / 1000) {lo hi v a r : K} (hlim : lo ≤ hi) (hlo : -2 ≤ lo) (hhi : hi ≤ 2)
    (b3 : |r - a| ≤ 6 * ε * (|a| + 5 * τ)) (hb : 100 * (|v| + |a| + T * |a| + 10) ≤ M) :
    ∃ v1 v', (.fin v + .fin T * .fin (klimit (some lo) (some hi) none none v r) : Fl R) = .fin v1 ∧
      wrapElem (.fin (min (max v1 lo) hi) : Fl R) (.fin 0) = .fin v' ∧ lo - 22 * ε ≤ v' ∧ v' ≤ hi + 22 * ε ∧
      |v' - min (max (v + T * a) lo) hi| ≤ ε * (3 * |v| + 10 * (T * |a|) + 33 * θ + 22) := by
  have hTa : 0 ≤ T * |a| := by positivity
  have nv := abs_nonneg v
  have na := abs_nonneg a
  obtain ⟨v1, p, q⟩ := round_limited hR hε hT hθ hθ' (lo := lo) (hi := hi) (v := v) (a := a) (r := r) b3 hb
  obtain ⟨u, hu⟩ : ∃ u, u = min (max v1 lo) hi := ⟨_, rfl⟩
  have u1 : lo ≤ u := by rw [hu]; exact le_min (le_max_right _ _) hlim
  have u2 : u ≤ hi := by rw [hu]; exact min_le_right _ _
  obtain ⟨v', x1, x2⟩ := round_wrap_small hR hε hτ h2 hP hP' (h := u) (abs_le.2 ⟨by linarith, by linarith⟩) (by linarith)
  rw [← hu] at q
  refine ⟨v1, v', p, by rw [← hu]; exact x1, ?_, ?_, ?_⟩
  · linarith [(abs_le.1 x2).1]
  · linarith [(abs_le.1 x2).2]
  · have := abs_add_le (v' - u) (u - min (max (v + T * a) lo) hi)
    rw [sub_add_sub_cancel] at this
    linarith

/-- one Euler step in floating-point arithmetic -/
theorem EulerDubins3.step {d : Dyn R} {glo ghi plo phi lo hi : K} (hd : EulerDubins3 d glo ghi plo phi lo hi) (hR : Rounds R ε τ M) (hε : ε ≤ 1 / 1000)
    (hτ : τ ≤ 1 / 1000) (h2 : R.rnd (2 * R.pi) = .val (2 * R.pi)) (hP : 31 / 10 ≤ R.pi) (hP' : R.pi ≤ 16 / 5) (hlg : glo ≤ ghi) (hlp : plo ≤ phi) (hlim : lo ≤ hi)
    (hgl : -2 ≤ glo) (hgh : ghi ≤ 2) (hpl : -2 ≤ plo) (hph : phi ≤ 2) (env : Env R)
    {T x y z h g f v p q a c0 c1 c2 c3 r0 r1 r2 r3 r4 r5 r6 θ : K} (hT : 0 ≤ T) (hθ : τ + T * τ ≤ θ) (hθ' : θ ≤ 1 / 1000)
    (hx : 100 * (|x| + |c0| + T * |c0| + 10) ≤ M) (hy : 100 * (|y| + |c1| + T * |c1| + 10) ≤ M) (hz : 100 * (|z| + |c2| + T * |c2| + 10) ≤ M)
    (hh : 100 * (|h| + |c3| + T * |c3| + 10) ≤ M) (hg : 100 * (|g| + |p| + T * |p| + 10) ≤ M) (hf : 100 * (|f| + |q| + T * |q| + 10) ≤ M)
    (hv : 100 * (|v| + |a| + T * |a| + 10) ≤ M)
    (hr : d.rhs 0 [.fin x, .fin y, .fin z, .fin h, .fin g, .fin f, .fin v] [.fin p, .fin q, .fin a]
      = .ok [.fin r0, .fin r1, .fin r2, .fin r3, .fin r4, .fin r5, .fin r6])
    (b0 : |r0 - c0| ≤ 3 * ε * (|c0| + 2 * τ)) (b1 : |r1 - c1| ≤ 3 * ε * (|c1| + 2 * τ)) (b2 : |r2 - c2| ≤ 3 * ε * (|c2| + 2 * τ))
    (b3 : |r3 - c3| ≤ 3 * ε * (|c3| + 2 * τ)) (b4 : |r4 - p| ≤ 6 * ε * (|p| + 5 * τ)) (b5 : |r5 - q| ≤ 6 * ε * (|q| + 5 * τ))
    (b6 : |r6 - a| ≤ 6 * ε * (|a| + 5 * τ)) :
    ∃ (x' y' z' h' g' f' v' : K) (k : ℤ) (sd : Vec R),
      d.step env (.fin T) [.fin x, .fin y, .fin z, .fin h, .fin g, .fin f, .fin v] [.fin p, .fin q, .fin a]
        = (d, .ok ([.fin x', .fin y', .fin z', .fin h', .fin g', .fin f', .fin v'], sd)) ∧
      |x' - (x + T * c0)| ≤ ε * (3 * |x| + 7 * (T * |c0|) + 9 * θ) ∧
      |y' - (y + T * c1)| ≤ ε * (3 * |y| + 7 * (T * |c1|) + 9 * θ) ∧
      |z' - (z + T * c2)| ≤ ε * (3 * |z| + 7 * (T * |c2|) + 9 * θ) ∧
      |h'| ≤ 4 ∧ |h' - (h + T * c3 - 2 * R.pi * k)| ≤ ε * (5 * |h| + 12 * (T * |c3|) + 21) ∧ |(k : K)| ≤ 2 * |h| + 2 * (T * |c3|) + 4 ∧
      glo - 22 * ε ≤ g' ∧ g' ≤ ghi + 22 * ε ∧ |g' - min (max (g + T * p) glo) ghi| ≤ ε * (3 * |g| + 10 * (T * |p|) + 33 * θ + 22) ∧
      plo - 22 * ε ≤ f' ∧ f' ≤ phi + 22 * ε ∧ |f' - min (max (f + T * q) plo) phi| ≤ ε * (3 * |f| + 10 * (T * |q|) + 33 * θ + 22) ∧
      lo ≤ v' ∧ v' ≤ hi ∧ |v' - min (max (v + T * a) lo) hi| ≤ ε * (3 * |v| + 10 * (T * |a|) + 33 * θ) := by
  obtain ⟨l4, hl4⟩ : ∃ l, l = klimit (some glo) (some ghi) none none g r4 := ⟨_, rfl⟩
  obtain ⟨l5, hl5⟩ : ∃ l, l = klimit (some plo) (some phi) none none f r5 := ⟨_, rfl⟩
  obtain ⟨l6, hl6⟩ : ∃ l, l = klimit (some lo) (some hi) none none v r6 := ⟨_, rfl⟩
  have hdot : d.computeStateDot 0 (toFl ![x, y, z, h, g, f, v]) [.fin p, .fin q, .fin a] = .ok (toFl ![r0, r1, r2, r3, l4, l5, l6]) := by
    have := computeStateDot_lift (R := R) (d := d) (lo := ![none, none, none, none, some glo, some plo, some lo])
      (hi := ![none, none, none, none, some ghi, some phi, some hi]) (dlo := fun _ => none)
      (dhi := fun _ => none) (.inl (by rw [hd.stateMin]; simp [List.ofFn_succ, loFl])) (.inl (by rw [hd.stateMax]; simp [List.ofFn_succ, hiFl]))
      (.inr ⟨_, hd.dotMin, fun _ => rfl⟩) (.inr ⟨_, hd.dotMax, fun _ => rfl⟩) (t := 0) (u := [.fin p, .fin q, .fin a]) (y := ![x, y, z, h, g, f, v])
      (v := ![r0, r1, r2, r3, r4, r5, r6]) (by rw [toFl_seven, toFl_seven]; exact hr)
    rw [this]
    congr 2
    funext i
    fin_cases i
    · simp [klimit_free]
    · simp [klimit_free]
    · simp [klimit_free]
    · simp [klimit_free]
    · simp [hl4]
    · simp [hl5]
    · simp [hl6]
  obtain ⟨x', p0, q0⟩ := round_free hR hε hT hθ hθ' b0 hx
  obtain ⟨y', p1, q1⟩ := round_free hR hε hT hθ hθ' b1 hy
  obtain ⟨z', p2, q2⟩ := round_free hR hε hT hθ hθ' b2 hz
  obtain ⟨h1, h', k, p3, w1, w2, w3, w4⟩ := round_heading hR hε hτ h2 (le_trans (by norm_num) hP) hP' hT hθ hθ' b3 hh
  obtain ⟨g1, g', p4, x1, x2, x2', q4⟩ := round_angle hR hε hτ h2 hP hP' hT hθ hθ' hlg hgl hgh (v := g) (a := p) (r := r4) b4 hg
  obtain ⟨f1, f', p5, x3, x4, x4', q5⟩ := round_angle hR hε hτ h2 hP hP' hT hθ hθ' hlp hpl hph (v := f) (a := q) (r := r5) b5 hf
  obtain ⟨v1, p6, q6⟩ := round_limited hR hε hT hθ hθ' (lo := lo) (hi := hi) (v := v) (a := a) (r := r6) b6 hv
  rw [← hl4] at p4
  rw [← hl5] at p5
  rw [← hl6] at p6
  obtain ⟨g2, hg2⟩ : ∃ g2, g2 = min (max g1 glo) ghi := ⟨_, rfl⟩
  obtain ⟨f2, hf2⟩ : ∃ f2, f2 = min (max f1 plo) phi := ⟨_, rfl⟩
  rw [← hg2] at x1
  rw [← hf2] at x3
  refine ⟨x', y', z', h', g', f', min (max v1 lo) hi, k, toFl ![r0, r1, r2, r3, l4, l5, l6], ?_, q0, q1, q2, w2, w3, w4, x2, x2', q4,
    x4, x4', q5, le_min (le_max_right _ _) hlim, min_le_right _ _, q6⟩
  · have hnext : vadd (toFl ![x, y, z, h, g, f, v] : Vec R) (vscale (.fin T) (toFl ![r0, r1, r2, r3, l4, l5, l6])) = .ok (toFl ![x', y', z', h1, g1, f1, v1]) := by
      rw [toFl_seven, toFl_seven, toFl_seven]
      simp only [vadd, vscale, bcast2, List.length_cons, List.length_nil, List.map_cons, List.map_nil, List.zipWith_cons_cons,
        List.zipWith_nil_left, if_true]
      show Except.ok [(.fin x + .fin T * .fin r0 : Fl R), .fin y + .fin T * .fin r1, .fin z + .fin T * .fin r2, .fin h + .fin T * .fin r3,
        .fin g + .fin T * .fin l4, .fin f + .fin T * .fin l5, .fin v + .fin T * .fin l6] = _
      rw [p0, p1, p2, p3, p4, p5, p6]
      rfl
    have hraw : d.rawStep env (.fin T) (toFl ![x, y, z, h, g, f, v]) [.fin p, .fin q, .fin a]
        = (d, .ok (toFl ![x', y', z', h1, g1, f1, v1], toFl ![r0, r1, r2, r3, l4, l5, l6])) := by
      simp only [Dyn.rawStep, hd.custom, Dyn.odeStep, hd.method, hdot, hnext, bind, Except.bind, pure, Except.pure]
      simp [hd.samples]
    have hclip : npClip (toFl ![x', y', z', h1, g1, f1, v1] : Vec R) d.stateMin d.stateMax = .ok (toFl ![x', y', z', h1, g2, f2, min (max v1 lo) hi]) := by
      have := npClip_toFl (R := R) ![x', y', z', h1, g1, f1, v1] (lo := d.stateMin) (hi := d.stateMax)
        (l := ![none, none, none, none, some glo, some plo, some lo])
        (h := ![none, none, none, none, some ghi, some phi, some hi]) (.inl (by rw [hd.stateMin]; simp [List.ofFn_succ, loFl])) (.inl (by rw [hd.stateMax]; simp [List.ofFn_succ, hiFl]))
      rw [this]
      congr 2
      funext i
      fin_cases i <;> simp [kclip, hg2, hf2]
    have hwr : d.wrapAngles (toFl ![x', y', z', h1, g2, f2, min (max v1 lo) hi])
        = .ok [.fin x', .fin y', .fin z', .fin h', .fin g', .fin f', .fin (min (max v1 lo) hi)] := by
      rw [toFl_seven]
      unfold Dyn.wrapAngles
      rw [hd.wrap]
      simp [bcast2, w1, x1, x3]
    have e : ([.fin x, .fin y, .fin z, .fin h, .fin g, .fin f, .fin v] : Vec R) = toFl ![x, y, z, h, g, f, v] := by rw [toFl_seven]; rfl
    unfold Dyn.step
    rw [e, hraw]
    simp only [hclip, hwr, bind, Except.bind, pure, Except.pure]

end

end SAD
