import Verif.Lemmas.RoundTumbling

/-! # The derivative of the spacecraft with six degrees of freedom in double precision -/

set_option linter.unusedSectionVars false

namespace SAD
open Spec

section
variable {libm : Fmt ℚ}

/-- the error of an entry in terms of the size of the derivative -/
theorem tumble_row {p q c d : ℕ} {z z' : Fl (b64Of libm)} {x x' a a' S : ℚ} (h : App p c z x a) (h' : App q d z' x' a') (hp : p ≤ 500) (hq : q ≤ 500) (hc : c ≤ 2 ^ 20)
    (hd : d ≤ 2 ^ 20) (hS : S ≤ 2 ^ 100) (hS1 : 2⁻¹ ^ 40 ≤ S) (ha : a ≤ S) (ha' : a' ≤ 16 * S) :
    ∃ v : ℚ, (z.cast32 + z' : Fl (b64Of libm)) = .fin v ∧ |v - (x + x')| ≤ 2⁻¹ ^ 19 * S := by
  obtain ⟨v, v1, v2⟩ := app_entry h h' hp hq hc hd (ha.trans (hS.trans (by norm_num)))
  refine ⟨v, v1, v2.trans ?_⟩
  have e1 : (2⁻¹ : ℚ) ^ 100 ≤ S := le_trans (by norm_num) hS1
  calc (2⁻¹ : ℚ) ^ 22 * (a + 2⁻¹ ^ 100) + 2⁻¹ ^ 30 * a' ≤ 2⁻¹ ^ 22 * (S + S) + 2⁻¹ ^ 30 * (16 * S) := by gcongr
    _ = (2⁻¹ ^ 21 + 2⁻¹ ^ 26) * S := by ring
    _ ≤ _ := mul_le_mul_of_nonneg_right (by norm_num) (le_trans (by positivity) hS1)

/-- the gyroscopic part of an angular acceleration -/
theorem app_gyro {I0 I1 I2 κ W y z : ℚ} (h0 : I0 ≠ 0) (h1 : |I0| ≤ 2 ^ 30) (h2 : |I0⁻¹| ≤ 2 ^ 30) (hκ : |I1 - I2| ≤ κ * |I0|) (k1 : 2⁻¹ ^ 50 ≤ κ) (k2 : κ ≤ 2 ^ 30)
    (hW : 2⁻¹ ^ 150 ≤ W) (hW2 : W ≤ 2 ^ 30) (hy : |y| ≤ W) (hz : |z| ≤ W) :
    App 411 5 (1 / .fin I0 * ((.fin I1 - .fin I2) * .fin y * .fin z) : Fl (b64Of libm)) ((I1 - I2) / I0 * (y * z)) (κ * W ^ 2) := by
  have m0 : 0 < |I0| := abs_pos.2 h0
  have m1 : (2⁻¹ : ℚ) ^ 30 ≤ |I0| := by
    rw [abs_inv] at h2
    rw [inv_pow]
    exact inv_le_of_inv_le₀ m0 h2
  have hk : App 31 1 (1 / .fin I0 : Fl (b64Of libm)) (1 / I0) |I0⁻¹| := by
    rw [Fl.one_fin]
    refine app_div h0 (by norm_num) ?_ (h2.trans (by norm_num)) (by rw [one_div])
    rw [abs_inv, le_inv_comm₀ (by positivity) m0]
    exact h1.trans (by norm_num)
  have hs : App 80 1 (.fin I1 - .fin I2 : Fl (b64Of libm)) (I1 - I2) (κ * |I0|) := by
    refine app_fin_sub (by norm_num) ?_ ?_ hκ
    · calc (2⁻¹ : ℚ) ^ 80 = 2⁻¹ ^ 50 * 2⁻¹ ^ 30 := by norm_num
        _ ≤ _ := by gcongr
    · calc κ * |I0| ≤ 2 ^ 30 * 2 ^ 30 := by gcongr
        _ ≤ _ := by norm_num
  have w : ∀ {x : ℚ}, |x| ≤ W → App 150 0 (.fin x : Fl (b64Of libm)) x W := fun hx => app_fin hx hW (hW2.trans (by norm_num))
  have h3 := hk.mul ((hs.mul (w hy) (by norm_num) (by norm_num) (by norm_num)).mul (w hz) (by norm_num) (by norm_num) (by norm_num)) (by norm_num) (by norm_num) (by norm_num)
  convert h3.more (q := 411) (d := 5) (by norm_num) (by norm_num) using 1
  · field_simp
  · rw [abs_inv]
    field_simp

/-- a product in the kinematics -/
theorem app_kin {Q W : ℚ} (hQ : 2⁻¹ ^ 150 ≤ Q) (hQ2 : Q ≤ 2 ^ 30) (hW : 2⁻¹ ^ 150 ≤ W) (hW2 : W ≤ 2 ^ 30) {x y : ℚ} (hx : |x| ≤ Q) (hy : |y| ≤ W) :
    App 300 1 (.fin x * .fin y : Fl (b64Of libm)) (x * y) (Q * W) := by
  have h1 : App 150 0 (.fin x : Fl (b64Of libm)) x Q := app_fin hx hQ (hQ2.trans (by norm_num))
  have h2 : App 150 0 (.fin y : Fl (b64Of libm)) y W := app_fin hy hW (hW2.trans (by norm_num))
  have h3 := h1.mul h2 (by norm_num) (by norm_num) (by norm_num)
  exact h3.more (by norm_num) (by norm_num)

/-- the derivative before limits is close to the exact one -/
theorem tumble_raw {env : Env (b64Of libm)} {uninit : List Nat → Vec (b64Of libm)} {args : SixDofArgs (b64Of libm)} {e0 e : Entity (b64Of libm)}
    (h : newSixDof env uninit args = .ok e0) (hc : SameConfig e0 e) {m n : ℚ} {I : Fin 3 → ℚ} (hm : args.m = .fin m) (hn : args.n = .fin n)
    (hI : ∀ i, args.inertiaMatrix i i = .fin (I i)) {wp wq wv wr N κ L X F J M : ℚ} (Z : TumbleUnits wp wq wv wr m n I N κ L X F J M) (hLX : L * X + M ≤ 2 ^ 49)
    {y : Fin 13 → ℚ} (hy : ∀ i, |y i| ≤ tumbleW wp wq wv wr i * X) {U : Fin 6 → ℚ} (hF : |U 0| + |U 1| + |U 2| ≤ F) (hJ : |U 3| ≤ J ∧ |U 4| ≤ J ∧ |U 5| ≤ J)
    (t : Fl (b64Of libm)) :
    ∃ v : Fin 13 → ℚ, e.dynamics.rhs t (toFl y) (toFl U) = .ok (toFl v) ∧
      ∀ i, |v i - tumbling m n I args.bodyFrameThrust U y i| ≤ 2⁻¹ ^ 19 * (tumbleW wp wq wv wr i * (L * X + M)) := by
  obtain ⟨T0, T1, T2, hr, t0, t1, t2⟩ := tumble_rhs h hc hm hn hI Z hy hF t
  obtain ⟨X1, L0, M0, p0, q0, v0, r0⟩ := Z.basic
  obtain ⟨wq1, x1, x2, x3, x4⟩ := Z.size
  obtain ⟨l0, l1, l2, l3⟩ := Z.lip
  obtain ⟨f1, f2⟩ := Z.push
  obtain ⟨y0, y1, y2, y3⟩ := Z.tiny
  obtain ⟨N1, N2⟩ := Z.range N (by simp)
  obtain ⟨K1, K2⟩ := Z.range κ (by simp)
  obtain ⟨F1, F2⟩ := Z.range F (by simp)
  obtain ⟨J1, J2⟩ := Z.range J (by simp)
  have X0 : 0 < X := lt_of_lt_of_le (by positivity) X1
  have wl : ∀ i, (2⁻¹ : ℚ) ^ 150 ≤ tumbleW wp wq wv wr i * X := fun i => by
    calc (2⁻¹ : ℚ) ^ 150 = 2⁻¹ ^ 100 * 2⁻¹ ^ 50 := by norm_num
      _ ≤ _ := mul_le_mul (le_trans (by norm_num) (Z.weights i).1) X1 (by positivity) (Z.weights.pos i).le
  have wP : (2⁻¹ : ℚ) ^ 150 ≤ wp * X := wl 0
  have wQ : (2⁻¹ : ℚ) ^ 150 ≤ wq * X := wl 3
  have wV : (2⁻¹ : ℚ) ^ 150 ≤ wv * X := wl 7
  have wR : (2⁻¹ : ℚ) ^ 150 ≤ wr * X := wl 10
  have S1 : ∀ i, tumbleW wp wq wv wr i * (L * X + M) ≤ 2 ^ 100 := fun i => by
    calc tumbleW wp wq wv wr i * (L * X + M) ≤ 2 ^ 50 * 2 ^ 49 := mul_le_mul (Z.weights i).2 hLX (by positivity) (by positivity)
      _ ≤ _ := by norm_num
  have LX0 : 0 ≤ L * X := by positivity
  have sP : (2⁻¹ : ℚ) ^ 40 ≤ wp * (L * X + M) := y0.trans (mul_le_mul_of_nonneg_left (by linarith) p0.le)
  have sQ : (2⁻¹ : ℚ) ^ 40 ≤ wq * (L * X + M) := y1.trans (mul_le_mul_of_nonneg_left (by linarith) q0.le)
  have sV : (2⁻¹ : ℚ) ^ 40 ≤ wv * (L * X + M) := y2.trans (mul_le_mul_of_nonneg_left (by linarith) v0.le)
  have sR : (2⁻¹ : ℚ) ^ 40 ≤ wr * (L * X + M) := y3.trans (mul_le_mul_of_nonneg_left (by linarith) r0.le)
  have fl : ∀ i {W : ℚ}, (2⁻¹ : ℚ) ^ 150 ≤ W → W ≤ 2 ^ 30 → |y i| ≤ W → App 150 0 (.fin (y i) : Fl (b64Of libm)) (y i) W :=
    fun i W a b c => app_fin c a (b.trans (by norm_num))
  have zr : App 40 0 (0 : Fl (b64Of libm)) 0 (2⁻¹ ^ 40) := app_zero (by norm_num) (by norm_num)
  have one : App 0 0 (1 : Fl (b64Of libm)) 1 1 := by rw [Fl.one_fin]; exact app_fin (by norm_num) (by norm_num) (by norm_num)
  have two : App 1 0 (2 : Fl (b64Of libm)) 2 2 := app_fin (x := 2) (by norm_num) (by norm_num) (by norm_num)
  have three : App 2 0 (3 : Fl (b64Of libm)) 3 3 := app_fin (x := 3) (by norm_num) (by norm_num) (by norm_num)
  have hnn : App 50 0 (.fin n : Fl (b64Of libm)) n N := app_fin Z.mean N1 (N2.trans (by norm_num))
  -- positions
  have pos : ∀ i, |y i| ≤ wv * X → App 150 2 (0 + 1 * .fin (y i) : Fl (b64Of libm)) (y i) (wv * X) := fun i hi => by
    have := (one.mul (fl i wV x3 hi) (by norm_num) (by norm_num) (by norm_num)).zeroAdd (by norm_num) (by norm_num)
    convert this using 1 <;> ring
  have aP : wv * X ≤ wp * (L * X + M) := by
    have := mul_le_mul_of_nonneg_right l0 X0.le
    have := mul_pos p0 M0
    linarith
  have z16 : ∀ {S : ℚ}, (2⁻¹ : ℚ) ^ 40 ≤ S → (2⁻¹ : ℚ) ^ 40 ≤ 16 * S := fun hS => by
    have : (0 : ℚ) ≤ 2⁻¹ ^ 40 := by positivity
    linarith
  obtain ⟨d0, e0, g0⟩ := tumble_row (((pos 7 (hy 7)).addZero (by norm_num) (by norm_num)).addZero (by norm_num) (by norm_num)) zr (by norm_num) (by norm_num) (by norm_num) (by norm_num)
    (S1 0) sP aP (z16 sP)
  obtain ⟨d1, e1, g1⟩ := tumble_row ((pos 8 (hy 8)).addZero (by norm_num) (by norm_num)) zr (by norm_num) (by norm_num) (by norm_num) (by norm_num) (S1 1) sP aP (z16 sP)
  obtain ⟨d2, e2, g2⟩ := tumble_row (pos 9 (hy 9)) zr (by norm_num) (by norm_num) (by norm_num) (by norm_num) (S1 2) sP aP (z16 sP)
  -- attitude
  have kin : ∀ {a b : ℚ}, |a| ≤ wq * X → |b| ≤ wr * X → App 300 1 (.fin a * .fin b : Fl (b64Of libm)) (a * b) (wq * X * (wr * X)) := fun ha hb => app_kin wQ x2 wR x4 ha hb
  have kin' : ∀ {a b : ℚ}, |a| ≤ wq * X → |b| ≤ wr * X → App 301 2 (.fin a * .fin b : Fl (b64Of libm)) (a * b) (wq * X * (wr * X)) := fun ha hb => (kin ha hb).more (by norm_num) (by norm_num)
  have kneg : ∀ {a b : ℚ}, |a| ≤ wq * X → |b| ≤ wr * X → App 300 1 (-.fin a * .fin b : Fl (b64Of libm)) (-a * b) (wq * X * (wr * X)) := fun {a b} ha hb => by
    rw [show (-.fin a : Fl (b64Of libm)) = .fin (-a) from rfl]
    exact kin (by rwa [abs_neg]) hb
  have aQ : 1 / 2 * (wq * X * (wr * X) + wq * X * (wr * X) + wq * X * (wr * X)) ≤ wq * (L * X + M) := by
    have a1 := mul_le_mul_of_nonneg_right l1 (mul_pos q0 X0).le
    have a2 := mul_pos q0 M0
    have a3 : 0 ≤ wq * X * (wr * X) := by positivity
    linarith
  have halve : ∀ {z : Fl (b64Of libm)} {x a : ℚ}, App 302 3 z x a → App 303 4 (0.5 * z) (1 / 2 * x) (1 / 2 * a) := fun hz =>
    (app_half.mul hz (by norm_num) (by norm_num) (by norm_num)).more (by norm_num) (by norm_num)
  obtain ⟨d3, e3, g3⟩ := tumble_row (halve (((kin (hy 6) (hy 10)).sub (kin (hy 5) (hy 11)) (by norm_num) (by norm_num)).add (kin' (hy 4) (hy 12)) (by norm_num) (by norm_num))) zr
    (by norm_num) (by norm_num) (by norm_num) (by norm_num) (S1 3) sQ aQ (z16 sQ)
  obtain ⟨d4, e4, g4⟩ := tumble_row (halve (((kin (hy 5) (hy 10)).add (kin (hy 6) (hy 11)) (by norm_num) (by norm_num)).sub (kin' (hy 3) (hy 12)) (by norm_num) (by norm_num))) zr
    (by norm_num) (by norm_num) (by norm_num) (by norm_num) (S1 4) sQ aQ (z16 sQ)
  obtain ⟨d5, e5, g5⟩ := tumble_row (halve (((kneg (hy 4) (hy 10)).add (kin (hy 3) (hy 11)) (by norm_num) (by norm_num)).add (kin' (hy 6) (hy 12)) (by norm_num) (by norm_num))) zr
    (by norm_num) (by norm_num) (by norm_num) (by norm_num) (S1 5) sQ aQ (z16 sQ)
  obtain ⟨d6, e6, g6⟩ := tumble_row (halve (((kneg (hy 3) (hy 10)).sub (kin (hy 4) (hy 11)) (by norm_num) (by norm_num)).sub (kin' (hy 5) (hy 12)) (by norm_num) (by norm_num))) zr
    (by norm_num) (by norm_num) (by norm_num) (by norm_num) (S1 6) sQ aQ (z16 sQ)
  -- velocities
  have aT : 48 * (wq * X) ^ 2 * (F / |m|) ≤ 16 * (wv * (L * X + M)) := by
    have a1 : 0 ≤ wv * (L * X) := by positivity
    have a2 := mul_pos v0 M0
    linarith
  have l2' : 3 * N ^ 2 * (wp * X) + 2 * N * (wv * X) ≤ wv * (L * X + M) := by
    have F0 : 0 ≤ F := le_trans (by positivity) F1
    have a1 : 0 ≤ 8 * (wq * X) * (F / |m|) * wq * X := by positivity
    have a2 := mul_le_mul_of_nonneg_right l2 X0.le
    have a3 := mul_pos v0 M0
    linarith
  have N0 : 0 < N := lt_of_lt_of_le (by positivity) N1
  have aV0 : 0 ≤ 3 * N ^ 2 * (wp * X) := by positivity
  have aV1 : 0 ≤ 2 * N * (wv * X) := by positivity
  have n2 : App 100 1 (.fin n * .fin n : Fl (b64Of libm)) (n * n) (N * N) := hnn.mul hnn (by norm_num) (by norm_num) (by norm_num)
  have r7 := ((((three.mul n2 (by norm_num) (by norm_num) (by norm_num)).mul (fl 0 wP x1 (hy 0)) (by norm_num) (by norm_num) (by norm_num)).zeroAdd (by norm_num) (by norm_num)).addZero
    (by norm_num) (by norm_num)).addZero (by norm_num) (by norm_num) |>.addZero (by norm_num) (by norm_num)
  have c7 := ((two.mul hnn (by norm_num) (by norm_num) (by norm_num)).mul (fl 8 wV x3 (hy 8)) (by norm_num) (by norm_num) (by norm_num)).more (q := 252) (d := 7) (by norm_num) (by norm_num)
  have s7 := ((r7.more (q := 252) (d := 7) (by norm_num) (by norm_num)).add c7 (by norm_num) (by norm_num)).addZero (by norm_num) (by norm_num)
  obtain ⟨d7, e7, g7⟩ := tumble_row s7 t0 (by norm_num) (by norm_num) (by norm_num) (by norm_num) (S1 7) sV (by
    show 3 * (N * N) * (wp * X) + 2 * N * (wv * X) ≤ wv * (L * X + M)
    linarith [l2']) aT
  have s8 := ((((two.neg.mul hnn (by norm_num) (by norm_num) (by norm_num)).mul (fl 7 wV x3 (hy 7)) (by norm_num) (by norm_num) (by norm_num)).zeroAdd (by norm_num) (by norm_num)).addZero
    (by norm_num) (by norm_num)).addZero (by norm_num) (by norm_num)
  obtain ⟨d8, e8, g8⟩ := tumble_row s8 t1 (by norm_num) (by norm_num) (by norm_num) (by norm_num) (S1 8) sV (by
    show 2 * N * (wv * X) ≤ wv * (L * X + M)
    linarith) aT
  have s9 := ((((n2.neg.mul (fl 2 wP x1 (hy 2)) (by norm_num) (by norm_num) (by norm_num)).zeroAdd (by norm_num) (by norm_num)).addZero
    (by norm_num) (by norm_num)).addZero (by norm_num) (by norm_num)).addZero (by norm_num) (by norm_num)
  obtain ⟨d9, e9, g9⟩ := tumble_row s9 t2 (by norm_num) (by norm_num) (by norm_num) (by norm_num) (S1 9) sV (by
    show N * N * (wp * X) ≤ wv * (L * X + M)
    have : N * N * (wp * X) ≤ 3 * N ^ 2 * (wp * X) := by linarith
    linarith) aT
  -- rates
  have aR : κ * (wr * X) ^ 2 ≤ wr * (L * X + M) := by
    have a1 := mul_le_mul_of_nonneg_right l3 (mul_pos r0 X0).le
    have a2 := mul_pos r0 M0
    have K0 : 0 ≤ κ := le_trans (by positivity) K1
    have a3 : 0 ≤ κ * (wr * X) ^ 2 := by positivity
    linarith
  have aJ : ∀ i, J / |I i| ≤ 16 * (wr * (L * X + M)) := fun i => by
    have a1 := f2 i
    have a2 : 0 ≤ wr * (L * X) := by positivity
    have a3 := mul_pos r0 M0
    linarith
  obtain ⟨i00, i01, i02⟩ := Z.inertia 0
  obtain ⟨i10, i11, i12⟩ := Z.inertia 1
  obtain ⟨i20, i21, i22⟩ := Z.inertia 2
  have J2' : J ≤ 2 ^ 50 := J2.trans (by norm_num)
  obtain ⟨d10, e10, g10⟩ := tumble_row (app_gyro i00 i01 i02 Z.lever.1 K1 K2 wR x4 (hy 11) (hy 12))
    (((app_push i00 i01 i02 hJ.1 J1 J2').addZero (by norm_num) (by norm_num)).addZero (by norm_num) (by norm_num)) (by norm_num) (by norm_num) (by norm_num) (by norm_num) (S1 10) sR aR (aJ 0)
  obtain ⟨d11, e11, g11⟩ := tumble_row (app_gyro i10 i11 i12 Z.lever.2.1 K1 K2 wR x4 (hy 10) (hy 12))
    ((app_push i10 i11 i12 hJ.2.1 J1 J2').addZero (by norm_num) (by norm_num)) (by norm_num) (by norm_num) (by norm_num) (by norm_num) (S1 11) sR aR (aJ 1)
  obtain ⟨d12, e12, g12⟩ := tumble_row (app_gyro i20 i21 i22 Z.lever.2.2 K1 K2 wR x4 (hy 10) (hy 11))
    (app_push i20 i21 i22 hJ.2.2 J1 J2') (by norm_num) (by norm_num) (by norm_num) (by norm_num) (S1 12) sR aR (aJ 2)
  refine ⟨![d0, d1, d2, d3, d4, d5, d6, d7, d8, d9, d10, d11, d12], ?_, fun i => ?_⟩
  · rw [hr, toFl_13]
    simp only [Matrix.cons_val]
    rw [e0, e1, e2, e3, e4, e5, e6, e7, e8, e9, e10, e11, e12]
  · have fin : ∀ {a b c B : ℚ}, |a - b| ≤ B → b = c → |a - c| ≤ B := fun h e => e ▸ h
    fin_cases i
    · exact fin g0 (by simp [tumbling])
    · exact fin g1 (by simp [tumbling])
    · exact fin g2 (by simp [tumbling])
    · exact fin g3 (by show _ = (y 6 * y 10 - y 5 * y 11 + y 4 * y 12) / 2; ring)
    · exact fin g4 (by show _ = (y 5 * y 10 + y 6 * y 11 - y 3 * y 12) / 2; ring)
    · exact fin g5 (by show _ = (-y 4 * y 10 + y 3 * y 11 + y 6 * y 12) / 2; ring)
    · exact fin g6 (by show _ = (-y 3 * y 10 - y 4 * y 11 - y 5 * y 12) / 2; ring)
    · exact fin g7 (by show _ = 3 * n ^ 2 * y 0 + 2 * n * y 8 + Spec.hillForce args.bodyFrameThrust U y 0 / m; ring)
    · exact fin g8 (by show _ = -2 * n * y 7 + Spec.hillForce args.bodyFrameThrust U y 1 / m; ring)
    · exact fin g9 (by show _ = -n ^ 2 * y 2 + Spec.hillForce args.bodyFrameThrust U y 2 / m; ring)
    · exact fin g10 rfl
    · exact fin g11 rfl
    · exact fin g12 rfl

end
end SAD
