import Verif.Lemmas.TumblingDot
import Verif.Lemmas.RoundTurning

/-! # The spacecraft with six degrees of freedom in double precision, call by call -/

set_option linter.unusedSectionVars false

namespace SAD
open Spec

section
variable {wp wq wv wr m n : ℚ} {I : Fin 3 → ℚ} {N κ L X F J M : ℚ}

theorem prod_diff {a b a' b' A B s t : ℝ} (ha : |a| ≤ A) (hb : |b'| ≤ B) (hs : |a - a'| ≤ s) (ht : |b - b'| ≤ t) : |a * b - a' * b'| ≤ A * t + B * s := by
  rw [show a * b - a' * b' = a * (b - b') + b' * (a - a') by ring]
  refine (abs_add_le _ _).trans ?_
  rw [abs_mul, abs_mul]
  exact add_le_add (mul_le_mul ha ht (abs_nonneg _) ((abs_nonneg _).trans ha)) (mul_le_mul hb hs (abs_nonneg _) ((abs_nonneg _).trans hb))

theorem combine3 {c0 c1 c2 f0 f1 f2 C : ℝ} (h0 : |c0| ≤ C) (h1 : |c1| ≤ C) (h2 : |c2| ≤ C) : |c0 * f0 + c1 * f1 + c2 * f2| ≤ C * (|f0| + |f1| + |f2|) := by
  refine (abs_add_three _ _ _).trans ?_
  rw [abs_mul, abs_mul, abs_mul]
  have a0 := mul_le_mul_of_nonneg_right h0 (abs_nonneg f0)
  have a1 := mul_le_mul_of_nonneg_right h1 (abs_nonneg f1)
  have a2 := mul_le_mul_of_nonneg_right h2 (abs_nonneg f2)
  linarith

theorem four_abs {a b c d B : ℝ} (ha : |a| ≤ B) (hb : |b| ≤ B) (hc : |c| ≤ B) (hd : |d| ≤ B) :
    |a - b - c + d| ≤ 4 * B ∧ |-a + b - c + d| ≤ 4 * B ∧ |-a - b + c + d| ≤ 4 * B := by
  obtain ⟨a1, a2⟩ := abs_le.1 ha
  obtain ⟨b1, b2⟩ := abs_le.1 hb
  obtain ⟨c1, c2⟩ := abs_le.1 hc
  obtain ⟨d1, d2⟩ := abs_le.1 hd
  refine ⟨?_, ?_, ?_⟩ <;> rw [abs_le] <;> constructor <;> linarith

theorem two_abs {a b B : ℝ} (ha : |a| ≤ B) (hb : |b| ≤ B) : |2 * (a - b)| ≤ 4 * B ∧ |2 * (a + b)| ≤ 4 * B := by
  obtain ⟨a1, a2⟩ := abs_le.1 ha
  obtain ⟨b1, b2⟩ := abs_le.1 hb
  refine ⟨?_, ?_⟩ <;> rw [abs_le] <;> constructor <;> linarith

theorem toHill_bound {p : Fin 4 → Fin 4 → ℝ} {B : ℝ} (hp : ∀ i j, |p i j| ≤ B) (f : Fin 3 → ℝ) (i : Fin 3) :
    |(![(p 0 0 - p 1 1 - p 2 2 + p 3 3) * f 0 + 2 * (p 0 1 - p 2 3) * f 1 + 2 * (p 0 2 + p 1 3) * f 2,
      2 * (p 0 1 + p 2 3) * f 0 + (-p 0 0 + p 1 1 - p 2 2 + p 3 3) * f 1 + 2 * (p 1 2 - p 0 3) * f 2,
      2 * (p 0 2 - p 1 3) * f 0 + 2 * (p 1 2 + p 0 3) * f 1 + (-p 0 0 - p 1 1 + p 2 2 + p 3 3) * f 2] : Fin 3 → ℝ) i| ≤ 4 * B * (|f 0| + |f 1| + |f 2|) := by
  obtain ⟨a1, a2, a3⟩ := four_abs (hp 0 0) (hp 1 1) (hp 2 2) (hp 3 3)
  fin_cases i
  · exact combine3 a1 (two_abs (hp 0 1) (hp 2 3)).1 (two_abs (hp 0 2) (hp 1 3)).2
  · exact combine3 (two_abs (hp 0 1) (hp 2 3)).2 a2 (two_abs (hp 1 2) (hp 0 3)).1
  · exact combine3 (two_abs (hp 0 2) (hp 1 3)).1 (two_abs (hp 1 2) (hp 0 3)).2 a3

theorem toHill_size {q : Fin 4 → ℝ} {Q : ℝ} (hq : ∀ i, |q i| ≤ Q) (f : Fin 3 → ℝ) (i : Fin 3) : |toHill q f i| ≤ 4 * Q ^ 2 * (|f 0| + |f 1| + |f 2|) := by
  have := toHill_bound (p := fun i j => q i * q j) (B := Q ^ 2) (fun i j => by
    rw [abs_mul, sq]
    exact mul_le_mul (hq i) (hq j) (abs_nonneg _) ((abs_nonneg _).trans (hq i))) f i
  refine le_trans (le_of_eq ?_) this
  fin_cases i <;> simp only [toHill, Fin.zero_eta, Fin.mk_one, Fin.reduceFinMk, Matrix.cons_val] <;> congr 1 <;> ring

theorem toHill_lip {q r : Fin 4 → ℝ} {Q d : ℝ} (hq : ∀ i, |q i| ≤ Q) (hr : ∀ i, |r i| ≤ Q) (hd : ∀ i, |q i - r i| ≤ d) (f : Fin 3 → ℝ) (i : Fin 3) :
    |toHill q f i - toHill r f i| ≤ 8 * Q * d * (|f 0| + |f 1| + |f 2|) := by
  have := toHill_bound (p := fun i j => q i * q j - r i * r j) (B := Q * d + Q * d) (fun i j => prod_diff (hq i) (hr j) (hd i) (hd j)) f i
  refine le_trans (le_of_eq ?_) (this.trans (le_of_eq (by ring)))
  fin_cases i <;> simp only [toHill, Fin.zero_eta, Fin.mk_one, Fin.reduceFinMk, Matrix.cons_val] <;> congr 1 <;> ring

/-- the thrust in Hill's frame -/
theorem hillForce_size {body : Bool} {U : Fin 6 → ℝ} {F Q : ℝ} (hF : |U 0| + |U 1| + |U 2| ≤ F) (hQ : 1 ≤ Q) {y : Fin 13 → ℝ} (h3 : |y 3| ≤ Q) (h4 : |y 4| ≤ Q)
    (h5 : |y 5| ≤ Q) (h6 : |y 6| ≤ Q) (i : Fin 3) : |hillForce body U y i| ≤ 4 * Q ^ 2 * F := by
  have F0 : 0 ≤ F := le_trans (by positivity) hF
  cases body
  · have a0 := abs_nonneg (U 0)
    have a1 := abs_nonneg (U 1)
    have a2 := abs_nonneg (U 2)
    have h1 : |(![U 0, U 1, U 2] : Fin 3 → ℝ) i| ≤ F := by
      fin_cases i <;> simp only [Fin.zero_eta, Fin.mk_one, Fin.reduceFinMk, Matrix.cons_val] <;> linarith
    show |(![U 0, U 1, U 2] : Fin 3 → ℝ) i| ≤ _
    have h2 : 1 ≤ 4 * Q ^ 2 := by nlinarith
    exact h1.trans (le_mul_of_one_le_left F0 h2)
  · have := toHill_size (q := ![y 3, y 4, y 5, y 6]) (Q := Q) (fun i => by
      fin_cases i
      · exact h3
      · exact h4
      · exact h5
      · exact h6) ![U 0, U 1, U 2] i
    exact this.trans (mul_le_mul_of_nonneg_left hF (by positivity))

theorem hillForce_lip {body : Bool} {U : Fin 6 → ℝ} {F Q d : ℝ} (hF : |U 0| + |U 1| + |U 2| ≤ F) (hQ : 0 ≤ Q) (hd : 0 ≤ d) {y z : Fin 13 → ℝ}
    (hy : |y 3| ≤ Q ∧ |y 4| ≤ Q ∧ |y 5| ≤ Q ∧ |y 6| ≤ Q) (hz : |z 3| ≤ Q ∧ |z 4| ≤ Q ∧ |z 5| ≤ Q ∧ |z 6| ≤ Q)
    (hyz : |y 3 - z 3| ≤ d ∧ |y 4 - z 4| ≤ d ∧ |y 5 - z 5| ≤ d ∧ |y 6 - z 6| ≤ d) (i : Fin 3) : |hillForce body U y i - hillForce body U z i| ≤ 8 * Q * d * F := by
  have F0 : 0 ≤ F := le_trans (by positivity) hF
  cases body
  · show |(![U 0, U 1, U 2] : Fin 3 → ℝ) i - (![U 0, U 1, U 2] : Fin 3 → ℝ) i| ≤ _
    rw [sub_self, abs_zero]
    positivity
  · have four : ∀ {a : Fin 4 → ℝ} {B : ℝ}, |a 0| ≤ B ∧ |a 1| ≤ B ∧ |a 2| ≤ B ∧ |a 3| ≤ B → ∀ i, |a i| ≤ B := fun h i => by
      fin_cases i
      · exact h.1
      · exact h.2.1
      · exact h.2.2.1
      · exact h.2.2.2
    have := toHill_lip (q := ![y 3, y 4, y 5, y 6]) (r := ![z 3, z 4, z 5, z 6]) (Q := Q) (d := d) (four hy) (four hz)
      (four (a := fun i => (![y 3, y 4, y 5, y 6] : Fin 4 → ℝ) i - (![z 3, z 4, z 5, z 6] : Fin 4 → ℝ) i) hyz) ![U 0, U 1, U 2] i
    exact this.trans (mul_le_mul_of_nonneg_left hF (by positivity))

theorem rot_three {n N a b t A B T : ℝ} (hn : |n| ≤ N) (ha : |a| ≤ A) (hb : |b| ≤ B) (ht : |t| ≤ T) : |3 * n ^ 2 * a + 2 * n * b + t| ≤ 3 * N ^ 2 * A + 2 * N * B + T := by
  have N0 : 0 ≤ N := (abs_nonneg _).trans hn
  refine (abs_add_le _ _).trans (add_le_add ((abs_add_le _ _).trans (add_le_add ?_ ?_)) ht)
  · rw [abs_mul, abs_mul, abs_pow, show |(3 : ℝ)| = 3 by norm_num]
    gcongr
  · rw [abs_mul, abs_mul, abs_two]
    gcongr

/-- sizes over the reals -/
theorem Spec.TumbleUnits.real (Z : TumbleUnits wp wq wv wr m n I N κ L X F J M) : ((wv : ℝ) ≤ L * wp ∧ 3 * ((wr : ℝ) * X) ≤ L ∧
    3 * (N : ℝ) ^ 2 * wp + 2 * N * wv + 8 * (wq * X) * (F / |(m : ℝ)|) * wq ≤ L * wv ∧ 2 * κ * ((wr : ℝ) * X) ≤ L) ∧
    (4 * ((wq : ℝ) * X) ^ 2 * (F / |(m : ℝ)|) ≤ wv * M ∧ ∀ i, (J : ℝ) / |(I i : ℝ)| ≤ wr * M) ∧
    (|(I 1 : ℝ) - I 2| ≤ κ * |(I 0 : ℝ)| ∧ |(I 2 : ℝ) - I 0| ≤ κ * |(I 1 : ℝ)| ∧ |(I 0 : ℝ) - I 1| ≤ κ * |(I 2 : ℝ)|) ∧ |(n : ℝ)| ≤ N ∧ (1 : ℝ) ≤ wq * X := by
  obtain ⟨l0, l1, l2, l3⟩ := Z.lip
  obtain ⟨p1, p2⟩ := Z.push
  obtain ⟨k0, k1, k2⟩ := Z.lever
  exact ⟨⟨by exact_mod_cast l0, by exact_mod_cast l1, by exact_mod_cast l2, by exact_mod_cast l3⟩, ⟨by exact_mod_cast p1, fun i => by exact_mod_cast p2 i⟩,
    ⟨by exact_mod_cast k0, by exact_mod_cast k1, by exact_mod_cast k2⟩, by exact_mod_cast Z.mean, by exact_mod_cast Z.size.1⟩

theorem lever_div {a b k : ℝ} (h : |a| ≤ k * |b|) (hb : b ≠ 0) : |a / b| ≤ k := by
  rw [abs_div, div_le_iff₀ (abs_pos.2 hb)]
  exact h

/-- the derivative is Lipschitz -/
theorem tumbling_lip (Z : TumbleUnits wp wq wv wr m n I N κ L X F J M) {body : Bool} {U : Fin 6 → ℝ} (hF : |U 0| + |U 1| + |U 2| ≤ F) {y z : Fin 13 → ℝ} {e : ℝ}
    (hy : ∀ i, |y i| ≤ tumbleW wp wq wv wr i * X) (hz : ∀ i, |z i| ≤ tumbleW wp wq wv wr i * X) (h : ∀ i, |y i - z i| ≤ tumbleW wp wq wv wr i * e) (i : Fin 13) :
    |tumbling (m : ℝ) n (fun i => I i) body U y i - tumbling (m : ℝ) n (fun i => I i) body U z i| ≤ tumbleW wp wq wv wr i * (L * e) := by
  obtain ⟨⟨l0, l1, l2, l3⟩, -, ⟨k0, k1, k2⟩, hn, hQ⟩ := Z.real
  obtain ⟨X1, L0, M0, p0, q0, v0, r0⟩ := Z.basic
  have hm : (m : ℝ) ≠ 0 := by exact_mod_cast Z.mass.1
  have hI : ∀ i, (I i : ℝ) ≠ 0 := fun i => by exact_mod_cast (Z.inertia i).1
  have p0' : (0 : ℝ) < wp := by exact_mod_cast p0
  have q0' : (0 : ℝ) < wq := by exact_mod_cast q0
  have v0' : (0 : ℝ) < wv := by exact_mod_cast v0
  have r0' : (0 : ℝ) < wr := by exact_mod_cast r0
  have X0 : (0 : ℝ) < X := by exact_mod_cast lt_of_lt_of_le (by positivity) X1
  have e0 : 0 ≤ e := by
    have h1 : |y 0 - z 0| ≤ wp * e := h 0
    by_contra h'
    have := (abs_nonneg _).trans h1
    nlinarith
  -- kinematics
  have kin : ∀ (j k : Fin 13), |y j| ≤ wq * X → |z k| ≤ wr * X → |y j - z j| ≤ wq * e → |y k - z k| ≤ wr * e → |y j * y k - z j * z k| ≤ 2 * (wq * (wr * X) * e) :=
    fun j k a b c d => (prod_diff a b c d).trans (le_of_eq (by ring))
  have kr : 3 * (wq * (wr * X) * e) ≤ wq * (L * e) := by
    have := mul_le_mul_of_nonneg_right l1 (mul_nonneg q0'.le e0)
    linarith
  have fin3 : ∀ {a b c B : ℝ}, |a| ≤ 2 * B → |b| ≤ 2 * B → |c| ≤ 2 * B → 3 * B ≤ wq * (L * e) → |(a - b + c) / 2| ≤ wq * (L * e) ∧ |(a + b - c) / 2| ≤ wq * (L * e) ∧
      |(-a + b + c) / 2| ≤ wq * (L * e) ∧ |(-a - b - c) / 2| ≤ wq * (L * e) := fun {a b c B} ha hb hc hB => by
    obtain ⟨a1, a2⟩ := abs_le.1 ha
    obtain ⟨b1, b2⟩ := abs_le.1 hb
    obtain ⟨c1, c2⟩ := abs_le.1 hc
    refine ⟨?_, ?_, ?_, ?_⟩ <;> rw [abs_le] <;> constructor <;> linarith
  -- velocities
  have push : ∀ i, |(hillForce body U y i - hillForce body U z i) / m| ≤ 8 * (wq * X) * (F / |(m : ℝ)|) * (wq * e) := fun i => by
    rw [abs_div]
    have := hillForce_lip (body := body) hF (by positivity : (0 : ℝ) ≤ wq * X) (by positivity : (0 : ℝ) ≤ wq * e) ⟨hy 3, hy 4, hy 5, hy 6⟩ ⟨hz 3, hz 4, hz 5, hz 6⟩ ⟨h 3, h 4, h 5, h 6⟩ i
    refine (div_le_div_of_nonneg_right this (abs_nonneg _)).trans (le_of_eq ?_)
    ring
  have F0 : (0 : ℝ) ≤ F := le_trans (by positivity) hF
  have N0 : (0 : ℝ) ≤ N := (abs_nonneg _).trans hn
  have l2e := mul_le_mul_of_nonneg_right l2 e0
  have vel : ∀ {A B : ℝ}, A ≤ wp * e → B ≤ wv * e → 3 * (N : ℝ) ^ 2 * A + 2 * N * B + 8 * (wq * X) * (F / |(m : ℝ)|) * (wq * e) ≤ wv * (L * e) := fun {A B} hA hB => by
    have a1 := mul_le_mul_of_nonneg_left hA (by positivity : 0 ≤ 3 * (N : ℝ) ^ 2)
    have a2 := mul_le_mul_of_nonneg_left hB (by positivity : 0 ≤ 2 * (N : ℝ))
    linarith
  have pe : 0 ≤ wp * e := by positivity
  have ve : 0 ≤ wv * e := by positivity
  -- rates
  have gyro : ∀ {a : ℝ} (j k : Fin 13), |a| ≤ κ → |y j| ≤ wr * X → |z k| ≤ wr * X → |y j - z j| ≤ wr * e → |y k - z k| ≤ wr * e →
      |a * (y j * y k - z j * z k)| ≤ wr * (L * e) := fun {a} j k ha hj hk dj dk => by
    rw [abs_mul]
    have K0 : 0 ≤ (κ : ℝ) := (abs_nonneg _).trans ha
    have h1 := prod_diff hj hk dj dk
    have h2 := mul_le_mul ha h1 (abs_nonneg _) K0
    have h3 := mul_le_mul_of_nonneg_right l3 (by positivity : 0 ≤ wr * e)
    linarith
  have row : ∀ {a b B : ℝ}, |a| ≤ B → b = a → |b| ≤ B := fun h e => e ▸ h
  have pos : ∀ j : Fin 13, |y j - z j| ≤ wv * e → |y j - z j| ≤ wp * (L * e) := fun j hj => by
    have := mul_le_mul_of_nonneg_right l0 e0
    linarith
  fin_cases i
  · exact pos 7 (h 7)
  · exact pos 8 (h 8)
  · exact pos 9 (h 9)
  · exact row (fin3 (kin 6 10 (hy 6) (hz 10) (h 6) (h 10)) (kin 5 11 (hy 5) (hz 11) (h 5) (h 11)) (kin 4 12 (hy 4) (hz 12) (h 4) (h 12)) kr).1 (by
      show (y 6 * y 10 - y 5 * y 11 + y 4 * y 12) / 2 - (z 6 * z 10 - z 5 * z 11 + z 4 * z 12) / 2 = _; ring)
  · exact row (fin3 (kin 5 10 (hy 5) (hz 10) (h 5) (h 10)) (kin 6 11 (hy 6) (hz 11) (h 6) (h 11)) (kin 3 12 (hy 3) (hz 12) (h 3) (h 12)) kr).2.1 (by
      show (y 5 * y 10 + y 6 * y 11 - y 3 * y 12) / 2 - (z 5 * z 10 + z 6 * z 11 - z 3 * z 12) / 2 = _; ring)
  · exact row (fin3 (kin 4 10 (hy 4) (hz 10) (h 4) (h 10)) (kin 3 11 (hy 3) (hz 11) (h 3) (h 11)) (kin 6 12 (hy 6) (hz 12) (h 6) (h 12)) kr).2.2.1 (by
      show (-y 4 * y 10 + y 3 * y 11 + y 6 * y 12) / 2 - (-z 4 * z 10 + z 3 * z 11 + z 6 * z 12) / 2 = _; ring)
  · exact row (fin3 (kin 3 10 (hy 3) (hz 10) (h 3) (h 10)) (kin 4 11 (hy 4) (hz 11) (h 4) (h 11)) (kin 5 12 (hy 5) (hz 12) (h 5) (h 12)) kr).2.2.2 (by
      show (-y 3 * y 10 - y 4 * y 11 - y 5 * y 12) / 2 - (-z 3 * z 10 - z 4 * z 11 - z 5 * z 12) / 2 = _; ring)
  · refine (row (rot_three hn (h 0) (h 8) (push 0)) ?_).trans (vel le_rfl le_rfl)
    show 3 * (n : ℝ) ^ 2 * y 0 + 2 * n * y 8 + hillForce body U y 0 / m - (3 * (n : ℝ) ^ 2 * z 0 + 2 * n * z 8 + hillForce body U z 0 / m) = _
    ring
  · refine (row (rot_three (A := 0) hn (a := 0) (by simp) (by rw [abs_neg]; exact h 7 : |-(y 7 - z 7)| ≤ wv * e) (push 1)) ?_).trans (vel pe le_rfl)
    show -2 * (n : ℝ) * y 7 + hillForce body U y 1 / m - (-2 * (n : ℝ) * z 7 + hillForce body U z 1 / m) = _
    ring
  · have h2 : |-(1 / 3) * (y 2 - z 2)| ≤ wp * e := by
      rw [abs_mul, show |-(1 / 3 : ℝ)| = 1 / 3 by norm_num]
      have : |y 2 - z 2| ≤ wp * e := h 2
      linarith [abs_nonneg (y 2 - z 2)]
    refine (row (rot_three (B := 0) hn h2 (b := 0) (by simp) (push 2)) ?_).trans (vel le_rfl ve)
    show -(n : ℝ) ^ 2 * y 2 + hillForce body U y 2 / m - (-(n : ℝ) ^ 2 * z 2 + hillForce body U z 2 / m) = _
    ring
  · refine row (gyro 11 12 (lever_div k0 (hI 0)) (hy 11) (hz 12) (h 11) (h 12)) ?_
    show ((I 1 : ℝ) - I 2) / I 0 * (y 11 * y 12) + U 3 / I 0 - (((I 1 : ℝ) - I 2) / I 0 * (z 11 * z 12) + U 3 / I 0) = _
    ring
  · refine row (gyro 10 12 (lever_div k1 (hI 1)) (hy 10) (hz 12) (h 10) (h 12)) ?_
    show ((I 2 : ℝ) - I 0) / I 1 * (y 10 * y 12) + U 4 / I 1 - (((I 2 : ℝ) - I 0) / I 1 * (z 10 * z 12) + U 4 / I 1) = _
    ring
  · refine row (gyro 10 11 (lever_div k2 (hI 2)) (hy 10) (hz 11) (h 10) (h 11)) ?_
    show ((I 0 : ℝ) - I 1) / I 2 * (y 10 * y 11) + U 5 / I 2 - (((I 0 : ℝ) - I 1) / I 2 * (z 10 * z 11) + U 5 / I 2) = _
    ring

/-- and not large -/
theorem tumbling_size (Z : TumbleUnits wp wq wv wr m n I N κ L X F J M) {body : Bool} {U : Fin 6 → ℝ} (hF : |U 0| + |U 1| + |U 2| ≤ F)
    (hJ : |U 3| ≤ J ∧ |U 4| ≤ J ∧ |U 5| ≤ J) {y : Fin 13 → ℝ} (h : ∀ i, |y i| ≤ tumbleW wp wq wv wr i * X) (i : Fin 13) :
    |tumbling (m : ℝ) n (fun i => I i) body U y i| ≤ tumbleW wp wq wv wr i * (L * X + M) := by
  obtain ⟨⟨l0, l1, l2, l3⟩, ⟨f1, f2⟩, ⟨k0, k1, k2⟩, hn, hQ⟩ := Z.real
  obtain ⟨X1, L0, M0, p0, q0, v0, r0⟩ := Z.basic
  have hI : ∀ i, (I i : ℝ) ≠ 0 := fun i => by exact_mod_cast (Z.inertia i).1
  have p0' : (0 : ℝ) < wp := by exact_mod_cast p0
  have q0' : (0 : ℝ) < wq := by exact_mod_cast q0
  have v0' : (0 : ℝ) < wv := by exact_mod_cast v0
  have r0' : (0 : ℝ) < wr := by exact_mod_cast r0
  have X0 : (0 : ℝ) < X := by exact_mod_cast lt_of_lt_of_le (by positivity) X1
  have L0' : (0 : ℝ) < L := by exact_mod_cast L0
  have M0' : (0 : ℝ) < M := by exact_mod_cast M0
  have F0 : (0 : ℝ) ≤ F := le_trans (by positivity) hF
  have N0 : (0 : ℝ) ≤ N := (abs_nonneg _).trans hn
  have kin : ∀ (j k : Fin 13), |y j| ≤ wq * X → |y k| ≤ wr * X → |y j * y k| ≤ 2 * (wq * X * (wr * X) / 2) := fun j k a b => by
    rw [abs_mul]
    exact (mul_le_mul a b (abs_nonneg _) (by positivity)).trans (le_of_eq (by ring))
  have kr : 3 * (wq * X * (wr * X) / 2) ≤ (wq : ℝ) * (L * X + M) := by
    have a1 := mul_le_mul_of_nonneg_right l1 (mul_pos q0' X0).le
    have a2 := mul_pos q0' M0'
    have a3 : 0 ≤ wq * X * (wr * (X : ℝ)) := by positivity
    linarith
  have fin3 : ∀ {a b c B : ℝ}, |a| ≤ 2 * B → |b| ≤ 2 * B → |c| ≤ 2 * B → 3 * B ≤ wq * (L * X + M) → |(a - b + c) / 2| ≤ wq * (L * X + M) ∧ |(a + b - c) / 2| ≤ wq * (L * X + M) ∧
      |(-a + b + c) / 2| ≤ wq * (L * X + M) ∧ |(-a - b - c) / 2| ≤ wq * (L * X + M) := fun {a b c B} ha hb hc hB => by
    obtain ⟨a1, a2⟩ := abs_le.1 ha
    obtain ⟨b1, b2⟩ := abs_le.1 hb
    obtain ⟨c1, c2⟩ := abs_le.1 hc
    refine ⟨?_, ?_, ?_, ?_⟩ <;> rw [abs_le] <;> constructor <;> linarith
  have push : ∀ i, |hillForce body U y i / m| ≤ wv * M := fun i => by
    rw [abs_div]
    have := hillForce_size (body := body) hF hQ (h 3) (h 4) (h 5) (h 6) i
    refine (div_le_div_of_nonneg_right this (abs_nonneg _)).trans (le_trans (le_of_eq ?_) f1)
    ring
  have l2X := mul_le_mul_of_nonneg_right l2 X0.le
  have G0 : 0 ≤ 8 * (wq * X) * (F / |(m : ℝ)|) * wq * X := by positivity
  have vel : ∀ {A B : ℝ}, A ≤ wp * X → B ≤ wv * X → 3 * (N : ℝ) ^ 2 * A + 2 * N * B + wv * M ≤ wv * (L * X + M) := fun {A B} hA hB => by
    have a1 := mul_le_mul_of_nonneg_left hA (by positivity : 0 ≤ 3 * (N : ℝ) ^ 2)
    have a2 := mul_le_mul_of_nonneg_left hB (by positivity : 0 ≤ 2 * (N : ℝ))
    linarith
  have pe : 0 ≤ wp * (X : ℝ) := by positivity
  have ve : 0 ≤ wv * (X : ℝ) := by positivity
  have gyro : ∀ {a u : ℝ} (j k : Fin 13) (i : Fin 3), |a| ≤ κ → |y j| ≤ wr * X → |y k| ≤ wr * X → |u| ≤ J → |a * (y j * y k) + u / I i| ≤ wr * (L * X + M) :=
    fun {a u} j k i ha hj hk hu => by
      have K0 : 0 ≤ (κ : ℝ) := (abs_nonneg _).trans ha
      have h1 : |a * (y j * y k)| ≤ κ * (wr * X * (wr * X)) := by
        rw [abs_mul, abs_mul]
        exact mul_le_mul ha (mul_le_mul hj hk (abs_nonneg _) (by positivity)) (by positivity) K0
      have h2 : |u / (I i : ℝ)| ≤ wr * M := by
        rw [abs_div]
        exact (div_le_div_of_nonneg_right hu (abs_nonneg _)).trans (f2 i)
      have h3 := mul_le_mul_of_nonneg_right l3 (by positivity : 0 ≤ wr * (X : ℝ))
      have h4 : 0 ≤ κ * (wr * X * (wr * (X : ℝ))) := by positivity
      have := abs_add_le (a * (y j * y k)) (u / I i)
      linarith
  have row : ∀ {a b B : ℝ}, |a| ≤ B → b = a → |b| ≤ B := fun h e => e ▸ h
  have pos : ∀ j : Fin 13, |y j| ≤ wv * X → |y j| ≤ wp * (L * X + M) := fun j hj => by
    have := mul_le_mul_of_nonneg_right l0 X0.le
    have := mul_pos p0' M0'
    linarith
  fin_cases i
  · exact pos 7 (h 7)
  · exact pos 8 (h 8)
  · exact pos 9 (h 9)
  · exact row (fin3 (kin 6 10 (h 6) (h 10)) (kin 5 11 (h 5) (h 11)) (kin 4 12 (h 4) (h 12)) kr).1 rfl
  · exact row (fin3 (kin 5 10 (h 5) (h 10)) (kin 6 11 (h 6) (h 11)) (kin 3 12 (h 3) (h 12)) kr).2.1 rfl
  · exact row (fin3 (kin 4 10 (h 4) (h 10)) (kin 3 11 (h 3) (h 11)) (kin 6 12 (h 6) (h 12)) kr).2.2.1 (by
      show (-y 4 * y 10 + y 3 * y 11 + y 6 * y 12) / 2 = _; ring)
  · exact row (fin3 (kin 3 10 (h 3) (h 10)) (kin 4 11 (h 4) (h 11)) (kin 5 12 (h 5) (h 12)) kr).2.2.2 (by
      show (-y 3 * y 10 - y 4 * y 11 - y 5 * y 12) / 2 = _; ring)
  · exact (row (rot_three hn (h 0) (h 8) (push 0)) rfl).trans (vel le_rfl le_rfl)
  · refine (row (rot_three (A := 0) hn (a := 0) (by simp) (by rw [abs_neg]; exact h 7 : |-(y 7)| ≤ wv * X) (push 1)) ?_).trans (vel pe le_rfl)
    show -2 * (n : ℝ) * y 7 + hillForce body U y 1 / m = _
    ring
  · have h2 : |-(1 / 3) * y 2| ≤ wp * X := by
      rw [abs_mul, show |-(1 / 3 : ℝ)| = 1 / 3 by norm_num]
      have : |y 2| ≤ wp * X := h 2
      linarith [abs_nonneg (y 2)]
    refine (row (rot_three (B := 0) hn h2 (b := 0) (by simp) (push 2)) ?_).trans (vel le_rfl ve)
    show -(n : ℝ) ^ 2 * y 2 + hillForce body U y 2 / m = _
    ring
  · exact gyro 11 12 0 (lever_div k0 (hI 0)) (h 11) (h 12) hJ.1
  · exact gyro 10 12 1 (lever_div k1 (hI 1)) (h 10) (h 12) hJ.2.1
  · exact gyro 10 11 2 (lever_div k2 (hI 2)) (h 10) (h 11) hJ.2.2

/-- rational and real derivatives -/
theorem tumbling_cast (m n : ℚ) (I : Fin 3 → ℚ) (body : Bool) (U : Fin 6 → ℚ) (y : Fin 13 → ℚ) (i : Fin 13) :
    ((tumbling m n I body U y i : ℚ) : ℝ) = tumbling (m : ℝ) n (fun i => I i) body (fun j => U j) (fun j => y j) i := by
  cases body <;> fin_cases i <;> simp [tumbling, hillForce, toHill]

end

section
variable {libm : Fmt ℚ} {env : Env (b64Of libm)} {uninit : List Nat → Vec (b64Of libm)} {args : SixDofArgs (b64Of libm)} {e0 e : Entity (b64Of libm)}
  {m n : ℚ} {I vel : Fin 3 → ℚ} {wp wq wv wr N κ L X F J M : ℚ} {accL velL : Fin 3 → Fl (b64Of libm)}

/-- limits of the state -/
def tumbleLo (vel : Fin 3 → ℚ) : Fin 13 → Option ℚ :=
  ![none, none, none, none, none, none, none, none, none, none, some (-vel 0), some (-vel 1), some (-vel 2)]
def tumbleHi (vel : Fin 3 → ℚ) : Fin 13 → Option ℚ :=
  ![none, none, none, none, none, none, none, none, none, none, some (vel 0), some (vel 1), some (vel 2)]

theorem tumble_limits (h : newSixDof env uninit args = .ok e0) (hc : SameConfig e0 e) (hA : AxisLimits args.angAccLimit accL) (hV : AxisLimits args.angVelLimit velL)
    (hvel : ∀ i, Fl.pyMin (velL i) (wheelLimit args args.velLimitWheel i) = .fin (vel i)) :
    ArrIs e.dynamics.stateMin (fun i => loFl (tumbleLo vel i)) ∧ ArrIs e.dynamics.stateMax (fun i => hiFl (tumbleHi vel i)) ∧ e.dynamics.angleWrapCenters = none := by
  obtain ⟨acc, vel', -, hv, k1, k2, k3, -⟩ := sixDof_config hA hV h
  simp only [hvel] at hv
  rw [← hc.2.2.2.2.2] at k1 k2 k3
  simp only [hv] at k1 k2 k3
  exact ⟨.inl k1, .inl k2, k3⟩

/-- the derivative of the spacecraft -/
theorem tumble_dot (h : newSixDof env uninit args = .ok e0) (hc : SameConfig e0 e) (hm : args.m = .fin m) (hn : args.n = .fin n)
    (hI : ∀ i, args.inertiaMatrix i i = .fin (I i)) (hA : AxisLimits args.angAccLimit accL) (hV : AxisLimits args.angVelLimit velL)
    (hvel : ∀ i, Fl.pyMin (velL i) (wheelLimit args args.velLimitWheel i) = .fin (vel i)) (Z : TumbleUnits wp wq wv wr m n I N κ L X F J M) (hLX : L * X + M ≤ 2 ^ 49)
    {y : Fin 13 → ℚ} (hy : ∀ i, |y i| ≤ tumbleW wp wq wv wr i * X) (hv : |y 10| < vel 0 ∧ |y 11| < vel 1 ∧ |y 12| < vel 2) {U : Fin 6 → ℚ} (hF : |U 0| + |U 1| + |U 2| ≤ F)
    (hJ : |U 3| ≤ J ∧ |U 4| ≤ J ∧ |U 5| ≤ J) (t : Fl (b64Of libm)) :
    ∃ v : Fin 13 → ℚ, e.dynamics.computeStateDot t (toFl y) (toFl U) = .ok (toFl v) ∧
      ∀ i, |v i - tumbling m n I args.bodyFrameThrust U y i| ≤ tumbleW wp wq wv wr i * (2⁻¹ ^ 19 * (L * X + M)) := by
  obtain ⟨v, v1, v2⟩ := tumble_raw h hc hm hn hI Z hLX hy hF hJ t
  obtain ⟨k1, k2, -⟩ := tumble_limits h hc hA hV hvel
  obtain ⟨A, B, a0, a1, a2, -, -, -, -, k3, k4⟩ := sixDof_parts64 h
  rw [← hc.2.2.2.2.2] at k3 k4
  simp only at k3 k4
  refine ⟨v, ?_, fun i => (v2 i).trans (le_of_eq (by ring))⟩
  have := computeStateDot_lift (d := e.dynamics) (n := 13) (dlo := fun _ => none) (dhi := fun _ => none) k1 k2 (.inr ⟨_, k3, fun i => rfl⟩) (.inr ⟨_, k4, fun i => rfl⟩) v1
  rw [this]
  congr 2
  funext i
  obtain ⟨b1, b2⟩ := abs_lt.1 hv.1
  obtain ⟨c1, c2⟩ := abs_lt.1 hv.2.1
  obtain ⟨d1, d2⟩ := abs_lt.1 hv.2.2
  have free : ∀ a b : ℚ, klimit none none none none a b = b := fun a b => by simp [klimit, kclip]
  fin_cases i
  · exact free _ _
  · exact free _ _
  · exact free _ _
  · exact free _ _
  · exact free _ _
  · exact free _ _
  · exact free _ _
  · exact free _ _
  · exact free _ _
  · exact free _ _
  · exact klimit_inside b1 b2
  · exact klimit_inside c1 c2
  · exact klimit_inside d1 d2

/-- at the end of a call nothing is changed -/
theorem tumble_finish (h : newSixDof env uninit args = .ok e0) (hc : SameConfig e0 e) (hA : AxisLimits args.angAccLimit accL) (hV : AxisLimits args.angVelLimit velL)
    (hvel : ∀ i, Fl.pyMin (velL i) (wheelLimit args args.velLimitWheel i) = .fin (vel i)) {y : Fin 13 → ℚ} (hv : |y 10| ≤ vel 0 ∧ |y 11| ≤ vel 1 ∧ |y 12| ≤ vel 2) :
    Finished e.dynamics y y := by
  obtain ⟨k1, k2, k3⟩ := tumble_limits h hc hA hV hvel
  refine ⟨toFl y, ?_, ?_⟩
  · rw [npClip_toFl (R := b64Of libm) y k1 k2]
    congr 2
    funext i
    fin_cases i
    · rfl
    · rfl
    · rfl
    · rfl
    · rfl
    · rfl
    · rfl
    · rfl
    · rfl
    · rfl
    · exact clip_inside hv.1
    · exact clip_inside hv.2.1
    · exact clip_inside hv.2.2
  · simp only [Dyn.wrapAngles, k3]

/-- the spacecraft computes the derivative well near an exact motion -/
theorem tumble_shadows (h : newSixDof env uninit args = .ok e0) (hc : SameConfig e0 e) (hm : args.m = .fin m) (hn : args.n = .fin n)
    (hI : ∀ i, args.inertiaMatrix i i = .fin (I i)) (hA : AxisLimits args.angAccLimit accL) (hV : AxisLimits args.angVelLimit velL)
    (hvel : ∀ i, Fl.pyMin (velL i) (wheelLimit args args.velLimitWheel i) = .fin (vel i)) (Z : TumbleUnits wp wq wv wr m n I N κ L X F J M) (hLX : L * X + M ≤ 2 ^ 49)
    {U : Fin 6 → ℚ} (hF : |U 0| + |U 1| + |U 2| ≤ F) (hJ : |U 3| ≤ J ∧ |U 4| ≤ J ∧ |U 5| ≤ J) {φ : ℝ → Fin 13 → ℝ} {T ρ : ℝ}
    (hφ : ∀ t ∈ Set.Icc 0 T, HasDerivWithinAt φ (tumbling (m : ℝ) n (fun i => I i) args.bodyFrameThrust (fun j => U j) (φ t)) (Set.Icc 0 T) t ∧
      (∀ i, |φ t i| + tumbleW wp wq wv wr i * ρ ≤ tumbleW wp wq wv wr i * X) ∧ |φ t 10| + tumbleW wp wq wv wr 10 * ρ < vel 0 ∧
      |φ t 11| + tumbleW wp wq wv wr 11 * ρ < vel 1 ∧ |φ t 12| + tumbleW wp wq wv wr 12 * ρ < vel 2) :
    Shadows (tumbleW wp wq wv wr) e.dynamics U (tumbling (m : ℝ) n (fun i => I i) args.bodyFrameThrust (fun j => U j)) φ L (2⁻¹ ^ 19 * (L * X + M)) ρ (2 * (L * X + M)) X T := by
  have hFR : |(U 0 : ℝ)| + |(U 1 : ℝ)| + |(U 2 : ℝ)| ≤ F := by exact_mod_cast hF
  have hJR : |(U 3 : ℝ)| ≤ J ∧ |(U 4 : ℝ)| ≤ J ∧ |(U 5 : ℝ)| ≤ J := ⟨by exact_mod_cast hJ.1, by exact_mod_cast hJ.2.1, by exact_mod_cast hJ.2.2⟩
  have size : ∀ y, Around (tumbleW wp wq wv wr) φ ρ T y → ∀ i, |y i| ≤ tumbleW wp wq wv wr i * X := fun y ⟨t, ht, hy⟩ i => by
    have := abs_sub_abs_le_abs_sub (y i) (φ t i)
    have := (hφ t ht).2.1 i
    have := hy i
    linarith
  obtain ⟨X1, L0, M0, -⟩ := Z.basic
  have X0 : (0 : ℝ) < X := by exact_mod_cast lt_of_lt_of_le (by positivity) X1
  have L0' : (0 : ℝ) < L := by exact_mod_cast L0
  have M0' : (0 : ℝ) < M := by exact_mod_cast M0
  have S0 : 0 ≤ (L : ℝ) * X + M := by positivity
  refine ⟨fun t ht => (hφ t ht).1, fun t y hy => ?_, fun y z e hy hz he i => tumbling_lip Z hFR (size y hy) (size z hz) he i, fun y hy i => ?_, size⟩
  · have h1 := size _ hy
    obtain ⟨t', ht', hy'⟩ := hy
    have near : ∀ j v, |φ t' j| + tumbleW wp wq wv wr j * ρ < (v : ℚ) → |y j| < v := fun j v hv => by
      have a1 := abs_sub_abs_le_abs_sub (y j : ℝ) (φ t' j)
      have a3 := hy' j
      have : |(y j : ℝ)| < v := by linarith
      exact_mod_cast this
    obtain ⟨-, -, g1, g2, g3⟩ := hφ t' ht'
    obtain ⟨v, v1, v2⟩ := tumble_dot h hc hm hn hI hA hV hvel Z hLX (y := y) (fun i => by exact_mod_cast h1 i) ⟨near 10 _ g1, near 11 _ g2, near 12 _ g3⟩ hF hJ t
    have v2' : ∀ i, |(v i : ℝ) - tumbling (m : ℝ) n (fun i => I i) args.bodyFrameThrust (fun j => U j) (fun j => y j) i| ≤ tumbleW wp wq wv wr i * (2⁻¹ ^ 19 * (L * X + M)) := fun i => by
      rw [← tumbling_cast]
      have := (Rat.cast_le (K := ℝ)).2 (v2 i)
      push_cast at this
      exact this
    refine ⟨v, v1, fun i => ⟨v2' i, ?_⟩⟩
    have b1 := tumbling_size (body := args.bodyFrameThrust) (U := fun j => (U j : ℝ)) Z hFR hJR h1 i
    have b2 := abs_sub_abs_le_abs_sub (v i : ℝ) (tumbling (m : ℝ) n (fun i => I i) args.bodyFrameThrust (fun j => U j) (fun j => y j) i)
    have wi := Z.weights.cast_pos i
    have b3 : (2⁻¹ : ℝ) ^ 19 * (L * X + M) ≤ L * X + M := mul_le_of_le_one_left S0 (by norm_num)
    have b4 := mul_le_mul_of_nonneg_left b3 wi.le
    have : |(v i : ℝ)| ≤ tumbleW wp wq wv wr i * (2 * (L * X + M)) := by linarith [v2' i]
    exact_mod_cast this
  · refine (tumbling_size (body := args.bodyFrameThrust) (U := fun j => (U j : ℝ)) Z hFR hJR (size y hy) i).trans ?_
    push_cast
    exact mul_le_mul_of_nonneg_left (by linarith) (Z.weights.cast_pos i).le

/-- a history -/
theorem Spec.TumbleFollows.upTo (h : newSixDof env uninit args = .ok e0) (hc : SameConfig e0 e) (hm : args.m = .fin m) (hn : args.n = .fin n)
    (hI : ∀ i, args.inertiaMatrix i i = .fin (I i)) (hA : AxisLimits args.angAccLimit accL) (hV : AxisLimits args.angVelLimit velL)
    (hvel : ∀ i, Fl.pyMin (velL i) (wheelLimit args args.velLimitWheel i) = .fin (vel i)) (Z : TumbleUnits wp wq wv wr m n I N κ L X F J M) (hLX : L * X + M ≤ 2 ^ 49) {ρ : ℝ} :
    ∀ {hist : List (ℚ × Action (b64Of libm))} {y z : Fin 13 → ℝ}, TumbleFollows env e (tumbleW wp wq wv wr) m n I args.bodyFrameThrust vel ρ X F J hist y z →
      FollowsUpTo env e (tumbleW wp wq wv wr) (fun U : Fin 6 → ℚ => tumbling (m : ℝ) n (fun i => I i) args.bodyFrameThrust (fun j => U j)) L (2⁻¹ ^ 19 * (L * X + M)) ρ 0
        (2 * (L * X + M)) X (fun z' => z' = z) hist y
  | [], y, z, hF => by
    have : z = y := hF
    exact this.symm
  | (T, a) :: hist, y, z, hF => by
    obtain ⟨hT, U, φ, hU, h1, h2, h3, h4, h5⟩ := hF
    refine ⟨hT, U, φ, hU, tumble_shadows h hc hm hn hI hA hV hvel Z hLX h1 h2 h3, h4, fun y1 hy1 => ⟨y1, φ T, ?_, fun E _ hE i => by rw [add_zero]; exact hE i,
      h5.upTo h hc hm hn hI hA hV hvel Z hLX⟩⟩
    have hTR : (0 : ℝ) ≤ T := by exact_mod_cast hT
    obtain ⟨-, -, g1, g2, g3⟩ := h3 T ⟨hTR, le_rfl⟩
    have near : ∀ j v, |φ T j| + tumbleW wp wq wv wr j * ρ < (v : ℚ) → |y1 j| ≤ v := fun j v hv => by
      have a1 := abs_sub_abs_le_abs_sub (y1 j : ℝ) (φ T j)
      have a3 := hy1 j
      have : |(y1 j : ℝ)| ≤ v := by linarith
      exact_mod_cast this
    exact tumble_finish h hc hA hV hvel ⟨near 10 _ g1, near 11 _ g2, near 12 _ g3⟩

theorem Spec.TumbleFollows.nonneg {w : Fin 13 → ℚ} {body : Bool} {ρ : ℝ} : ∀ {hist : List (ℚ × Action (b64Of libm))} {y z : Fin 13 → ℝ},
    TumbleFollows env e w m n I body vel ρ X F J hist y z → ∀ h ∈ hist, 0 ≤ h.1
  | [], _, _, _, h, hh => by simp at hh
  | (T, a) :: hist, y, z, hF, h, hh => by
    obtain ⟨hT, U, φ, -, -, -, -, -, h5⟩ := hF
    rcases List.mem_cons.1 hh with rfl | hh
    · exact hT
    · exact h5.nonneg h hh

end
end SAD
