import Verif.Lemmas.Approx
import Verif.Lemmas.UserRun
import Verif.Props.Single
import Verif.Props.SixDof
import Verif.Spec.Tumbling

/-! # The spacecraft with six degrees of freedom in double precision -/

set_option linter.unusedSectionVars false

namespace SAD
open Spec

section
variable {libm : Fmt ℚ}

/-- the quaternion product in double precision -/
theorem app_hamilton {p q c d : ℕ} {r s : Fin 4 → Fl (b64Of libm)} {x y : Fin 4 → ℚ} {a b : ℚ} (hr : ∀ i, App p c (r i) (x i) a) (hs : ∀ i, App q d (s i) (y i) b)
    (hpq : p + q ≤ 900) (hc : c ≤ 2 ^ 10) (hd : d ≤ 2 ^ 10) : ∃ z0 z1 z2 z3 : Fl (b64Of libm),
      hamiltonProduct [r 0, r 1, r 2, r 3] [s 0, s 1, s 2, s 3] = .ok [z0, z1, z2, z3] ∧
      App (p + q + 3) (c + d + 4) z0 (x 0 * y 0 - x 1 * y 1 - x 2 * y 2 - x 3 * y 3) (4 * (a * b)) ∧
      App (p + q + 3) (c + d + 4) z1 (x 0 * y 1 + x 1 * y 0 + x 2 * y 3 - x 3 * y 2) (4 * (a * b)) ∧
      App (p + q + 3) (c + d + 4) z2 (x 0 * y 2 - x 1 * y 3 + x 2 * y 0 + x 3 * y 1) (4 * (a * b)) ∧
      App (p + q + 3) (c + d + 4) z3 (x 0 * y 3 + x 1 * y 2 - x 2 * y 1 + x 3 * y 0) (4 * (a * b)) := by
  have m : ∀ i j, App (p + q) (c + d + 1) (r i * s j) (x i * y j) (a * b) := fun i j => (hr i).mul (hs j) (by omega) (by omega) (by omega)
  have m' : ∀ i j, App (p + q + 1) (c + d + 2) (r i * s j) (x i * y j) (a * b) := fun i j => (m i j).more (by omega) (by omega)
  have m'' : ∀ i j, App (p + q + 2) (c + d + 3) (r i * s j) (x i * y j) (a * b) := fun i j => (m i j).more (by omega) (by omega)
  have e : 4 * (a * b) = a * b + a * b + a * b + a * b := by ring
  rw [e]
  refine ⟨_, _, _, _, rfl, ?_, ?_, ?_, ?_⟩
  · exact (((m 0 0).sub (m 1 1) (by omega) (by omega)).sub (m' 2 2) (by omega) (by omega)).sub (m'' 3 3) (by omega) (by omega)
  · exact (((m 0 1).add (m 1 0) (by omega) (by omega)).add (m' 2 3) (by omega) (by omega)).sub (m'' 3 2) (by omega) (by omega)
  · exact (((m 0 2).sub (m 1 3) (by omega) (by omega)).add (m' 2 0) (by omega) (by omega)).add (m'' 3 1) (by omega) (by omega)
  · exact (((m 0 3).add (m 1 2) (by omega) (by omega)).sub (m' 2 1) (by omega) (by omega)).add (m'' 3 0) (by omega) (by omega)

/-- rotating a vector of length at most 1 in double precision -/
theorem app_applyQuat {u q : Fin 3 → ℚ} {s Q : ℚ} (hu : ∀ i, |u i| ≤ 1) (hq : ∀ i, |q i| ≤ Q) (hs : |s| ≤ Q) (hQ : 1 ≤ Q) (hQ2 : Q ≤ 2 ^ 30) : ∃ z0 z1 z2 : Fl (b64Of libm),
    applyQuat [.fin (u 0), .fin (u 1), .fin (u 2)] [.fin (q 0), .fin (q 1), .fin (q 2), .fin s] = .ok [z0, z1, z2] ∧
      App 100 10 z0 (toHill ![q 0, q 1, q 2, s] u 0) (16 * Q ^ 2) ∧ App 100 10 z1 (toHill ![q 0, q 1, q 2, s] u 1) (16 * Q ^ 2) ∧
      App 100 10 z2 (toHill ![q 0, q 1, q 2, s] u 2) (16 * Q ^ 2) := by
  have fl : ∀ x : ℚ, |x| ≤ Q → App 30 0 (.fin x : Fl (b64Of libm)) x Q := fun x hx => app_fin hx (le_trans (by norm_num) hQ) hQ2
  have one : ∀ x : ℚ, |x| ≤ 1 → App 0 0 (.fin x : Fl (b64Of libm)) x 1 := fun x hx => app_fin hx (by norm_num) (by norm_num)
  obtain ⟨a0, a1, a2, a3, ha, b0, b1, b2, b3⟩ := app_hamilton (r := ![.fin s, .fin (q 0), .fin (q 1), .fin (q 2)]) (s := ![0, .fin (u 0), .fin (u 1), .fin (u 2)])
    (x := ![s, q 0, q 1, q 2]) (y := ![0, u 0, u 1, u 2]) (p := 30) (q := 0) (c := 0) (d := 0) (a := Q) (b := 1) (libm := libm) (by
      intro i
      fin_cases i
      · exact fl _ hs
      · exact fl _ (hq 0)
      · exact fl _ (hq 1)
      · exact fl _ (hq 2)) (by
      intro i
      fin_cases i
      · exact app_zero (by norm_num) (by norm_num)
      · exact one _ (hu 0)
      · exact one _ (hu 1)
      · exact one _ (hu 2)) (by omega) (by omega) (by omega)
  obtain ⟨c0, c1, c2, c3, hc, d0, d1, d2, d3⟩ := app_hamilton (r := ![a0, a1, a2, a3]) (s := ![.fin s, .fin (-q 0), .fin (-q 1), .fin (-q 2)])
    (y := ![s, -q 0, -q 1, -q 2]) (x := ![_, _, _, _]) (p := 33) (q := 30) (c := 4) (d := 0) (a := 4 * (Q * 1)) (b := Q) (libm := libm) (by
      intro i
      fin_cases i
      · exact b0
      · exact b1
      · exact b2
      · exact b3) (by
      intro i
      fin_cases i
      · exact fl _ hs
      · exact fl _ (by rw [abs_neg]; exact hq 0)
      · exact fl _ (by rw [abs_neg]; exact hq 1)
      · exact fl _ (by rw [abs_neg]; exact hq 2)) (by omega) (by omega) (by omega)
  have e1 : 4 * (4 * (Q * 1) * Q) = 16 * Q ^ 2 := by ring
  rw [e1] at d1 d2 d3
  simp only [Matrix.cons_val] at ha hc d1 d2 d3
  refine ⟨c1, c2, c3, ?_, ?_, ?_, ?_⟩
  · simp only [applyQuat, bind, Except.bind, pure, Except.pure, ha]
    rw [show (-(.fin (q 0)) : Fl (b64Of libm)) = .fin (-q 0) from rfl, show (-(.fin (q 1)) : Fl (b64Of libm)) = .fin (-q 1) from rfl,
      show (-(.fin (q 2)) : Fl (b64Of libm)) = .fin (-q 2) from rfl, hc]
    rfl
  · convert d1.more (q := 100) (d := 10) (by omega) (by omega) using 1
    simp only [toHill, Matrix.cons_val]
    ring
  · convert d2.more (q := 100) (d := 10) (by omega) (by omega) using 1
    simp only [toHill, Matrix.cons_val]
    ring
  · convert d3.more (q := 100) (d := 10) (by omega) (by omega) using 1
    simp only [toHill, Matrix.cons_val]
    ring

/-- sizes -/
theorem Spec.TumbleUnits.basic {wp wq wv wr m n : ℚ} {I : Fin 3 → ℚ} {N κ L X F J M : ℚ} (Z : TumbleUnits wp wq wv wr m n I N κ L X F J M) :
    2⁻¹ ^ 50 ≤ X ∧ 0 < L ∧ 0 < M ∧ (0 < wp ∧ 0 < wq ∧ 0 < wv ∧ 0 < wr) := by
  have h : ∀ i, 0 < tumbleW wp wq wv wr i := Z.weights.pos
  have p0 : 0 < wp := h 0
  have q0 : 0 < wq := h 3
  have v0 : 0 < wv := h 7
  have r0 : 0 < wr := h 10
  have q1 : wq ≤ 2 ^ 50 := (Z.weights 3).2
  have hX : 2⁻¹ ^ 50 ≤ X := by
    by_contra h'
    push Not at h'
    have e1 : wq * X < wq * 2⁻¹ ^ 50 := mul_lt_mul_of_pos_left h' q0
    have e2 : wq * 2⁻¹ ^ 50 ≤ 2 ^ 50 * 2⁻¹ ^ 50 := by gcongr
    have e3 : (2 : ℚ) ^ 50 * 2⁻¹ ^ 50 = 1 := by norm_num
    linarith [Z.size.1]
  have X0 : 0 < X := lt_of_lt_of_le (by positivity) hX
  refine ⟨hX, ?_, ?_, p0, q0, v0, r0⟩
  · exact lt_of_lt_of_le (by positivity) Z.lip.2.1
  · exact pos_of_mul_pos_right (lt_of_lt_of_le (by positivity) Z.tiny.1) p0.le

theorem toHill_linear (q : Fin 4 → ℚ) (f : Fin 3 → ℚ) (i : Fin 3) : toHill q f i = toHill q ![1, 0, 0] i * f 0 + toHill q ![0, 1, 0] i * f 1 + toHill q ![0, 0, 1] i * f 2 := by
  fin_cases i <;> simp [toHill]

/-- a scalar product with three approximate numbers, and zeros -/
theorem app_thrust {m : ℚ} (hm : m ≠ 0) (hm1 : |m| ≤ 2 ^ 30) (hm2 : |m⁻¹| ≤ 2 ^ 30) {Q F : ℚ} {U : Fin 3 → ℚ} (hU : ∀ i, |U i| ≤ F) (hF : 2⁻¹ ^ 50 ≤ F) (hF2 : F ≤ 2 ^ 50)
    {a b c : Fl (b64Of libm)} {x y z : ℚ} (ha : App 100 10 a x (16 * Q ^ 2)) (hb : App 100 10 b y (16 * Q ^ 2)) (hc : App 100 10 c z (16 * Q ^ 2)) :
    App 190 30 (0 + 1 / .fin m * a * .fin (U 0) + 1 / .fin m * b * .fin (U 1) + 1 / .fin m * c * .fin (U 2) + 0 + 0 + 0 : Fl (b64Of libm)) ((x * U 0 + y * U 1 + z * U 2) / m)
      (48 * Q ^ 2 * (F / |m|)) := by
  have m0 : 0 < |m| := abs_pos.2 hm
  have hk : App 31 1 (1 / .fin m : Fl (b64Of libm)) (1 / m) |m⁻¹| := by
    rw [Fl.one_fin]
    refine app_div hm (by norm_num) ?_ (hm2.trans (by norm_num)) (by rw [one_div])
    rw [abs_inv, le_inv_comm₀ (by positivity) m0]
    exact hm1.trans (by norm_num)
  have hu : ∀ i, App 50 0 (.fin (U i) : Fl (b64Of libm)) (U i) F := fun i => app_fin (hU i) hF hF2
  have h1 := ((hk.mul ha (by norm_num) (by norm_num) (by norm_num)).mul (hu 0) (by norm_num) (by norm_num) (by norm_num)).zeroAdd (by norm_num) (by norm_num)
  have h2 := ((hk.mul hb (by norm_num) (by norm_num) (by norm_num)).mul (hu 1) (by norm_num) (by norm_num) (by norm_num))
  have h3 := ((hk.mul hc (by norm_num) (by norm_num) (by norm_num)).mul (hu 2) (by norm_num) (by norm_num) (by norm_num))
  have h4 := (h1.add (h2.more le_rfl (by norm_num)) (by norm_num) (by norm_num)).add (h3.more (by norm_num) (by norm_num)) (by norm_num) (by norm_num)
  have h5 := ((h4.addZero (by norm_num) (by norm_num)).addZero (by norm_num) (by norm_num)).addZero (by norm_num) (by norm_num)
  convert h5.more (q := 190) (d := 30) (by norm_num) (by norm_num) using 1
  · ring
  · rw [abs_inv]
    ring

/-- the same for a thrust in Hill's frame -/
theorem app_push {m : ℚ} (hm : m ≠ 0) (hm1 : |m| ≤ 2 ^ 30) (hm2 : |m⁻¹| ≤ 2 ^ 30) {u F : ℚ} (hU : |u| ≤ F) (hF : 2⁻¹ ^ 50 ≤ F) (hF2 : F ≤ 2 ^ 50) :
    App 81 3 (0 + 1 / .fin m * .fin u : Fl (b64Of libm)) (u / m) (F / |m|) := by
  have m0 : 0 < |m| := abs_pos.2 hm
  have hk : App 31 1 (1 / .fin m : Fl (b64Of libm)) (1 / m) |m⁻¹| := by
    rw [Fl.one_fin]
    refine app_div hm (by norm_num) ?_ (hm2.trans (by norm_num)) (by rw [one_div])
    rw [abs_inv, le_inv_comm₀ (by positivity) m0]
    exact hm1.trans (by norm_num)
  have h1 := (hk.mul (app_fin hU hF hF2) (by norm_num) (by norm_num) (by norm_num)).zeroAdd (by norm_num) (by norm_num)
  convert h1 using 1
  · ring
  · rw [abs_inv]
    ring

/-- the computed derivative, before limits; the thrust apart -/
theorem tumble_rhs {env : Env (b64Of libm)} {uninit : List Nat → Vec (b64Of libm)} {args : SixDofArgs (b64Of libm)} {e0 e : Entity (b64Of libm)}
    (h : newSixDof env uninit args = .ok e0) (hc : SameConfig e0 e) {m n : ℚ} {I : Fin 3 → ℚ} (hm : args.m = .fin m) (hn : args.n = .fin n)
    (hI : ∀ i, args.inertiaMatrix i i = .fin (I i)) {wp wq wv wr N κ L X F J M : ℚ} (Z : TumbleUnits wp wq wv wr m n I N κ L X F J M)
    {y : Fin 13 → ℚ} (hy : ∀ i, |y i| ≤ tumbleW wp wq wv wr i * X) {U : Fin 6 → ℚ} (hF : |U 0| + |U 1| + |U 2| ≤ F) (t : Fl (b64Of libm)) :
    ∃ T0 T1 T2 : Fl (b64Of libm), e.dynamics.rhs t (toFl y) (toFl U) = .ok [
        (0 + 1 * Fl.fin (y 7) + 0 + 0).cast32 + 0, (0 + 1 * Fl.fin (y 8) + 0).cast32 + 0, (0 + 1 * Fl.fin (y 9)).cast32 + 0,
        (0.5 * (Fl.fin (y 6) * Fl.fin (y 10) - Fl.fin (y 5) * Fl.fin (y 11) + Fl.fin (y 4) * Fl.fin (y 12))).cast32 + 0,
        (0.5 * (Fl.fin (y 5) * Fl.fin (y 10) + Fl.fin (y 6) * Fl.fin (y 11) - Fl.fin (y 3) * Fl.fin (y 12))).cast32 + 0,
        (0.5 * (-Fl.fin (y 4) * Fl.fin (y 10) + Fl.fin (y 3) * Fl.fin (y 11) + Fl.fin (y 6) * Fl.fin (y 12))).cast32 + 0,
        (0.5 * (-Fl.fin (y 3) * Fl.fin (y 10) - Fl.fin (y 4) * Fl.fin (y 11) - Fl.fin (y 5) * Fl.fin (y 12))).cast32 + 0,
        (0 + 3 * (Fl.fin n * Fl.fin n) * Fl.fin (y 0) + 0 + 0 + 0 + 2 * Fl.fin n * Fl.fin (y 8) + 0).cast32 + T0,
        (0 + -2 * Fl.fin n * Fl.fin (y 7) + 0 + 0).cast32 + T1,
        (0 + -(Fl.fin n * Fl.fin n) * Fl.fin (y 2) + 0 + 0 + 0).cast32 + T2,
        (1 / Fl.fin (I 0) * ((Fl.fin (I 1) - Fl.fin (I 2)) * Fl.fin (y 11) * Fl.fin (y 12))).cast32 + (0 + 1 / Fl.fin (I 0) * Fl.fin (U 3) + 0 + 0),
        (1 / Fl.fin (I 1) * ((Fl.fin (I 2) - Fl.fin (I 0)) * Fl.fin (y 10) * Fl.fin (y 12))).cast32 + (0 + 1 / Fl.fin (I 1) * Fl.fin (U 4) + 0),
        (1 / Fl.fin (I 2) * ((Fl.fin (I 0) - Fl.fin (I 1)) * Fl.fin (y 10) * Fl.fin (y 11))).cast32 + (0 + 1 / Fl.fin (I 2) * Fl.fin (U 5))] ∧
      App 190 30 T0 (hillForce args.bodyFrameThrust U y 0 / m) (48 * (wq * X) ^ 2 * (F / |m|)) ∧
      App 190 30 T1 (hillForce args.bodyFrameThrust U y 1 / m) (48 * (wq * X) ^ 2 * (F / |m|)) ∧
      App 190 30 T2 (hillForce args.bodyFrameThrust U y 2 / m) (48 * (wq * X) ^ 2 * (F / |m|)) := by
  obtain ⟨Q, hQ⟩ : ∃ Q, Q = wq * X := ⟨_, rfl⟩
  rw [← hQ]
  have Q1 : 1 ≤ Q := hQ ▸ Z.size.1
  have Q2 : Q ≤ 2 ^ 30 := hQ ▸ Z.size.2.2.1
  have y3 : |y 3| ≤ Q := hQ ▸ hy 3
  have y4 : |y 4| ≤ Q := hQ ▸ hy 4
  have y5 : |y 5| ≤ Q := hQ ▸ hy 5
  have y6 : |y 6| ≤ Q := hQ ▸ hy 6
  obtain ⟨F1, F2⟩ := Z.range F (by simp)
  have F2' : F ≤ 2 ^ 50 := F2.trans (by norm_num)
  obtain ⟨m0, m1, m2⟩ := Z.mass
  have hU : ∀ i : Fin 3, |(![U 0, U 1, U 2] : Fin 3 → ℚ) i| ≤ F := by
    have a0 := abs_nonneg (U 0)
    have a1 := abs_nonneg (U 1)
    have a2 := abs_nonneg (U 2)
    intro i
    fin_cases i <;> simp only [Fin.zero_eta, Fin.mk_one, Fin.reduceFinMk, Matrix.cons_val] <;> linarith
  obtain ⟨A, B, v0, v1, v2, hAB, g1, -⟩ := sixDof_parts64 h
  rw [← hc.2.2.2.2.2] at g1
  simp only at g1
  unfold generateCwhMatrices at hAB
  simp only [show ("3d" = "2d") = False from by simp, if_true, if_false] at hAB
  obtain ⟨k, hk, hAB⟩ := Except.bind_ok.1 hAB
  cases hAB
  have hk' : k = 1 / .fin m := by
    rw [hm] at hk
    unfold pyDiv at hk
    split at hk
    · cases hk
    · cases hk; rfl
  have hq : ∀ i : Fin 3, |(![y 3, y 4, y 5] : Fin 3 → ℚ) i| ≤ Q := by
    intro i
    fin_cases i
    · exact y3
    · exact y4
    · exact y5
  obtain ⟨a0, a1, a2, hq1, p0, p1, p2⟩ := app_applyQuat (libm := libm) (u := ![1, 0, 0]) (q := ![y 3, y 4, y 5]) (s := y 6) (by intro i; fin_cases i <;> simp) hq y6 Q1 Q2
  obtain ⟨b0, b1, b2, hq2, q0, q1, q2⟩ := app_applyQuat (libm := libm) (u := ![0, 1, 0]) (q := ![y 3, y 4, y 5]) (s := y 6) (by intro i; fin_cases i <;> simp) hq y6 Q1 Q2
  obtain ⟨c0, c1, c2, hq3, r0, r1, r2⟩ := app_applyQuat (libm := libm) (u := ![0, 0, 1]) (q := ![y 3, y 4, y 5]) (s := y 6) (by intro i; fin_cases i <;> simp) hq y6 Q1 Q2
  simp only [Matrix.cons_val, ← Fl.one_fin, ← Fl.zero_fin] at hq1 hq2 hq3 p0 p1 p2 q0 q1 q2 r0 r1 r2
  rw [g1, toFl_13, toFl_6]
  cases args.bodyFrameThrust
  · simp only [affineRhs, sixDofF, sixDofG, vscale, matVec, dot, bind, Except.bind, pure, Except.pure, vadd, bcast2, List.length_cons,
        List.length_nil, List.map_cons, List.map_nil, List.zipWith_cons_cons, List.zipWith_nil_left, List.foldl_cons, List.foldl_nil,
        List.drop, List.take, List.replicate, List.cons_append, List.nil_append, if_true, if_false, Bool.false_eq_true,
        b64_zero_mul, b64_zero_add_zero, hn, hI, hk']
    have z : ∀ {c : ℕ} {z : Fl (b64Of libm)} {x : ℚ}, App 81 c z x (F / |m|) → c ≤ 30 → App 190 30 z x (48 * Q ^ 2 * (F / |m|)) := fun {c z x} h h30 => by
      have hp := h.pos
      refine h.mono (by norm_num) h30 ?_ ?_
      · have : 1 ≤ 48 * Q ^ 2 := by nlinarith
        nlinarith
      · have e1 : F / |m| ≤ 2 ^ 81 := h.2.1
        have e2 : Q ^ 2 ≤ (2 ^ 30) ^ 2 := by gcongr
        calc 48 * Q ^ 2 * (F / |m|) ≤ 48 * (2 ^ 30) ^ 2 * 2 ^ 81 := by gcongr
          _ ≤ _ := by norm_num
    have hT := fun i => app_push (libm := libm) m0 m1 m2 (hU i) F1 F2'
    refine ⟨_, _, _, rfl, ?_, ?_, ?_⟩
    · exact z ((((((hT 0).addZero (by norm_num) (by norm_num)).addZero (by norm_num) (by norm_num)).addZero (by norm_num) (by norm_num)).addZero (by norm_num) (by norm_num)).addZero
        (by norm_num) (by norm_num)) (by norm_num)
    · exact z (((((hT 1).addZero (by norm_num) (by norm_num)).addZero (by norm_num) (by norm_num)).addZero (by norm_num) (by norm_num)).addZero (by norm_num) (by norm_num)) (by norm_num)
    · exact z ((((hT 2).addZero (by norm_num) (by norm_num)).addZero (by norm_num) (by norm_num)).addZero (by norm_num) (by norm_num)) (by norm_num)
  · simp only [affineRhs, sixDofF, sixDofG, vscale, matVec, dot, bind, Except.bind, pure, Except.pure, hk, vadd, bcast2, List.length_cons,
        List.length_nil, List.map_cons, List.map_nil, List.zipWith_cons_cons, List.zipWith_nil_left, List.foldl_cons, List.foldl_nil,
        List.drop, List.take, List.replicate, List.cons_append, List.nil_append, if_true, if_false, Bool.false_eq_true,
        b64_zero_mul, b64_zero_add_zero, hn, hI, hk', hq1, hq2, hq3]
    have e : ∀ i, hillForce true U y i = toHill ![y 3, y 4, y 5, y 6] ![1, 0, 0] i * U 0 + toHill ![y 3, y 4, y 5, y 6] ![0, 1, 0] i * U 1 +
        toHill ![y 3, y 4, y 5, y 6] ![0, 0, 1] i * U 2 := fun i => by
      show toHill ![y 3, y 4, y 5, y 6] ![U 0, U 1, U 2] i = _
      rw [toHill_linear]
      simp only [Matrix.cons_val]
    refine ⟨_, _, _, rfl, ?_, ?_, ?_⟩
    · rw [e]
      exact app_thrust m0 m1 m2 hU F1 F2' p0 q0 r0
    · rw [e]
      exact app_thrust m0 m1 m2 hU F1 F2' p1 q1 r1
    · rw [e]
      exact app_thrust m0 m1 m2 hU F1 F2' p2 q2 r2

end
end SAD
