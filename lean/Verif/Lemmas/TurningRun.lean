import Verif.Spec.Turning
import Verif.Lemmas.RoundTurning
import Verif.Lemmas.UserRun
import Verif.Props.DubinsPrecision

/-! # The planar rotating spacecraft in double precision, call by call -/

set_option linter.unusedSectionVars false

namespace SAD
open Spec

section
variable {w : Fin 6 → ℚ} {m n I L X F J M acc : ℚ}

/-- the derivative does not depend on whole turns -/
theorem turning_shift (m n I acc : ℝ) (U : Fin 3 → ℝ) (y : Fin 6 → ℝ) (k : ℤ) :
    turning m n I acc U (fun i => y i - if i = 2 then 2 * Real.pi * k else 0) = turning m n I acc U y := by
  have h1 : Real.cos (y 2 - 2 * Real.pi * k) = Real.cos (y 2) := by
    rw [mul_comm (2 * Real.pi), Real.cos_sub_int_mul_two_pi]
  have h2 : Real.sin (y 2 - 2 * Real.pi * k) = Real.sin (y 2) := by
    rw [mul_comm (2 * Real.pi), Real.sin_sub_int_mul_two_pi]
  funext i
  fin_cases i <;> simp [turning, h1, h2]

theorem turning_3 (m n I acc : ℝ) (U : Fin 3 → ℝ) (y : Fin 6 → ℝ) : turning m n I acc U y 3 =
    3 * n ^ 2 * y 0 + 2 * n * y 4 + (Real.cos (y 2) * U 0 - Real.sin (y 2) * U 1) / m := rfl

theorem turning_4 (m n I acc : ℝ) (U : Fin 3 → ℝ) (y : Fin 6 → ℝ) : turning m n I acc U y 4 =
    -2 * n * y 3 + (Real.sin (y 2) * U 0 + Real.cos (y 2) * U 1) / m := rfl

theorem turn_push {F m c s u v : ℝ} (hF : |u| + |v| ≤ F) {q : ℝ} (q0 : 0 ≤ q) (hc : |c| ≤ q) (hs : |s| ≤ q) : |(c * u + s * v) / m| ≤ F / |m| * q := by
  rw [abs_div, div_mul_eq_mul_div]
  refine div_le_div_of_nonneg_right ?_ (abs_nonneg _)
  refine (abs_add_le _ _).trans ?_
  rw [abs_mul, abs_mul]
  have a1 := mul_le_mul_of_nonneg_right hc (abs_nonneg u)
  have a2 := mul_le_mul_of_nonneg_right hs (abs_nonneg v)
  have a3 := mul_le_mul_of_nonneg_right hF q0
  linarith

theorem turn_three {n a b t A B T : ℝ} (ha : |a| ≤ A) (hb : |b| ≤ B) (ht : |t| ≤ T) : |3 * n ^ 2 * a + 2 * n * b + t| ≤ 3 * n ^ 2 * A + 2 * |n| * B + T := by
  refine (abs_add_le _ _).trans (add_le_add ((abs_add_le _ _).trans (add_le_add ?_ ?_)) ht)
  · rw [abs_mul, abs_of_nonneg (by positivity : 0 ≤ 3 * n ^ 2)]
    exact mul_le_mul_of_nonneg_left ha (by positivity)
  · rw [abs_mul, abs_mul, abs_two]
    exact mul_le_mul_of_nonneg_left hb (by positivity)

/-- sizes over the reals -/
theorem Spec.TurnUnits.real (Z : TurnUnits w m n I L X F J M) : ((w 3 : ℝ) ≤ L * w 0 ∧ (w 4 : ℝ) ≤ L * w 1 ∧ (w 5 : ℝ) ≤ L * w 2 ∧
    3 * (n : ℝ) ^ 2 * w 0 + 2 * |(n : ℝ)| * w 4 + F / |(m : ℝ)| * w 2 ≤ L * w 3 ∧ 2 * |(n : ℝ)| * w 3 + F / |(m : ℝ)| * w 2 ≤ L * w 4) ∧
    ((F : ℝ) / |(m : ℝ)| ≤ w 3 * M ∧ (F : ℝ) / |(m : ℝ)| ≤ w 4 * M ∧ (J : ℝ) / |(I : ℝ)| ≤ w 5 * M) := by
  obtain ⟨l0, l1, l2, l3, l4⟩ := Z.lip
  obtain ⟨p3, p4, p5⟩ := Z.push
  exact ⟨⟨by exact_mod_cast l0, by exact_mod_cast l1, by exact_mod_cast l2, by exact_mod_cast l3, by exact_mod_cast l4⟩, by exact_mod_cast p3, by exact_mod_cast p4,
    by exact_mod_cast p5⟩

/-- the derivative is Lipschitz -/
theorem turning_lip (Z : TurnUnits w m n I L X F J M) {U : Fin 3 → ℝ} (hF : |U 0| + |U 1| ≤ F) {y z : Fin 6 → ℝ} {e : ℝ} (h : ∀ i, |y i - z i| ≤ w i * e) (i : Fin 6) :
    |turning m n I acc U y i - turning m n I acc U z i| ≤ w i * (L * e) := by
  obtain ⟨⟨l0, l1, l2, l3, l4⟩, -⟩ := Z.real
  have wp := Z.weights.cast_pos
  have e0 : 0 ≤ e := by
    by_contra h'
    have := (abs_nonneg _).trans (h 0)
    nlinarith [wp 0]
  have L0 : (0 : ℝ) ≤ L := by
    by_contra h'
    nlinarith [wp 3, wp 0]
  have row : ∀ {a b : ℝ} {j : Fin 6}, (w j : ℝ) ≤ L * a → |y j - z j| ≤ a * (L * e) := fun {a b j} hl =>
    (h j).trans (by have := mul_le_mul_of_nonneg_right hl e0; linarith)
  have c2 : |Real.cos (y 2) - Real.cos (z 2)| ≤ w 2 * e := (Real.abs_cos_sub_cos_le _ _).trans (h 2)
  have s2 : |Real.sin (y 2) - Real.sin (z 2)| ≤ w 2 * e := (Real.abs_sin_sub_sin_le _ _).trans (h 2)
  have s2' : |-Real.sin (y 2) - -Real.sin (z 2)| ≤ w 2 * e := by rw [← abs_neg]; convert s2 using 2; ring
  have w2e : 0 ≤ (w 2 : ℝ) * e := mul_nonneg (wp 2).le e0
  fin_cases i
  · exact row (b := 0) l0
  · exact row (b := 0) l1
  · exact row (b := 0) l2
  · have k1 := turn_three (n := (n : ℝ)) (h 0) (h 4) (turn_push (m := (m : ℝ)) hF w2e c2 s2')
    have k2 := mul_le_mul_of_nonneg_right l3 e0
    refine le_trans (le_of_eq ?_) (k1.trans (le_trans (le_of_eq ?_) (k2.trans (le_of_eq ?_))))
    · show |turning _ _ _ _ _ _ 3 - turning _ _ _ _ _ _ 3| = _
      rw [turning_3, turning_3]
      congr 1
      ring
    · ring
    · show _ = (w 3 : ℝ) * (L * e); ring
  · have k1 := turn_three (n := (n : ℝ)) (a := 0) (A := 0) (by simp) (by rw [abs_neg]; exact h 3 : |-(y 3 - z 3)| ≤ w 3 * e) (turn_push (m := (m : ℝ)) hF w2e s2 c2)
    have k2 := mul_le_mul_of_nonneg_right l4 e0
    refine le_trans (le_of_eq ?_) (k1.trans (le_trans (le_of_eq ?_) (k2.trans (le_of_eq ?_))))
    · show |turning _ _ _ _ _ _ 4 - turning _ _ _ _ _ _ 4| = _
      rw [turning_4, turning_4]
      congr 1
      ring
    · ring
    · show _ = (w 4 : ℝ) * (L * e); ring
  · show |min (max (U 2 / (I : ℝ)) (-(acc : ℝ))) acc - min (max (U 2 / (I : ℝ)) (-(acc : ℝ))) acc| ≤ _
    rw [sub_self, abs_zero]
    exact mul_nonneg (wp 5).le (mul_nonneg L0 e0)

/-- and not large -/
theorem turning_size (Z : TurnUnits w m n I L X F J M) (hacc : 0 ≤ acc) {U : Fin 3 → ℝ} (hF : |U 0| + |U 1| ≤ F) (hJ : |U 2| ≤ J) {y : Fin 6 → ℝ} (h : ∀ i, |y i| ≤ w i * X)
    (i : Fin 6) : |turning m n I acc U y i| ≤ w i * (L * X + M) := by
  obtain ⟨⟨l0, l1, l2, l3, l4⟩, p3, p4, p5⟩ := Z.real
  have wp := Z.weights.cast_pos
  have X0 : (0 : ℝ) ≤ X := by exact_mod_cast Z.size.1
  have L0 : (0 : ℝ) ≤ L := by
    by_contra h'
    nlinarith [wp 3, wp 0]
  have F0 : (0 : ℝ) ≤ F := le_trans (by positivity) hF
  have Fm0 : 0 ≤ (F : ℝ) / |(m : ℝ)| := by positivity
  have M0 : (0 : ℝ) ≤ M := by
    have h1 : (0 : ℝ) ≤ w 3 * M := Fm0.trans p3
    by_contra h'
    nlinarith [wp 3]
  have row : ∀ {a : ℝ} {j : Fin 6}, 0 ≤ a → (w j : ℝ) ≤ L * a → |y j| ≤ a * (L * X + M) := fun {a j} ha hl =>
    (h j).trans (by have := mul_le_mul_of_nonneg_right hl X0; have := mul_nonneg ha M0; linarith)
  have w2X : 0 ≤ F / |(m : ℝ)| * w 2 * X := by have := wp 2; positivity
  fin_cases i
  · exact row (wp 0).le l0
  · exact row (wp 1).le l1
  · exact row (wp 2).le l2
  · have k1 := turn_three (n := (n : ℝ)) (h 0) (h 4) (turn_push (m := (m : ℝ)) hF zero_le_one (Real.abs_cos_le_one (y 2)) (by rw [abs_neg]; exact Real.abs_sin_le_one (y 2) : |-Real.sin (y 2)| ≤ 1))
    have k2 := mul_le_mul_of_nonneg_right l3 X0
    refine le_trans (le_of_eq ?_) (k1.trans ?_)
    · show |turning _ _ _ _ _ _ 3| = _
      rw [turning_3]
      congr 1
      ring
    · show _ ≤ (w 3 : ℝ) * (L * X + M)
      linarith
  · have k1 := turn_three (n := (n : ℝ)) (a := 0) (A := 0) (by simp) (by rw [abs_neg]; exact h 3 : |-(y 3)| ≤ w 3 * X) (turn_push (m := (m : ℝ)) hF zero_le_one (Real.abs_sin_le_one (y 2)) (Real.abs_cos_le_one (y 2)))
    have k2 := mul_le_mul_of_nonneg_right l4 X0
    refine le_trans (le_of_eq ?_) (k1.trans ?_)
    · show |turning _ _ _ _ _ _ 4| = _
      rw [turning_4]
      congr 1
      ring
    · show _ ≤ (w 4 : ℝ) * (L * X + M)
      linarith
  · have k1 : |U 2 / (I : ℝ)| ≤ w 5 * M := by
      rw [abs_div]
      exact (div_le_div_of_nonneg_right hJ (abs_nonneg _)).trans p5
    have hacc' : (0 : ℝ) ≤ acc := by exact_mod_cast hacc
    have k2 : |min (max (U 2 / (I : ℝ)) (-(acc : ℝ))) acc| ≤ |U 2 / (I : ℝ)| := by
      rw [abs_le]
      constructor
      · exact le_min (le_max_of_le_left (neg_abs_le _)) (by linarith [abs_nonneg (U 2 / (I : ℝ))])
      · exact (min_le_left _ _).trans (max_le (le_abs_self _) (by linarith [abs_nonneg (U 2 / (I : ℝ))]))
    have k3 : 0 ≤ (w 5 : ℝ) * (L * X) := mul_nonneg (wp 5).le (mul_nonneg L0 X0)
    show |min (max (U 2 / (I : ℝ)) (-(acc : ℝ))) acc| ≤ (w 5 : ℝ) * (L * X + M)
    linarith

end

section
variable {libm : Fmt ℚ} {env : Env (b64Of libm)} {args : Rot2dArgs (b64Of libm)} {e0 e : Entity (b64Of libm)} {m n I acc vel : ℚ} {w : Fin 6 → ℚ} {L X F J M : ℚ}

/-- at the end of a call the heading is wrapped and the rest left as it is -/
theorem turn_finish (h : newRot2d env args = .ok e0) (hc : SameConfig e0 e)
    (hvel : Fl.pyMin args.angVelLimit (args.inertiaWheel * args.velLimitWheel / args.inertia) = .fin vel) {y : Fin 6 → ℚ} (hv : |y 5| ≤ vel) (hb : |y 2| ≤ 2 ^ 30) :
    ∃ (a : ℚ) (k : ℤ), Finished e.dynamics y ![y 0, y 1, a, y 3, y 4, y 5] ∧ |a| ≤ 4 ∧ |(a : ℝ) - (y 2 - 2 * Real.pi * k)| ≤ 2⁻¹ ^ 50 * (|(y 2 : ℝ)| + 20) := by
  obtain ⟨-, acc', vel', -, hv', k1, k2, -, -, k3, -⟩ := rot2d_config h
  rw [hvel] at hv'
  subst hv'
  rw [← hc.2.2.2.2.2] at k1 k2 k3
  simp only at k1 k2 k3
  obtain ⟨a, k, w1, w2, w3, w4⟩ := round_wrap (b64_rounds libm) (by norm_num) (by decide +kernel)
    (show rndBin 53 (-1022) 1023 (2 * (884279719003555 / 281474976710656)) = .val (2 * (884279719003555 / 281474976710656)) by decide +kernel)
    (show (3 : ℚ) ≤ 884279719003555 / 281474976710656 by norm_num) (show (884279719003555 / 281474976710656 : ℚ) ≤ 16 / 5 by norm_num) (h := y 2) (by
      refine (mul_le_mul_of_nonneg_left (add_le_add_left hb 20) (by norm_num)).trans ?_
      decide +kernel)
  refine ⟨a, k, ⟨toFl y, ?_, ?_⟩, w2, ?_⟩
  · have := npClip_toFl (R := b64Of libm) y (lo := e.dynamics.stateMin) (hi := e.dynamics.stateMax) (l := ![none, none, none, none, none, some (-vel)])
      (h := ![none, none, none, none, none, some vel]) (.inl k1) (.inl k2)
    rw [this]
    congr 2
    funext i
    fin_cases i <;> simp only [kclip, Fin.zero_eta, Fin.mk_one, Fin.reduceFinMk, Matrix.cons_val]
    exact clip_inside hv
  · simp only [Dyn.wrapAngles, k3]
    have e1 : ([.nan, .nan, 0, .nan, .nan, .nan] : Vec (b64Of libm)) = List.ofFn (![.nan, .nan, .fin 0, .nan, .nan, .nan] : Fin 6 → Fl (b64Of libm)) := rfl
    rw [e1, toFl, bcast2_ofFn]
    congr 2
    funext i
    fin_cases i <;> simp [Fl.isNan, w1]
  · have w3' : ((|a - (y 2 - 2 * (b64Of libm).pi * k)| : ℚ) : ℝ) ≤ ((2⁻¹ ^ 53 * (|y 2| + 20) : ℚ) : ℝ) := Rat.cast_le.2 w3
    have w4' : ((|(k : ℚ)| : ℚ) : ℝ) ≤ ((|y 2| + 3 : ℚ) : ℝ) := Rat.cast_le.2 w4
    push_cast at w3' w4'
    have e1 := abs_add_le ((a : ℝ) - (y 2 - 2 * (b64Of libm).pi * k)) (2 * (k * (Real.pi - (b64Of libm).pi)))
    rw [show (a : ℝ) - (y 2 - 2 * (b64Of libm).pi * k) + 2 * (k * (Real.pi - (b64Of libm).pi)) = a - (y 2 - 2 * Real.pi * k) by ring,
      abs_mul 2, abs_mul (k : ℝ), abs_sub_comm Real.pi, abs_two] at e1
    have n0 := abs_nonneg (y 2 : ℝ)
    have e2 : |(k : ℝ)| * |((b64Of libm).pi : ℝ) - Real.pi| ≤ (|(y 2 : ℝ)| + 3) * (2 * 2⁻¹ ^ 53) := mul_le_mul w4' b64_pi_near (abs_nonneg _) (by positivity)
    have e3 : (2⁻¹ : ℝ) ^ 50 = 2⁻¹ ^ 53 * 8 := by norm_num
    rw [e3]
    obtain ⟨ε, hε⟩ : ∃ ε : ℝ, ε = 2⁻¹ ^ 53 := ⟨_, rfl⟩
    have ε0 : 0 ≤ ε := by rw [hε]; positivity
    rw [← hε] at w3' e2 ⊢
    have p := mul_nonneg ε0 n0
    linarith

/-- the spacecraft computes the derivative well near an exact motion -/
theorem turn_shadows (h : newRot2d env args = .ok e0) (hc : SameConfig e0 e) (hm : args.m = .fin m) (hn : args.n = .fin n) (hI : args.inertia = .fin I)
    (hacc : Fl.pyMin args.angAccLimit (args.inertiaWheel * args.accLimitWheel / args.inertia) = .fin acc) (ha0 : 0 ≤ acc)
    (hvel : Fl.pyMin args.angVelLimit (args.inertiaWheel * args.velLimitWheel / args.inertia) = .fin vel) (Z : TurnUnits w m n I L X F J M) {δ : ℝ}
    (hlibm : TrigWithin libm (w 2 * X) δ) (hδ : δ ≤ 1 / 2) {U : Fin 3 → ℚ} (hF : |U 0| + |U 1| ≤ F) (hJ : |U 2| ≤ J) {φ : ℝ → Fin 6 → ℝ} {T ρ : ℝ}
    (hφ : ∀ t ∈ Set.Icc 0 T, HasDerivWithinAt φ (turning m n I acc (fun j => U j) (φ t)) (Set.Icc 0 T) t)
    (hs : ∀ t ∈ Set.Icc 0 T, ∀ i, |φ t i| + w i * ρ ≤ w i * X) (hv : ∀ t ∈ Set.Icc 0 T, |φ t 5| + w 5 * ρ < vel) :
    Shadows w e.dynamics U (turning m n I acc (fun j => U j)) φ L (2⁻¹ ^ 19 * (L * X + M) + δ * M) ρ (2 * (L * X + M)) X T := by
  have hFR : |(U 0 : ℝ)| + |(U 1 : ℝ)| ≤ F := by exact_mod_cast hF
  have hJR : |(U 2 : ℝ)| ≤ J := by exact_mod_cast hJ
  have size : ∀ y, Around w φ ρ T y → ∀ i, |y i| ≤ w i * X := fun y ⟨t, ht, hy⟩ i => by
    have := abs_sub_abs_le_abs_sub (y i) (φ t i)
    have := hs t ht i
    have := hy i
    linarith
  have L0 : (0 : ℝ) ≤ L := by
    obtain ⟨⟨l0, -⟩, -⟩ := Z.real
    have wp := Z.weights.cast_pos
    by_contra h'
    nlinarith [wp 3, wp 0]
  have X0 : (0 : ℝ) ≤ X := by exact_mod_cast Z.size.1
  have M0 : (0 : ℝ) ≤ M := by
    have h1 : (0 : ℝ) ≤ w 0 * M := by exact_mod_cast (by positivity : (0 : ℚ) ≤ 2⁻¹ ^ 40).trans (Z.tiny 0)
    by_contra h'
    nlinarith [Z.weights.cast_pos 0]
  have S0 : 0 ≤ (L : ℝ) * X + M := by positivity
  refine ⟨hφ, fun t y hy => ?_, fun y z e hy hz he i => turning_lip Z hFR he i, fun y hy i => ?_, size⟩
  · have h1 := size _ hy
    obtain ⟨t', ht', hy'⟩ := hy
    have hv5 : |y 5| < vel := by
      have a1 := abs_sub_abs_le_abs_sub (y 5 : ℝ) (φ t' 5)
      have a2 := hv t' ht'
      have a3 := hy' 5
      have : |(y 5 : ℝ)| < vel := by linarith
      exact_mod_cast this
    obtain ⟨v, v1, v2⟩ := turn_dot h hc hm hn hI hacc hvel Z hlibm (y := y) (fun i => by exact_mod_cast h1 i) hv5 hF hJ t
    refine ⟨v, v1, fun i => ⟨v2 i, ?_⟩⟩
    have b1 := turning_size (acc := acc) (U := fun j => (U j : ℝ)) Z ha0 hFR hJR h1 i
    have b2 := abs_sub_abs_le_abs_sub (v i : ℝ) (turning m n I acc (fun j => (U j : ℝ)) (fun j => (y j : ℝ)) i)
    have wp := Z.weights.cast_pos i
    have b3 : (2⁻¹ : ℝ) ^ 19 * (L * X + M) + δ * M ≤ L * X + M := by
      have c1 : (2⁻¹ : ℝ) ^ 19 * (L * X + M) ≤ 1 / 2 * (L * X + M) := mul_le_mul_of_nonneg_right (by norm_num) S0
      have c2 := mul_le_mul_of_nonneg_right hδ M0
      have c3 : 0 ≤ (L : ℝ) * X := by positivity
      linarith
    have b4 := mul_le_mul_of_nonneg_left b3 wp.le
    have : |(v i : ℝ)| ≤ w i * (2 * (L * X + M)) := by linarith [v2 i]
    exact_mod_cast this
  · refine (turning_size (acc := acc) (U := fun j => (U j : ℝ)) Z ha0 hFR hJR (size y hy) i).trans ?_
    push_cast
    exact mul_le_mul_of_nonneg_left (by linarith) (Z.weights.cast_pos i).le

/-- whole turns back -/
noncomputable def turnBack (y : Fin 6 → ℝ) (k : ℤ) : Fin 6 → ℝ := fun i => y i - if i = 2 then 2 * Real.pi * k else 0

theorem turnBack_ne {y : Fin 6 → ℝ} {k : ℤ} {i : Fin 6} (hi : i ≠ 2) : turnBack y k i = y i := by
  unfold turnBack
  rw [if_neg hi, sub_zero]

theorem turnBack_two (y : Fin 6 → ℝ) (k : ℤ) : turnBack y k 2 = y 2 - 2 * Real.pi * k := by
  unfold turnBack
  rw [if_pos rfl]

/-- the heading changes by at most `vel T` -/
theorem turn_heading {φ : ℝ → Fin 6 → ℝ} {f : ℝ → Fin 6 → ℝ} {T v : ℝ} (hφ : ∀ t ∈ Set.Icc 0 T, HasDerivWithinAt φ (f t) (Set.Icc 0 T) t)
    (hf : ∀ t ∈ Set.Icc 0 T, |f t 2| ≤ v) {t : ℝ} (ht : t ∈ Set.Icc 0 T) : |φ t 2 - φ 0 2| ≤ v * t := by
  have h0 : (0 : ℝ) ∈ Set.Icc 0 T := ⟨le_rfl, ht.1.trans ht.2⟩
  have := Convex.norm_image_sub_le_of_norm_hasDerivWithin_le (f := fun t => φ t 2) (f' := fun t => f t 2) (C := v) (fun x hx => (hasDerivWithinAt_pi.1 (hφ x hx)) 2)
    (fun x hx => by rw [Real.norm_eq_abs]; exact hf x hx) (convex_Icc 0 T) h0 ht
  rwa [Real.norm_eq_abs, Real.norm_eq_abs, sub_zero, abs_of_nonneg ht.1] at this

/-- an exact motion, and what the wrapped heading makes of it -/
theorem Spec.TurnFollows.upTo (h : newRot2d env args = .ok e0) (hc : SameConfig e0 e) (hm : args.m = .fin m) (hn : args.n = .fin n) (hI : args.inertia = .fin I)
    (hacc : Fl.pyMin args.angAccLimit (args.inertiaWheel * args.accLimitWheel / args.inertia) = .fin acc) (ha0 : 0 ≤ acc)
    (hvel : Fl.pyMin args.angVelLimit (args.inertiaWheel * args.velLimitWheel / args.inertia) = .fin vel) (Z : TurnUnits w m n I L X F J M) {δ : ℝ}
    (hlibm : TrigWithin libm (w 2 * X) δ) (hδ : δ ≤ 1 / 2) {ρ : ℝ} (hρ0 : 0 ≤ ρ) (hρ2 : w 2 * ρ ≤ 1) {H : ℚ} (hX2 : 7 + vel * H ≤ w 2 * X) :
    ∀ {hist : List (ℚ × Action (b64Of libm))} {y z : Fin 6 → ℝ}, (∀ p ∈ hist, p.1 ≤ H) → TurnFollows env e w m n I acc vel ρ X F J hist y z → ∀ k : ℤ,
      |y 2 - 2 * Real.pi * k| ≤ 6 → FollowsUpTo env e w (fun U => turning m n I acc (fun j => U j)) L (2⁻¹ ^ 19 * (L * X + M) + δ * M) ρ
        (2⁻¹ ^ 50 * (X + 20 / w 2)) (2 * (L * X + M)) X (fun z' => ∃ k : ℤ, z' = turnBack z k) hist (turnBack y k)
  | [], y, z, _, hz, k, _ => ⟨k, by rw [show z = y from hz]⟩
  | (T, a) :: hist, y, z, hH, hz, k, hk => by
    obtain ⟨hT0, U, φ, hap, hF, hJ, hφ, rfl, hrest⟩ := hz
    have hTR : (0 : ℝ) ≤ T := by exact_mod_cast hT0
    have hTH : (T : ℝ) ≤ H := by exact_mod_cast hH (T, a) (by simp)
    have wp := Z.weights.cast_pos
    have hX2R : 7 + (vel : ℝ) * H ≤ w 2 * X := by exact_mod_cast hX2
    have h0 : (0 : ℝ) ∈ Set.Icc 0 (T : ℝ) := ⟨le_rfl, hTR⟩
    have hT : (T : ℝ) ∈ Set.Icc 0 (T : ℝ) := ⟨hTR, le_rfl⟩
    have v5 : ∀ t ∈ Set.Icc 0 (T : ℝ), |φ t 5| ≤ vel := fun t ht => by
      have := (hφ t ht).2.2
      have := mul_nonneg (wp 5).le hρ0
      linarith
    have vel0 : (0 : ℝ) ≤ vel := (abs_nonneg _).trans (v5 0 h0)
    have hd : ∀ t ∈ Set.Icc 0 (T : ℝ), HasDerivWithinAt (fun t => turnBack (φ t) k) (turning m n I acc (fun j => U j) (turnBack (φ t) k)) (Set.Icc 0 (T : ℝ)) t := by
      intro t ht
      have e1 : turning m n I acc (fun j => U j) (turnBack (φ t) k) = turning m n I acc (fun j => U j) (φ t) := turning_shift _ _ _ _ _ _ k
      rw [e1, hasDerivWithinAt_pi]
      intro i
      exact ((hasDerivWithinAt_pi.1 (hφ t ht).1) i).sub_const _
    have head : ∀ t ∈ Set.Icc 0 (T : ℝ), |turnBack (φ t) k 2| ≤ 6 + vel * H := by
      intro t ht
      have q1 := turn_heading hd (v := vel) (fun t ht => by
        show |turnBack (φ t) k 5| ≤ _
        rw [turnBack_ne (by decide)]
        exact v5 t ht) ht
      have q2 := abs_sub_abs_le_abs_sub (turnBack (φ t) k 2) (turnBack (φ 0) k 2)
      have q3 : (vel : ℝ) * t ≤ vel * H := mul_le_mul_of_nonneg_left (ht.2.trans hTH) vel0
      have q4 : |turnBack (φ 0) k 2| ≤ 6 := by rw [turnBack_two]; exact hk
      linarith
    have hs : ∀ t ∈ Set.Icc 0 (T : ℝ), ∀ i, |turnBack (φ t) k i| + w i * ρ ≤ w i * X := by
      intro t ht i
      by_cases hi : i = 2
      · subst hi
        have := head t ht
        linarith
      · rw [turnBack_ne hi]
        exact (hφ t ht).2.1 i hi
    have hv : ∀ t ∈ Set.Icc 0 (T : ℝ), |turnBack (φ t) k 5| + w 5 * ρ < vel := fun t ht => by
      rw [turnBack_ne (by decide)]
      exact (hφ t ht).2.2
    have ih := fun k' hk' => Spec.TurnFollows.upTo h hc hm hn hI hacc ha0 hvel Z hlibm hδ hρ0 hρ2 hX2 (fun p hp => hH p (by simp [hp])) hrest k' hk'
    have step : ∀ y1 : Fin 6 → ℚ, (∀ i, |y1 i - turnBack (φ T) k i| ≤ w i * ρ) → ∃ (y2 : Fin 6 → ℚ) (z' : Fin 6 → ℝ), Finished e.dynamics y1 y2 ∧
        (∀ E, 0 ≤ E → (∀ i, |y1 i - turnBack (φ T) k i| ≤ w i * E) → ∀ i, |y2 i - z' i| ≤ w i * (E + 2⁻¹ ^ 50 * (X + 20 / w 2))) ∧
        ∃ k' : ℤ, |φ T 2 - 2 * Real.pi * k'| ≤ 6 ∧ z' = turnBack (φ T) k' := by
      intro y1 hy1
      have b2 : |(y1 2 : ℝ)| ≤ w 2 * X := by
        have := abs_sub_abs_le_abs_sub (y1 2 : ℝ) (turnBack (φ T) k 2)
        have := hy1 2
        have := hs T hT 2
        linarith
      have b5 : |(y1 5 : ℝ)| ≤ vel := by
        have := abs_sub_abs_le_abs_sub (y1 5 : ℝ) (turnBack (φ T) k 5)
        have := hy1 5
        have := hv T hT
        linarith
      have b3 : (w 2 : ℝ) * X ≤ 2 ^ 30 := by exact_mod_cast Z.size.2 2
      have b4 : |(y1 2 : ℝ)| ≤ 2 ^ 30 := b2.trans b3
      obtain ⟨c, k', f1, f2, f3⟩ := turn_finish h hc hvel (y := y1) (by exact_mod_cast b5) (by exact_mod_cast b4)
      have g : ∀ E, (∀ i, |y1 i - turnBack (φ T) k i| ≤ w i * E) → |(c : ℝ) - (φ T 2 - 2 * Real.pi * (k + k' : ℤ))| ≤ w 2 * E + 2⁻¹ ^ 50 * (w 2 * X + 20) := by
        intro E hE
        have g1 := abs_add_le ((c : ℝ) - (y1 2 - 2 * Real.pi * k')) (y1 2 - turnBack (φ T) k 2)
        rw [turnBack_two, show (c : ℝ) - (y1 2 - 2 * Real.pi * k') + (y1 2 - (φ T 2 - 2 * Real.pi * k)) = c - (φ T 2 - 2 * Real.pi * (k + k' : ℤ)) by
          push_cast; ring, ← turnBack_two (φ T) k] at g1
        have g2 := hE 2
        have g3 : (2⁻¹ : ℝ) ^ 50 * (|(y1 2 : ℝ)| + 20) ≤ 2⁻¹ ^ 50 * (w 2 * X + 20) := by gcongr
        linarith
      refine ⟨_, turnBack (φ T) (k + k'), f1, fun E hE0 hE i => ?_, k + k', ?_, rfl⟩
      · have om : (0 : ℝ) ≤ 2⁻¹ ^ 50 * (X + 20 / w 2) := by
          have : (0 : ℝ) ≤ X := by exact_mod_cast Z.size.1
          have := wp 2
          positivity
        by_cases hi : i = 2
        · subst hi
          rw [turnBack_two]
          refine (g E hE).trans (le_of_eq ?_)
          have := (wp 2).ne'
          field_simp
        · have e1 : (![y1 0, y1 1, c, y1 3, y1 4, y1 5] : Fin 6 → ℚ) i = y1 i := by fin_cases i <;> first | rfl | exact absurd rfl hi
          rw [e1, turnBack_ne hi]
          have := hE i
          rw [turnBack_ne hi] at this
          exact this.trans (mul_le_mul_of_nonneg_left (by linarith) (wp i).le)
      · have g1 := g ρ hy1
        have f2' : |(c : ℝ)| ≤ 4 := by exact_mod_cast f2
        have g2 := abs_sub_abs_le_abs_sub (φ T 2 - 2 * Real.pi * (k + k' : ℤ)) (c : ℝ)
        rw [abs_sub_comm _ (c : ℝ)] at g2
        have g3 : (2⁻¹ : ℝ) ^ 50 * (w 2 * X + 20) ≤ 2⁻¹ ^ 50 * (2 ^ 30 + 20) := by gcongr
        have g4 : (2⁻¹ : ℝ) ^ 50 * (2 ^ 30 + 20) ≤ 1 := by norm_num
        linarith
    refine ⟨hT0, U, fun t => turnBack (φ t) k, hap, ?_, rfl, fun y1 hy1 => ?_⟩
    · exact turn_shadows h hc hm hn hI hacc ha0 hvel Z hlibm hδ hF hJ hd hs hv
    · obtain ⟨y2, z', s1, s2, k', s3, rfl⟩ := step y1 hy1
      exact ⟨y2, _, s1, s2, ih k' s3⟩

theorem Spec.TurnFollows.nonneg {ρ : ℝ} : ∀ {hist : List (ℚ × Action (b64Of libm))} {y z : Fin 6 → ℝ}, TurnFollows env e w m n I acc vel ρ X F J hist y z →
    ∀ p ∈ hist, 0 ≤ p.1
  | [], _, _, _ => by simp
  | _ :: _, _, _, ⟨h0, _, _, _, _, _, _, _, h⟩ => fun p hp => by
    rcases List.mem_cons.1 hp with rfl | hp
    · exact h0
    · exact h.nonneg p hp

end
end SAD
