import Verif.Props.Single
import Verif.Props.DubinsPrecision
import Verif.Lemmas.RoundDubins3
import Verif.Lemmas.UserRun
import Verif.Spec.Turning

/-! # The planar rotating spacecraft in double precision -/

set_option linter.unusedSectionVars false

namespace SAD
open Spec

section
variable {libm : Fmt ℚ}

/-- the raw derivative of the planar rotating spacecraft in double precision, with its rotation -/
theorem rot2d_raw_turn {env : Env (b64Of libm)} {args : Rot2dArgs (b64Of libm)} {e0 e : Entity (b64Of libm)} (h : newRot2d env args = .ok e0)
    (hc : SameConfig e0 e)
    {x y θ vx vy w vx' vy' w' : ℚ} {u : Fin 3 → ℚ} (hx : |x| ≤ 2 ^ (127 : ℤ)) (hy : |y| ≤ 2 ^ (127 : ℤ))
    (hvx : rndBin 24 (-126) 127 vx = .val vx') (hvy : rndBin 24 (-126) 127 vy = .val vy') (hw : rndBin 24 (-126) 127 w = .val w') (t : Fl (b64Of libm)) :
    e.dynamics.rhs t [.fin x, .fin y, .fin θ, .fin vx, .fin vy, .fin w] (toFl u) =
      .ok [.fin vx', .fin vy', .fin w',
        Fl.cast32 (dot (List.ofFn ![3 * (args.n * args.n), 0, 0, 2 * args.n])
          (List.ofFn fun j => (.fin ((![x, y, vx, vy] : Fin 4 → ℚ) j) : Fl (b64Of libm)).cast32)) +
          dot (List.ofFn ![Fl.cos (.fin θ) / args.m, -Fl.sin (.fin θ) / args.m, 0]) (toFl u),
        Fl.cast32 (dot (List.ofFn ![0, 0, -2 * args.n, 0])
          (List.ofFn fun j => (.fin ((![x, y, vx, vy] : Fin 4 → ℚ) j) : Fl (b64Of libm)).cast32)) +
          dot (List.ofFn ![Fl.sin (.fin θ) / args.m, Fl.cos (.fin θ) / args.m, 0]) (toFl u),
        Fl.cast32 0 + (0 + 1 / args.inertia * .fin (u 2))] := by
  obtain ⟨h1, -⟩ := rot2d_rhs h
  rw [← hc.2.2.2.2.2] at h1
  simp only at h1
  obtain ⟨hI, -⟩ := rot2d_config h
  obtain ⟨x', hx', -⟩ := single_near hx
  obtain ⟨y', hy', -⟩ := single_near hy
  have hk : pyDiv 1 args.inertia = .ok (1 / args.inertia) := by
    rw [Fl.zero_fin] at hI
    unfold pyDiv; rw [hI]; rfl
  obtain ⟨c1, r1⟩ := single_fix hvx
  obtain ⟨c2, r2⟩ := single_fix hvy
  obtain ⟨c3, r3⟩ := single_fix hw
  rw [h1]
  simp only [toFl, List.ofFn_succ, List.ofFn_zero, Matrix.cons_val_zero, Matrix.cons_val_succ]
  simp only [affineRhs, rot2dF, rot2dG, getIdx, matVec, dot, bind, Except.bind, pure, Except.pure, hk, vadd, bcast2, List.length_cons,
    List.length_nil, List.map_cons, List.map_nil, List.zipWith_cons_cons, List.zipWith_nil_left, List.foldl_cons, List.foldl_nil,
    cast32_val hx', cast32_val hy', cast32_val hvx, cast32_val hvy, cast32_val hw, b64_zero_mul, b64_zero_add_zero, b64_one_mul r1, b64_one_mul r2,
    b64_zero_add r1, b64_zero_add r2, b64_add_zero r1, b64_add_zero r2, b64_add_zero r3, cast32_val c1, cast32_val c2, List.getElem?_cons_zero,
    List.getElem?_cons_succ, if_true]
  rfl

/-- the computed angular acceleration, before limits -/
theorem turn_spin {I u : ℚ} (hI0 : I ≠ 0) (hI : |I⁻¹| ≤ 2 ^ 30) (hu : |u| ≤ 2 ^ 30) :
    ∃ v : ℚ, (Fl.cast32 0 + (0 + 1 / .fin I * .fin u) : Fl (b64Of libm)) = .fin v ∧ |v - u / I| ≤ 2⁻¹ ^ 50 * (|u| / |I| + 2⁻¹ ^ 40) := by
  obtain ⟨τ, hτ⟩ : ∃ τ : ℚ, τ = 2 ^ (-1022 : ℤ) := ⟨_, rfl⟩
  have hR := b64_rounds libm
  rw [← hτ] at hR
  have hτ0 := hR.tau
  have hε := hR.eps
  have hτ1 : τ * (2 ^ 30 + 5) ≤ 2⁻¹ ^ 40 := by rw [hτ]; decide +kernel
  have hbig : (2 : ℚ) ^ 70 ≤ 2 ^ (1023 : ℤ) := by decide +kernel
  have hpow : ∀ k, k ≤ 4 → (1 + (2⁻¹ : ℚ) ^ 53) ^ k ≤ 2 := fun k hk => (pow_le_pow_right₀ (by linarith) hk).trans (by norm_num)
  have e1 : |(1 : ℚ) / I| = |I⁻¹| := by rw [one_div]
  have hdiv : |u| / |I| = |I⁻¹| * |u| := by rw [abs_inv]; ring
  have hM : ∀ {k : ℕ} {g : ℚ}, k ≤ 4 → 0 ≤ g → g ≤ 2 ^ 65 → (1 + (2⁻¹ : ℚ) ^ 53) ^ k * g ≤ 2 ^ (1023 : ℤ) := fun {k g} hk h0 h1 =>
    (mul_le_mul (hpow k hk) h1 h0 (by norm_num)).trans ((by norm_num : (2 : ℚ) * 2 ^ 65 ≤ 2 ^ 70).trans hbig)
  have hτ2 : τ ≤ 1 := by linarith [show (2⁻¹ : ℚ) ^ 40 ≤ 1 by norm_num]
  have n1 := abs_nonneg u
  have n2 := abs_nonneg I⁻¹
  have h1 := near_div (R := b64Of libm) hR (a := 1) hI0 (by rw [e1]; exact hI.trans (le_trans (by norm_num) hbig))
  rw [e1] at h1
  have hp : |I⁻¹| * |u| ≤ 2 ^ 30 * 2 ^ 30 := mul_le_mul hI hu n1 (by norm_num)
  have hp0 : 0 ≤ |I⁻¹| * |u| := by positivity
  have hq : (|I⁻¹| + τ) * |u| ≤ 2 ^ 61 := by nlinarith
  have h2 := h1.mul hR (near_fin u) (hM (by omega) (by positivity) (by linarith))
  have h3 := h2.zeroAdd hR (hM (by omega) (by positivity) (by linarith))
  have h4 := h3.zeroAdd hR (hM (by omega) (by positivity) (by linarith))
  obtain ⟨-, v, h5, h6⟩ := h4
  have c0 : (Fl.cast32 0 : Fl (b64Of libm)) = .fin 0 := by
    rw [Fl.zero_fin]
    exact cast32_val (by decide +kernel)
  refine ⟨v, by rw [c0, Fl.zero_fin]; exact h5, ?_⟩
  rw [show 1 / I * u = u / I by ring] at h6
  refine h6.trans (mul_le_mul (by decide +kernel) ?_ (by positivity) (by positivity))
  rw [hdiv]
  nlinarith [mul_le_mul_of_nonneg_left hu hτ0]

theorem clip_inside {a b : ℚ} (h : |a| ≤ b) : min (max a (-b)) b = a := by
  obtain ⟨h1, h2⟩ := abs_le.1 h
  rw [max_eq_left h1, min_eq_left h2]

/-- a computed acceleration with a rotated thrust, against the exact sine and cosine -/
theorem turn_trig {wi L X M F m : ℚ} {δ : ℝ} (δ0 : 0 ≤ δ) {c s : ℚ} {C S : ℝ} {a g : ℚ} {u v : ℚ} (hF : |u| + |v| ≤ F) (hFi : F / |m| ≤ wi * M)
    (hc' : |(c : ℝ) - C| ≤ δ) (hs' : |(s : ℝ) - S| ≤ δ) (h1 : |a - (g + (c * u + s * v) / m)| ≤ wi * (2⁻¹ ^ 19 * (L * X + M))) :
    |(a : ℝ) - (g + (C * u + S * v) / m)| ≤ wi * (2⁻¹ ^ 19 * (L * X + M) + δ * M) := by
  have h2 : ((|a - (g + (c * u + s * v) / m)| : ℚ) : ℝ) ≤ ((wi * (2⁻¹ ^ 19 * (L * X + M)) : ℚ) : ℝ) := Rat.cast_le.2 h1
  push_cast at h2
  have h3 : |(((c : ℝ) - C) * u + ((s : ℝ) - S) * v) / m| ≤ δ * (wi * M) := by
    rw [abs_div]
    have h4 : |((c : ℝ) - C) * u + ((s : ℝ) - S) * v| ≤ δ * F := by
      refine (abs_add_le _ _).trans ?_
      rw [abs_mul, abs_mul]
      have a1 := mul_le_mul_of_nonneg_right hc' (abs_nonneg (u : ℝ))
      have a2 := mul_le_mul_of_nonneg_right hs' (abs_nonneg (v : ℝ))
      have a3 : |(u : ℝ)| + |(v : ℝ)| ≤ F := by exact_mod_cast hF
      have a4 := mul_le_mul_of_nonneg_left a3 δ0
      linarith
    have h5 : (F : ℝ) / |(m : ℝ)| ≤ wi * M := by exact_mod_cast hFi
    calc _ ≤ δ * F / |(m : ℝ)| := div_le_div_of_nonneg_right h4 (abs_nonneg _)
      _ = δ * (F / |(m : ℝ)|) := by ring
      _ ≤ _ := mul_le_mul_of_nonneg_left h5 δ0
  have e : (a : ℝ) - (g + (C * u + S * v) / m) = (a - (g + (c * u + s * v) / m)) + (((c : ℝ) - C) * u + ((s : ℝ) - S) * v) / m := by ring
  rw [e]
  refine (abs_add_le _ _).trans ?_
  linarith

/-- sums of the terms of an acceleration -/
theorem turn_sum {wi L X M Fm g c : ℚ} (w0 : 0 ≤ wi) (L0 : 0 ≤ L) (X0 : 0 ≤ X) (tiny : 2⁻¹ ^ 40 ≤ wi * M) (hg : g ≤ L * wi * X) (hc' : c ≤ Fm)
    (hFi : Fm ≤ wi * M) : 2⁻¹ ^ 20 * (g + c + 2⁻¹ ^ 40) ≤ wi * (2⁻¹ ^ 19 * (L * X + M)) := by
  have e19 : (2⁻¹ : ℚ) ^ 19 = 2⁻¹ ^ 20 * 2 := by norm_num
  have a2 : 0 ≤ L * wi * X := mul_nonneg (mul_nonneg L0 w0) X0
  have a3 : g + c + 2⁻¹ ^ 40 ≤ 2 * (wi * (L * X + M)) := by
    have : 2 * (wi * (L * X + M)) = 2 * (L * wi * X) + 2 * (wi * M) := by ring
    linarith
  rw [e19]
  have := mul_le_mul_of_nonneg_left a3 (by positivity : (0 : ℚ) ≤ 2⁻¹ ^ 20)
  linarith

theorem turn_row {n w0 w2 w3 w4 L X Fm a b : ℚ} (X0 : 0 ≤ X) (hF : 0 ≤ Fm) (w2p : 0 ≤ w2) (l : 3 * n ^ 2 * w0 + 2 * |n| * w4 + Fm * w2 ≤ L * w3)
    (ha : a ≤ w0 * X) (hb : b ≤ w4 * X) : 3 * n ^ 2 * a + 2 * |n| * b ≤ L * w3 * X := by
  have a1 := mul_le_mul_of_nonneg_left ha (by positivity : 0 ≤ 3 * n ^ 2)
  have a2 := mul_le_mul_of_nonneg_left hb (by positivity : 0 ≤ 2 * |n|)
  have a3 := mul_le_mul_of_nonneg_right l X0
  have a4 : 0 ≤ Fm * w2 * X := by positivity
  linarith

/-- the computed derivative, with limits: the turn rate is inside its own -/
theorem turn_dot {env : Env (b64Of libm)} {args : Rot2dArgs (b64Of libm)} {e0 e : Entity (b64Of libm)} (h : newRot2d env args = .ok e0) (hc : SameConfig e0 e)
    {m n I acc vel : ℚ} (hm : args.m = .fin m) (hn : args.n = .fin n) (hI : args.inertia = .fin I)
    (hacc : Fl.pyMin args.angAccLimit (args.inertiaWheel * args.accLimitWheel / args.inertia) = .fin acc)
    (hvel : Fl.pyMin args.angVelLimit (args.inertiaWheel * args.velLimitWheel / args.inertia) = .fin vel)
    {w : Fin 6 → ℚ} {L X F J M : ℚ} (Z : TurnUnits w m n I L X F J M) {δ : ℝ} (hlibm : TrigWithin libm (w 2 * X) δ) {y : Fin 6 → ℚ} (hy : ∀ i, |y i| ≤ w i * X)
    (hv : |y 5| < vel) {U : Fin 3 → ℚ} (hF : |U 0| + |U 1| ≤ F) (hJ : |U 2| ≤ J) (t : Fl (b64Of libm)) :
    ∃ v : Fin 6 → ℚ, e.dynamics.computeStateDot t (toFl y) (toFl U) = .ok (toFl v) ∧
      ∀ i, |(v i : ℝ) - turning m n I acc (fun j => U j) (fun j => y j) i| ≤ w i * (2⁻¹ ^ 19 * (L * X + M) + δ * M) := by
  obtain ⟨hX0, hX⟩ := Z.size
  obtain ⟨l0, l1, l2, l3, l4⟩ := Z.lip
  obtain ⟨p3, p4, p5⟩ := Z.push
  have b : ∀ i, |y i| ≤ 2 ^ 30 := fun i => (hy i).trans (hX i)
  have r8 := single_room.2.2.2.2.2.2.2.1
  have hU : ∀ j, |U j| ≤ 2 ^ 30 := by
    intro j
    have := Z.force
    have := Z.moment
    have := abs_nonneg (U 0)
    have := abs_nonneg (U 1)
    fin_cases j <;> simp only [Fin.zero_eta, Fin.mk_one, Fin.reduceFinMk] <;> linarith
  obtain ⟨v0, g0, d0⟩ := single_near ((b 3).trans r8)
  obtain ⟨v1, g1, d1⟩ := single_near ((b 4).trans r8)
  obtain ⟨v2, g2, d2⟩ := single_near ((b 5).trans r8)
  obtain ⟨t1, t2, t3, t4⟩ := hlibm (y 2) (hy 2)
  obtain ⟨⟨v3, q3, d3⟩, ⟨v4, q4, d4⟩⟩ := rot2d_accelerations (libm := libm) (b 0) (b 1) (b 3) (b 4) Z.mean Z.mass.1 Z.mass.2 hU t2 t1
  obtain ⟨v5, q5, d5⟩ := turn_spin (libm := libm) Z.inertia.1 Z.inertia.2 (hU 2)
  have hr := rot2d_raw_turn h hc ((b 0).trans r8) ((b 1).trans r8) g0 g1 g2 (θ := y 2) (u := U) t
  rw [hn, hm, hI, show Fl.cos (.fin (y 2)) = (.fin (libm.cos (y 2)) : Fl (b64Of libm)) from rfl,
    show Fl.sin (.fin (y 2)) = (.fin (libm.sin (y 2)) : Fl (b64Of libm)) from rfl, q3, q4, q5] at hr
  obtain ⟨-, acc', vel', ha, hv', k1, k2, k3, k4, -⟩ := rot2d_config h
  rw [hacc] at ha
  rw [hvel] at hv'
  subst ha hv'
  rw [← hc.2.2.2.2.2] at k1 k2 k3 k4
  simp only at k1 k2 k3 k4
  have hlift := computeStateDot_lift (R := b64Of libm) (d := e.dynamics) (lo := ![none, none, none, none, none, some (-vel)])
    (hi := ![none, none, none, none, none, some vel]) (dlo := ![none, none, some (-vel), none, none, some (-acc)])
    (dhi := ![none, none, some vel, none, none, some acc]) (.inl k1) (.inl k2) (.inl k3) (.inl k4) (t := t) (u := toFl U) (y := y)
    (v := ![v0, v1, v2, v3, v4, v5]) hr
  refine ⟨_, hlift, ?_⟩
  obtain ⟨n1, n2⟩ := abs_lt.1 hv
  have lim5 : klimit (some (-vel)) (some vel) (some (-acc)) (some acc) (y 5) v5 = min (max v5 (-acc)) acc := by
    simp [klimit, kclip, not_le.2 n2, not_le.2 n1]
  have tinyQ : ∀ i, (2 : ℚ) ^ (-126 : ℤ) ≤ w i * M := fun i => le_trans (by decide +kernel) (Z.tiny i)
  have wp := fun i => (Z.weights.pos i).le
  have wpR := fun i => (Z.weights.cast_pos i).le
  have M0 : 0 ≤ M := by
    by_contra hneg
    have h1 := (by positivity : (0 : ℚ) < 2⁻¹ ^ 40).trans_le (Z.tiny 0)
    nlinarith [Z.weights.pos 0]
  have L0 : 0 ≤ L := by
    by_contra hneg
    nlinarith [Z.weights.pos 0, Z.weights.pos 3]
  have F0 : 0 ≤ F := (by positivity : 0 ≤ |U 0| + |U 1|).trans hF
  have m0 : 0 < |m| := abs_pos.2 Z.mass.1
  have δ0 : 0 ≤ δ := (abs_nonneg _).trans t3
  have Fm0 : 0 ≤ F / |m| := by positivity
  have lift : ∀ i {a b c : ℚ}, |a - b| ≤ w i * (2⁻¹ ^ 19 * (L * X + M)) → ((b : ℚ) : ℝ) = c → |(a : ℝ) - c| ≤ w i * (2⁻¹ ^ 19 * (L * X + M) + δ * M) := by
    intro i a b c hab hbc
    have h1 : ((|a - b| : ℚ) : ℝ) ≤ ((w i * (2⁻¹ ^ 19 * (L * X + M)) : ℚ) : ℝ) := Rat.cast_le.2 hab
    push_cast at h1
    rw [hbc] at h1
    have h2 : (0 : ℝ) ≤ w i * (δ * M) := mul_nonneg (wpR i) (mul_nonneg δ0 (by exact_mod_cast M0))
    linarith
  have half : (2⁻¹ : ℚ) ^ 24 ≤ 2⁻¹ ^ 19 := by norm_num
  have rate : ∀ {i j : Fin 6} {a : ℚ}, w j ≤ L * w i → |a - y j| ≤ 2⁻¹ ^ 24 * (|y j| + 2 ^ (-126 : ℤ)) → |a - y j| ≤ w i * (2⁻¹ ^ 19 * (L * X + M)) := by
    intro i j a hij h1
    refine h1.trans ?_
    rw [mul_left_comm]
    have h2 : |y j| + 2 ^ (-126 : ℤ) ≤ w i * (L * X + M) := by
      have := mul_le_mul_of_nonneg_right hij hX0
      linarith [hy j, tinyQ i]
    exact mul_le_mul half h2 (by positivity) (by norm_num)
  have trig : ∀ {c s : ℚ}, |c| ≤ 1 → |s| ≤ 1 → (|c * U 0| + |s * U 1|) / |m| ≤ F / |m| := fun {c s} hc' hs' => by
    refine div_le_div_of_nonneg_right (le_trans (add_le_add ?_ ?_) hF) m0.le <;> rw [abs_mul]
    · exact mul_le_of_le_one_left (abs_nonneg _) hc'
    · exact mul_le_of_le_one_left (abs_nonneg _) hs'
  have w2 := wp 2
  have q3' := turn_row hX0 Fm0 w2 l3 (hy 0) (hy 4)
  have q4' := turn_row (n := n) (w0 := 0) (a := 0) hX0 Fm0 w2 (by linarith : 3 * n ^ 2 * 0 + 2 * |n| * w 3 + F / |m| * w 2 ≤ L * w 4) (by simp) (hy 3)
  rw [mul_zero, zero_add] at q4'
  intro i
  fin_cases i
  · exact lift 0 (c := y 3) (by simpa [klimit, kclip] using rate l0 d0) rfl
  · exact lift 1 (c := y 4) (by simpa [klimit, kclip] using rate l1 d1) rfl
  · refine lift 2 (b := y 5) (c := y 5) (le_trans ?_ (rate l2 d2)) rfl
    have : klimit none none (some (-vel)) (some vel) (y 2) v2 = min (max v2 (-vel)) vel := by simp [klimit, kclip]
    show |klimit none none (some (-vel)) (some vel) (y 2) v2 - y 5| ≤ _
    rw [this]
    nth_rw 1 [← clip_inside hv.le]
    exact kclip_lip _ _ _ _
  · have := turn_trig (wi := w 3) (L := L) (X := X) (m := m) δ0 (u := U 0) (v := U 1) (c := libm.cos (y 2)) (s := -libm.sin (y 2)) (C := Real.cos (y 2)) (S := -Real.sin (y 2)) (a := v3)
      (g := 3 * n ^ 2 * y 0 + 2 * n * y 4) hF p3 t4 (by push_cast; rw [← abs_neg]; convert t3 using 2; ring) (by
        refine le_trans (le_of_eq ?_) (d3.trans (turn_sum (wp 3) L0 hX0 (Z.tiny 3) q3' (trig t2 t1) p3))
        congr 1; ring)
    push_cast at this
    show |((klimit none none none none (y 3) v3 : ℚ) : ℝ) - turning m n I acc (fun j => (U j : ℝ)) (fun j => (y j : ℝ)) 3| ≤ _
    refine le_trans (le_of_eq ?_) this
    have k3 : klimit none none none none (y 3) v3 = v3 := by simp [klimit, kclip]
    rw [k3]
    simp only [turning, Matrix.cons_val]
    congr 1
    ring
  · have := turn_trig (wi := w 4) (L := L) (X := X) (m := m) δ0 (u := U 0) (v := U 1) (c := libm.sin (y 2)) (s := libm.cos (y 2)) (C := Real.sin (y 2)) (S := Real.cos (y 2)) (a := v4)
      (g := -2 * n * y 3) hF p4 t3 t4 (d4.trans (turn_sum (wp 4) L0 hX0 (Z.tiny 4) q4' (trig t1 t2) p4))
    push_cast at this
    exact this
  · show |((klimit (some (-vel)) (some vel) (some (-acc)) (some acc) (y 5) v5 : ℚ) : ℝ) - turning m n I acc (fun j => (U j : ℝ)) (fun j => (y j : ℝ)) 5| ≤ _
    have e5 : turning m n I acc (fun j => (U j : ℝ)) (fun j => (y j : ℝ)) 5 = ((min (max (U 2 / I) (-acc)) acc : ℚ) : ℝ) := by
      push_cast
      simp [turning]
    rw [e5]
    refine lift 5 (b := min (max (U 2 / I) (-acc)) acc) (c := min (max (U 2 / I) (-acc)) acc) ?_ rfl
    · rw [lim5]
      refine (kclip_lip _ _ _ _).trans (d5.trans ?_)
      have a1 : |U 2| / |I| ≤ J / |I| := div_le_div_of_nonneg_right hJ (abs_nonneg _)
      have a2 := Z.tiny 5
      have a3 : 0 ≤ w 5 * (L * X) := mul_nonneg (wp 5) (mul_nonneg L0 hX0)
      calc _ ≤ (2⁻¹ : ℚ) ^ 50 * (2 * (w 5 * (L * X + M))) := mul_le_mul_of_nonneg_left (by linarith) (by positivity)
        _ = (2⁻¹ : ℚ) ^ 49 * (w 5 * (L * X + M)) := by ring
        _ ≤ 2⁻¹ ^ 19 * (w 5 * (L * X + M)) := mul_le_mul_of_nonneg_right (by norm_num) (mul_nonneg (wp 5) (add_nonneg (mul_nonneg L0 hX0) M0))
        _ = _ := by ring

end
end SAD
