import Verif.Model.Orientation
import Verif.Props.Dubins
import Verif.Props.Rotational
import Verif.Props.SixDof

/-!
# C82: orientation agrees with the motion

`orientation` applied to a body vector gives that vector in global coordinates. For the aircraft the nose is the direction of flight
and the wings bank into the turn; for the rotating spacecraft thrust along a body axis accelerates along that axis as the
orientation reports it. Real arithmetic.
-/

set_option linter.unusedSectionVars false

namespace SAD
open Spec Real Matrix

/-- the vector `v` seen after turning by `roll` about x, then by `pitch` about y, then by `yaw` about z: each a rotation by the
right hand rule about a fixed axis -/
noncomputable def Spec.turnZYX (yaw pitch roll : ℝ) (v : Fin 3 → ℝ) : Fin 3 → ℝ :=
  !![cos yaw, -sin yaw, 0; sin yaw, cos yaw, 0; 0, 0, 1] *ᵥ
    (!![cos pitch, 0, sin pitch; 0, 1, 0; -sin pitch, 0, cos pitch] *ᵥ (!![1, 0, 0; 0, cos roll, -sin roll; 0, sin roll, cos roll] *ᵥ v))

/-- the quaternion `fromEulerZYX` computes -/
noncomputable def eulerQ (z y x : ℝ) : Fin 4 → ℝ :=
  ![cos (z / 2) * cos (y / 2) * sin (x / 2) - sin (z / 2) * sin (y / 2) * cos (x / 2),
    cos (z / 2) * sin (y / 2) * cos (x / 2) + sin (z / 2) * cos (y / 2) * sin (x / 2),
    sin (z / 2) * cos (y / 2) * cos (x / 2) - cos (z / 2) * sin (y / 2) * sin (x / 2),
    cos (z / 2) * cos (y / 2) * cos (x / 2) + sin (z / 2) * sin (y / 2) * sin (x / 2)]

theorem quatCompose_fin (p q : Fin 4 → ℝ) : quatCompose (toFl p : Vec realFmt) (toFl q)
    = .ok (toFl ![p 3 * q 0 + q 3 * p 0 + (p 1 * q 2 - p 2 * q 1), p 3 * q 1 + q 3 * p 1 + (p 2 * q 0 - p 0 * q 2),
        p 3 * q 2 + q 3 * p 2 + (p 0 * q 1 - p 1 * q 0), p 3 * q 3 - p 0 * q 0 - p 1 * q 1 - p 2 * q 2]) := by
  simp only [toFl4, quatCompose]
  simp

theorem halve_fin (x : ℝ) : (.fin x : Fl realFmt) / 2 = .fin (x / 2) := by
  have : (2 : Fl realFmt) = .fin 2 := Fl.ofNat_fin 2
  rw [this, Fl.fin_div_fin _ _ (two_ne_zero (α := ℝ))]

theorem fromEuler_fin (z y x : ℝ) : fromEulerZYX (.fin z : Fl realFmt) (.fin y) (.fin x) = .ok (toFl (eulerQ z y x)) := by
  have h0 : (0 : Fl realFmt) = .fin 0 := Fl.zero_fin
  have h1 : ([0, 0, Fl.sin ((.fin z : Fl realFmt) / 2), Fl.cos ((.fin z : Fl realFmt) / 2)] : Vec realFmt) = toFl ![0, 0, sin (z / 2), cos (z / 2)] := by
    rw [halve_fin, h0, toFl4]; rfl
  have h2 : ([0, Fl.sin ((.fin y : Fl realFmt) / 2), 0, Fl.cos ((.fin y : Fl realFmt) / 2)] : Vec realFmt) = toFl ![0, sin (y / 2), 0, cos (y / 2)] := by
    rw [halve_fin, h0, toFl4]; rfl
  have h3 : ([Fl.sin ((.fin x : Fl realFmt) / 2), 0, 0, Fl.cos ((.fin x : Fl realFmt) / 2)] : Vec realFmt) = toFl ![sin (x / 2), 0, 0, cos (x / 2)] := by
    rw [halve_fin, h0, toFl4]; rfl
  unfold fromEulerZYX
  rw [h1, h2, h3, quatCompose_fin]
  simp only [bind, Except.bind]
  rw [quatCompose_fin]
  congr 2
  funext i
  fin_cases i <;> simp [eulerQ] <;> ring

/-- the matrix SciPy makes of a quaternion, applied to a vector -/
theorem rotApply_fin (q : Fin 4 → ℝ) (v : Fin 3 → ℝ) : rotApply (toFl q : Vec realFmt) (toFl v) = .ok (toFl (krot q v)) := by
  have h2 : (2 : Fl realFmt) = .fin 2 := Fl.ofNat_fin 2
  simp only [toFl4, toFl3, rotApply, h2]
  simp only [Fl.fin_mul_fin, Fl.fin_add_fin, Fl.fin_sub_fin]
  congr 1
  simp [krot]
  refine ⟨?_, ?_, ?_⟩ <;> (left; ring)

theorem double_angle (x : ℝ) : cos x = cos (x / 2) ^ 2 - sin (x / 2) ^ 2 ∧ sin x = 2 * sin (x / 2) * cos (x / 2) ∧
    sin (x / 2) ^ 2 + cos (x / 2) ^ 2 = 1 := by
  have h : x = 2 * (x / 2) := by ring
  refine ⟨?_, ?_, sin_sq_add_cos_sq _⟩
  · conv_lhs => rw [h, cos_two_mul']
  · conv_lhs => rw [h, sin_two_mul]

theorem eulerQ_turn (z y x : ℝ) (v : Fin 3 → ℝ) : krot (eulerQ z y x) v = turnZYX z y x v := by
  obtain ⟨cz, sz, pz⟩ := double_angle z
  obtain ⟨cy, sy, py⟩ := double_angle y
  obtain ⟨cx, sx, px⟩ := double_angle x
  unfold eulerQ turnZYX
  rw [cz, sz, cy, sy, cx, sx]
  generalize sin (z / 2) = a at *
  generalize sin (y / 2) = b at *
  generalize sin (x / 2) = c at *
  generalize cos (z / 2) = a' at *
  generalize cos (y / 2) = b' at *
  generalize cos (x / 2) = c' at *
  have pz' : a ^ 2 = 1 - a' ^ 2 := by linarith
  have py' : b ^ 2 = 1 - b' ^ 2 := by linarith
  have px' : c ^ 2 = 1 - c' ^ 2 := by linarith
  funext i
  fin_cases i
  all_goals
    simp [krot, Matrix.mulVec, dotProduct, Fin.sum_univ_three]
    ring_nf
    simp only [pz', py', px']
    ring

/-- `Rotation.from_euler("ZYX", ...)` as modelled is the product of the three elementary rotations: a check of the model of the
external function. -/
theorem fromEuler_turn (z y x : ℝ) : ∃ q : Fin 4 → ℝ, fromEulerZYX (.fin z : Fl realFmt) (.fin y) (.fin x) = .ok (toFl q) ∧ quatSq q = 1 ∧
    ∀ b : Fin 3 → ℝ, rotApply (toFl q : Vec realFmt) (toFl b) = .ok (toFl (turnZYX z y x b)) := by
  refine ⟨_, fromEuler_fin z y x, ?_, fun b => by rw [rotApply_fin, eulerQ_turn]⟩
  have pz := sin_sq_add_cos_sq (z / 2)
  have py := sin_sq_add_cos_sq (y / 2)
  have px := sin_sq_add_cos_sq (x / 2)
  simp only [quatSq, eulerQ, Matrix.cons_val]
  generalize sin (z / 2) = a at *
  generalize sin (y / 2) = b at *
  generalize sin (x / 2) = c at *
  generalize cos (z / 2) = a' at *
  generalize cos (y / 2) = b' at *
  generalize cos (x / 2) = c' at *
  have pz' : a ^ 2 = 1 - a' ^ 2 := by linarith
  have py' : b ^ 2 = 1 - b' ^ 2 := by linarith
  have px' : c ^ 2 = 1 - c' ^ 2 := by linarith
  ring_nf
  simp only [pz', py', px']
  ring

/-- 3d aircraft: the orientation is the rotation by roll, pitch and yaw; the nose has length 1 and the velocity is the speed times
the nose, whatever the roll. -/
theorem C82_nose_3d (e : Entity realFmt) (s : Fin 7 → ℝ) (hs : e.state = toFl s) :
    ∃ (q : Fin 4 → ℝ) (nose : Fin 3 → ℝ), dubins3dOrientation e = .ok (toFl q) ∧
      (∀ b : Fin 3 → ℝ, rotApply (toFl q : Vec realFmt) (toFl b) = .ok (toFl (turnZYX (s 3) (s 4) (s 5) b))) ∧
      rotApply (toFl q : Vec realFmt) (toFl ![1, 0, 0]) = .ok (toFl nose) ∧ inner3 nose nose = 1 ∧
      dubins3dVelocity e = .ok (toFl fun i => s 6 * nose i) := by
  obtain ⟨q, h1, -, h2⟩ := fromEuler_turn (s 3) (s 4) (s 5)
  refine ⟨q, _, ?_, h2, h2 _, ?_, ?_⟩
  · unfold dubins3dOrientation
    rw [hs, toFl7]
    simpa only [getIdx, bind, Except.bind, List.getElem?_cons_succ, List.getElem?_cons_zero] using h1
  · have p1 := sin_sq_add_cos_sq (s 3)
    have p2 := sin_sq_add_cos_sq (s 4)
    simp [inner3, turnZYX, Matrix.mulVec, dotProduct, Fin.sum_univ_three]
    linear_combination cos (s 4) ^ 2 * p1 + p2
  · have hv : dubins3dVelocity e = .ok (toFl (along (s 6) (s 3) (s 4))) := by
      unfold dubins3dVelocity
      rw [hs, toFl7]
      simp only [getIdx, bind, Except.bind, pure, Except.pure, List.getElem?_cons_succ, List.getElem?_cons_zero, dubinsVelocity_fin]
    rw [hv]
    congr 2
    funext i
    fin_cases i <;> simp [along, turnZYX, Matrix.mulVec, dotProduct, Fin.sum_univ_three] <;> ring

/-- 2d aircraft: likewise, with the heading as only angle; the nose lies in the plane. -/
theorem C82_nose_2d (e : Entity realFmt) (s : Fin 4 → ℝ) (hs : e.state = toFl s) :
    ∃ (q : Fin 4 → ℝ) (nose : Fin 3 → ℝ), dubins2dOrientation e = .ok (toFl q) ∧
      (∀ b : Fin 3 → ℝ, rotApply (toFl q : Vec realFmt) (toFl b) = .ok (toFl (turnZYX (s 2) 0 0 b))) ∧
      rotApply (toFl q : Vec realFmt) (toFl ![1, 0, 0]) = .ok (toFl nose) ∧ inner3 nose nose = 1 ∧ nose 2 = 0 ∧
      dubins2dVelocity e = .ok (toFl fun i => s 3 * nose i) := by
  have hz : (0 : Fl realFmt) = .fin 0 := Fl.zero_fin
  obtain ⟨q, h1, -, h2⟩ := fromEuler_turn (s 2) 0 0
  refine ⟨q, _, ?_, h2, h2 _, ?_, ?_, ?_⟩
  · unfold dubins2dOrientation
    rw [hs, toFl4]
    simpa only [getIdx, bind, Except.bind, List.getElem?_cons_succ, List.getElem?_cons_zero, hz] using h1
  · have p1 := sin_sq_add_cos_sq (s 2)
    simp [inner3, turnZYX, Matrix.mulVec, dotProduct, Fin.sum_univ_three]
    linear_combination p1
  · simp [turnZYX, Matrix.mulVec, dotProduct, Fin.sum_univ_three]
  · have hv : dubins2dVelocity e = .ok (toFl (along (s 3) (s 2) 0)) := by
      unfold dubins2dVelocity
      rw [hs, toFl4]
      simp only [getIdx, bind, Except.bind, pure, Except.pure, List.getElem?_cons_succ, List.getElem?_cons_zero, hz, dubinsVelocity_fin]
    rw [hv]
    congr 2
    funext i
    fin_cases i <;> simp [along, turnZYX, Matrix.mulVec, dotProduct, Fin.sum_univ_three]

/-- The aircraft banks into its turn: flying forward (z down) with pitch and roll within a quarter turn, the heading increases (a
turn towards the body's y axis) exactly when that axis, as the orientation reports it, points below the horizon, and decreases
exactly when it points above. -/
theorem C82_bank (env : Env realFmt) (args : Dubins3dArgs realFmt) (p : Dubins3dParams ℝ) (hp : p.Of args) (e0 : Entity realFmt)
    (h0 : newDubins3d env args = .ok e0) (ops : List (Op realFmt)) (e : Entity realFmt) (he : e = e0.run env ops) (s : Fin 7 → ℝ)
    (hs : e.state = toFl s) (hv : 0 < s 6) (hp1 : -(π / 2) < s 4) (hp2 : s 4 < π / 2) (hr1 : -(π / 2) < s 5) (hr2 : s 5 < π / 2)
    (t : ℝ) (u : Fin 3 → ℝ) :
    ∃ (q : Fin 4 → ℝ) (wing : Fin 3 → ℝ) (d : Fin 7 → ℝ), dubins3dOrientation e = .ok (toFl q) ∧
      rotApply (toFl q : Vec realFmt) (toFl ![0, 1, 0]) = .ok (toFl wing) ∧
      e.dynamics.computeStateDot (.fin t) e.state (toFl u) = .ok (toFl d) ∧ (0 < d 3 ↔ 0 < wing 2) ∧ (d 3 < 0 ↔ wing 2 < 0) := by
  obtain ⟨q, -, h1, h2, -⟩ := C82_nose_3d e s hs
  obtain ⟨d, d1, -, d2⟩ := C50_turn_rate env args p hp e0 h0 ops e he s hv.ne' t u
  obtain ⟨d3, d4, -⟩ := d2 hv hr1 hr2
  refine ⟨q, _, d, h1, h2 _, by rw [hs]; exact d1, ?_, ?_⟩
  all_goals
    have hc : 0 < cos (s 4) := cos_pos_of_mem_Ioo ⟨hp1, hp2⟩
    have hw : turnZYX (s 3) (s 4) (s 5) ![0, 1, 0] 2 = cos (s 4) * sin (s 5) := by
      simp [turnZYX, Matrix.mulVec, dotProduct, Fin.sum_univ_three]
    have hpi := pi_pos
    rw [hw]
  · rw [d3, mul_pos_iff_of_pos_left hc]
    refine ⟨fun h => sin_pos_of_pos_of_lt_pi h (by linarith), fun h => ?_⟩
    by_contra hn
    exact absurd h (not_lt.2 (sin_nonpos_of_nonpos_of_neg_pi_le (not_lt.1 hn) (by linarith)))
  · rw [d4]
    constructor
    · intro h
      exact mul_neg_of_pos_of_neg hc (sin_neg_of_neg_of_neg_pi_lt h (by linarith))
    · intro h
      by_contra hn
      exact absurd h (not_lt.2 (mul_nonneg hc.le (sin_nonneg_of_nonneg_of_le_pi (not_lt.1 hn) (by linarith))))

/-- a banked, climbing aircraft -/
example : ∃ e0 : Entity realFmt, newDubins3d Demo.env
      { gammaMin := -1, gammaMax := 1, rollMin := -1, rollMax := 1, gammaRateMin := -1, gammaRateMax := 1
        rollRateMin := -1, rollRateMax := 1, accMin := -1, accMax := 1, kwargs := [("name", .str "a")] } = .ok e0 ∧
    (e0.run Demo.env [.setState (toFl ![0, 0, 0, 2, 1 / 2, -1, 300])]).state = toFl ![0, 0, 0, 2, 1 / 2, -1, 300] := ⟨_, rfl, rfl⟩
example : Dubins3dParams.Of (R := realFmt) ⟨200, 400, -1, 1, -1, 1, -1, 1, -1, 1, -1, 1⟩
    { gammaMin := -1, gammaMax := 1, rollMin := -1, rollMax := 1
      gammaRateMin := -1, gammaRateMax := 1, rollRateMin := -1, rollRateMax := 1, accMin := -1, accMax := 1, kwargs := [("name", .str "a")] } :=
  ⟨Fl.ofNat_fin 200, Fl.ofNat_fin 400, congrArg Fl.neg Fl.one_fin, Fl.one_fin, congrArg Fl.neg Fl.one_fin, Fl.one_fin,
    congrArg Fl.neg Fl.one_fin, Fl.one_fin, congrArg Fl.neg Fl.one_fin, Fl.one_fin, congrArg Fl.neg Fl.one_fin, Fl.one_fin⟩
example : -(π / 2) < (-1 : ℝ) ∧ (1 / 2 : ℝ) < π / 2 := by constructor <;> linarith [pi_gt_three]

/-- Planar spacecraft: `quaternion` is the quaternion of `orientation`, and thrust `fx, fy` along the body axes changes the computed
acceleration by that thrust divided by the mass, turned by the orientation. -/
theorem C82_thrust_planar (env : Env realFmt) (args : Rot2dArgs realFmt) (p : Rot2dParams ℝ) (hp : p.Of args) (e0 : Entity realFmt)
    (h0 : newRot2d env args = .ok e0) (ops : List (Op realFmt)) (e : Entity realFmt) (he : e = e0.run env ops) (s : Fin 6 → ℝ)
    (hs : e.state = toFl s) (t fx fy mz : ℝ) :
    ∃ (q : Fin 4 → ℝ) (f : Fin 3 → ℝ) (d d0 : Fin 6 → ℝ), rot2dOrientation e = .ok (toFl q) ∧ rot2dQuaternion e = .ok (toFl q) ∧
      rotApply (toFl q : Vec realFmt) (toFl ![fx, fy, 0]) = .ok (toFl f) ∧
      e.dynamics.computeStateDot (.fin t) e.state (toFl ![fx, fy, mz]) = .ok (toFl d) ∧
      e.dynamics.computeStateDot (.fin t) e.state (toFl ![0, 0, mz]) = .ok (toFl d0) ∧
      d 3 - d0 3 = f 0 / p.m ∧ d 4 - d0 4 = f 1 / p.m ∧ f 2 = 0 := by
  have hz : (0 : Fl realFmt) = .fin 0 := Fl.zero_fin
  have hss : s = ![s 0, s 1, s 2, s 3, s 4, s 5] := by funext i; fin_cases i <;> rfl
  obtain ⟨d, d1, -, -, d2, d3⟩ := C35_body_frame_thrust env args p hp e0 h0 ops t (s 0) (s 1) (s 2) (s 3) (s 4) (s 5) fx fy mz
  obtain ⟨d', d1', -, -, d2', d3'⟩ := C35_body_frame_thrust env args p hp e0 h0 ops t (s 0) (s 1) (s 2) (s 3) (s 4) (s 5) 0 0 mz
  refine ⟨eulerQ (s 2) 0 0, _, d, d', ?_, ?_, rotApply_fin _ _, ?_, ?_, ?_, ?_, ?_⟩
  · unfold rot2dOrientation
    rw [hs, toFl6]
    simpa only [getIdx, bind, Except.bind, List.getElem?_cons_succ, List.getElem?_cons_zero, hz] using fromEuler_fin (s 2) 0 0
  · unfold rot2dQuaternion
    rw [hs, toFl6, toFl4]
    simp only [getIdx, bind, Except.bind, pure, Except.pure, List.getElem?_cons_succ, List.getElem?_cons_zero, halve_fin, hz]
    simp [Fl.sin, Fl.cos, eulerQ]
    exact ⟨rfl, rfl⟩
  · rw [hs, hss, he]; exact d1
  · rw [hs, hss, he]; exact d1'
  · rw [eulerQ_turn, d2, d2']
    simp [cw, turn, turnZYX, Matrix.mulVec, dotProduct, Fin.sum_univ_three]
    ring
  · rw [eulerQ_turn, d3, d3']
    simp [cw, turn, turnZYX, Matrix.mulVec, dotProduct, Fin.sum_univ_three]
  · rw [eulerQ_turn]
    simp [turnZYX, Matrix.mulVec, dotProduct, Fin.sum_univ_three]

/-- Six degrees of freedom, body-frame thrust: the thrust changes the computed acceleration by thrust over mass, turned by the
orientation, but multiplied by the squared norm of the stored quaternion. `orientation` normalises; the dynamics do not. -/
theorem C82_thrust_sixdof (env : Env realFmt) (uninit : List Nat → Vec realFmt) (args : SixDofArgs realFmt) (p : SixDofParams ℝ) (hp : p.Of args)
    (hI : ∀ i, p.inertia i i ≠ 0) (e0 : Entity realFmt) (h0 : newSixDof env uninit args = .ok e0) (hb : args.bodyFrameThrust = true)
    (ops : List (Op realFmt)) (e : Entity realFmt) (he : e = e0.run env ops) (y : Fin 13 → ℝ) (hy : e.state = toFl y) (hq : quatOf y ≠ 0)
    (t : ℝ) (u : Fin 6 → ℝ) :
    ∃ (q : Fin 4 → ℝ) (f : Fin 3 → ℝ) (d d0 : Fin 13 → ℝ), sixDofOrientation e = .ok (toFl q) ∧ quatSq q = 1 ∧
      rotApply (toFl q : Vec realFmt) (toFl ![u 0, u 1, u 2]) = .ok (toFl f) ∧
      e.dynamics.computeStateDot (.fin t) e.state (toFl u) = .ok (toFl d) ∧
      e.dynamics.computeStateDot (.fin t) e.state (toFl ![0, 0, 0, u 3, u 4, u 5]) = .ok (toFl d0) ∧
      d 7 - d0 7 = quatSq (quatOf y) * f 0 / p.m ∧ d 8 - d0 8 = quatSq (quatOf y) * f 1 / p.m ∧
      d 9 - d0 9 = quatSq (quatOf y) * f 2 / p.m := by
  have hr := (sixDof_realised hp hI h0).1.run env ops
  rw [← he] at hr
  have hQ : 0 < quatSq (quatOf y) := by
    have hn : 0 ≤ quatSq (quatOf y) := by unfold quatSq; positivity
    refine lt_of_le_of_ne hn fun h => hq ?_
    unfold quatSq at h
    funext i
    have a0 := sq_nonneg (quatOf y 0)
    have a1 := sq_nonneg (quatOf y 1)
    have a2 := sq_nonneg (quatOf y 2)
    have a3 := sq_nonneg (quatOf y 3)
    have hz : ∀ j, quatOf y j ^ 2 = 0 := by
      intro j
      fin_cases j <;> simp only [Fin.zero_eta, Fin.mk_one, Fin.reduceFinMk] <;> linarith
    exact pow_eq_zero_iff two_ne_zero |>.1 (hz i)
  set r := √(quatSq (quatOf y)) with hrr
  have hr0 : 0 < r := sqrt_pos.2 hQ
  have hr2 : r ^ 2 = quatSq (quatOf y) := sq_sqrt hQ.le
  refine ⟨fun i => quatOf y i / r, _, _, _, ?_, ?_, rotApply_fin _ _, by rw [hy]; exact sixDof_field hr t y u, by rw [hy]; exact sixDof_field hr t y _, ?_, ?_, ?_⟩
  · unfold sixDofOrientation sixDofQuaternion
    have hst : (e.state.drop 3).take 4 = [.fin (y 3), .fin (y 4), .fin (y 5), .fin (y 6)] := by rw [hy, toFl13]; rfl
    rw [hst]
    have hno : Fl.sqrt ((.fin (y 3) : Fl realFmt) * .fin (y 3) + .fin (y 4) * .fin (y 4) + .fin (y 5) * .fin (y 5) + .fin (y 6) * .fin (y 6)) = .fin r := by
      simp only [Fl.fin_mul_fin, Fl.fin_add_fin]
      have hs : quatSq (quatOf y) = y 3 * y 3 + y 4 * y 4 + y 5 * y 5 + y 6 * y 6 := by simp [quatSq, quatOf]; ring
      rw [hrr, hs]
      unfold Fl.sqrt
      simp only
      rw [if_neg (by rw [← hs]; exact not_lt.2 hQ.le)]
      rfl
    simp only [hno]
    rw [if_neg (by simp [Fl.eqb, hr0.ne'])]
    rw [toFl4]
    simp only [Fl.fin_div_fin _ _ hr0.ne']
    rfl
  · unfold quatSq
    simp only [div_pow, hr2]
    rw [← add_div, ← add_div, ← add_div]
    exact div_self hQ.ne'
  all_goals
    simp [sixDofModel_field_orbit, sixDofRate, hillThrust, hb, krot]
    rw [← hr2]
    congr 1
    simp only [show quatOf y 0 = y 3 from rfl, show quatOf y 1 = y 4 from rfl, show quatOf y 2 = y 5 from rfl, show quatOf y 3 = y 6 from rfl]
    clear_value r
    field_simp

/-- a spacecraft with a quaternion of norm 2 -/
example : quatOf (K := ℝ) ![0, 0, 0, 0, 0, 0, 2, 0, 0, 0, 0, 0, 0] ≠ 0 ∧ quatSq (quatOf (K := ℝ) ![0, 0, 0, 0, 0, 0, 2, 0, 0, 0, 0, 0, 0]) = 4 := by
  refine ⟨fun h => by have := congrFun h 3; simp [quatOf] at this, by simp [quatSq, quatOf]; norm_num⟩

/-- The point mass has no attitude: its orientation maps every vector to itself. The Sun has none: reading it raises. -/
theorem C82_others (e : Entity realFmt) (b : Fin 3 → ℝ) :
    (∃ q, cwhOrientation e = .ok q ∧ rotApply q (toFl b) = .ok (toFl b)) ∧ sunOrientation e = .error .notImplementedError := by
  refine ⟨⟨_, rfl, ?_⟩, rfl⟩
  have h : ([0, 0, 0, 1] : Vec realFmt) = toFl ![0, 0, 0, 1] := by
    have h0 : (0 : Fl realFmt) = .fin 0 := Fl.zero_fin
    have h1 : (1 : Fl realFmt) = .fin 1 := Fl.one_fin
    rw [toFl4, h0, h1]; rfl
  rw [h, rotApply_fin]
  congr 2
  funext i
  fin_cases i <;> simp [krot]

end SAD
