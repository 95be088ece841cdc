import Verif.Props.PlanarSpin

/-! # C132: how fast the planar spacecraft turns -/

set_option linter.unusedSectionVars false

namespace SAD
open Spec Real

/-- what a stage at the angular velocity `w` contributes when the moment pushes upwards: nothing to the angular velocity from the limit `b` on, and the
limited angular velocity to the angle -/
def StageUp (b A w κ c : ℝ) : Prop :=
  (b ≤ w ∧ κ = 0 ∧ c = b) ∨ (-b ≤ w ∧ w < b ∧ κ = A ∧ c = w) ∨ (w < -b ∧ κ = A ∧ c = -b)

theorem StageUp.at {b A w κ c : ℝ} (h : StageUp b A w κ c) (hw : b ≤ w) (hb : 0 < b) : κ = 0 ∧ c = b := by
  rcases h with ⟨-, h⟩ | ⟨-, h, -⟩ | ⟨h, -⟩
  · exact h
  · linarith
  · linarith

theorem StageUp.below {b A w κ c : ℝ} (h : StageUp b A w κ c) (hw : w < b) : κ = A ∧ ((-b ≤ w ∧ c = w) ∨ (w < -b ∧ c = -b)) := by
  rcases h with ⟨h, -⟩ | ⟨h1, -, h2, h3⟩ | ⟨h1, h2, h3⟩
  · linarith
  · exact ⟨h2, .inl ⟨h1, h3⟩⟩
  · exact ⟨h2, .inr ⟨h1, h3⟩⟩

theorem StageUp.inside {b A w κ c : ℝ} (h : StageUp b A w κ c) (hw : w < b) (hw' : -b ≤ w) : κ = A ∧ c = w := by
  obtain ⟨h1, ⟨-, h2⟩ | ⟨h2, -⟩⟩ := h.below hw
  · exact ⟨h1, h2⟩
  · linarith

theorem stages_up {b A x k1 k2 k3 k4 k5 k6 c1 c2 c3 c4 c5 c6 : ℝ} (hb : 0 < b) (hA : 0 ≤ A) (hx : -b ≤ x)
    (s1 : StageUp b A x k1 c1) (s2 : StageUp b A (x + 1 / 5 * k1) k2 c2)
    (s3 : StageUp b A (x + (3 / 40 * k1 + 9 / 40 * k2)) k3 c3)
    (s4 : StageUp b A (x + (44 / 45 * k1 + -56 / 15 * k2 + 32 / 9 * k3)) k4 c4)
    (s5 : StageUp b A (x + (19372 / 6561 * k1 + -25360 / 2187 * k2 + 64448 / 6561 * k3 + -212 / 729 * k4)) k5 c5)
    (s6 : StageUp b A (x + (9017 / 3168 * k1 + -355 / 33 * k2 + 46732 / 5247 * k3 + 49 / 176 * k4 + -5103 / 18656 * k5)) k6 c6) :
    (-b ≤ 35 / 384 * c1 + 500 / 1113 * c3 + 125 / 192 * c4 + -2187 / 6784 * c5 + 11 / 84 * c6 ∧
      35 / 384 * c1 + 500 / 1113 * c3 + 125 / 192 * c4 + -2187 / 6784 * c5 + 11 / 84 * c6 ≤ b) ∧
    0 ≤ 35 / 384 * k1 + 500 / 1113 * k3 + 125 / 192 * k4 + -2187 / 6784 * k5 + 11 / 84 * k6 ∧
    (35 / 384 * k1 + 500 / 1113 * k3 + 125 / 192 * k4 + -2187 / 6784 * k5 + 11 / 84 * k6 ≤ A ∨ b ≤ x + A) := by
  rcases le_or_gt b x with t1 | t1
  · obtain ⟨rfl, rfl⟩ := s1.at t1 hb
    obtain ⟨rfl, -⟩ := s2.at (by linarith) hb
    obtain ⟨rfl, rfl⟩ := s3.at (by linarith) hb
    obtain ⟨rfl, rfl⟩ := s4.at (by linarith) hb
    obtain ⟨rfl, rfl⟩ := s5.at (by linarith) hb
    obtain ⟨rfl, rfl⟩ := s6.at (by linarith) hb
    exact ⟨⟨by linarith, by linarith⟩, by linarith, .inr (by linarith)⟩
  obtain ⟨e1, e1'⟩ := s1.inside t1 hx
  rw [e1] at s2 s3 s4 s5 s6 ⊢
  rw [e1']
  rcases le_or_gt b (x + 1 / 5 * A) with t2 | t2
  · obtain ⟨e2, -⟩ := s2.at t2 hb
    rw [e2] at s3 s4 s5 s6
    rcases le_or_gt b (x + 3 / 40 * A) with t3 | t3
    · obtain ⟨e3, f3⟩ := s3.at (by linarith) hb
      rw [e3] at s4 s5 s6 ⊢
      obtain ⟨e4, f4⟩ := s4.at (by linarith) hb
      rw [e4] at s5 s6 ⊢
      obtain ⟨e5, f5⟩ := s5.at (by linarith) hb
      rw [e5] at s6 ⊢
      obtain ⟨e6, f6⟩ := s6.at (by linarith) hb
      rw [e6, f3, f4, f5, f6]
      exact ⟨⟨by linarith, by linarith⟩, by linarith, .inr (by linarith)⟩
    · obtain ⟨e3, f3⟩ := s3.inside (by linarith) (by linarith)
      rw [e3] at s4 s5 s6 ⊢
      obtain ⟨e4, f4⟩ := s4.at (by linarith) hb
      rw [e4] at s5 s6 ⊢
      obtain ⟨e5, f5⟩ := s5.at (by linarith) hb
      rw [e5] at s6 ⊢
      obtain ⟨e6, f6⟩ := s6.at (by linarith) hb
      rw [e6, f3, f4, f5, f6]
      exact ⟨⟨by linarith, by linarith⟩, by linarith, .inr (by linarith)⟩
  obtain ⟨e2, -⟩ := s2.inside t2 (by linarith)
  rw [e2] at s3 s4 s5 s6
  rcases le_or_gt b (x + 3 / 10 * A) with t3 | t3
  · obtain ⟨e3, f3⟩ := s3.at (by linarith) hb
    rw [e3] at s4 s5 s6 ⊢
    obtain ⟨e4, f4⟩ := s4.below (by linarith)
    rw [e4] at s5 s6 ⊢
    obtain ⟨e5, f5⟩ := s5.below (by linarith)
    rw [e5] at s6 ⊢
    obtain ⟨e6, f6⟩ := s6.below (by linarith)
    rw [e6, f3]
    clear s1 s2 s3 s4 s5 s6 e1 e1' e2 e3 e4 e5 e6 f3
    refine ⟨?_, by linarith, .inr (by linarith)⟩
    rcases f4 with ⟨g4, rfl⟩ | ⟨g4, rfl⟩ <;> rcases f5 with ⟨g5, rfl⟩ | ⟨g5, rfl⟩ <;> rcases f6 with ⟨g6, rfl⟩ | ⟨g6, rfl⟩ <;>
      constructor <;> linarith
  obtain ⟨e3, f3⟩ := s3.inside (by linarith) (by linarith)
  rw [e3] at s4 s5 s6 ⊢
  rcases le_or_gt b (x + 4 / 5 * A) with t4 | t4
  · obtain ⟨e4, f4⟩ := s4.at (by linarith) hb
    rw [e4] at s5 s6 ⊢
    obtain ⟨e5, f5⟩ := s5.at (by linarith) hb
    rw [e5] at s6 ⊢
    obtain ⟨e6, f6⟩ := s6.at (by linarith) hb
    rw [e6, f3, f4, f5, f6]
    exact ⟨⟨by linarith, by linarith⟩, by linarith, .inr (by linarith)⟩
  obtain ⟨e4, f4⟩ := s4.inside (by linarith) (by linarith)
  rw [e4] at s5 s6 ⊢
  rcases le_or_gt b (x + 8 / 9 * A) with t5 | t5
  · obtain ⟨e5, f5⟩ := s5.at (by linarith) hb
    rw [e5] at s6 ⊢
    obtain ⟨e6, f6⟩ := s6.at (by linarith) hb
    rw [e6, f3, f4, f5, f6]
    exact ⟨⟨by linarith, by linarith⟩, by linarith, .inr (by linarith)⟩
  obtain ⟨e5, f5⟩ := s5.inside (by linarith) (by linarith)
  rw [e5] at s6 ⊢
  rcases le_or_gt b (x + A) with t6 | t6
  · obtain ⟨e6, f6⟩ := s6.at (by linarith) hb
    rw [e6, f3, f4, f5, f6]
    exact ⟨⟨by linarith, by linarith⟩, by linarith, .inr (by linarith)⟩
  · obtain ⟨e6, f6⟩ := s6.inside (by linarith) (by linarith)
    rw [e6, f3, f4, f5, f6]
    exact ⟨⟨by linarith, by linarith⟩, by linarith, .inl (by linarith)⟩

theorem clamp_neg' {b : ℝ} (h : 0 ≤ b) (x : ℝ) : min (max (-x) (-b)) b = -min (max x (-b)) b := by
  rcases le_total x b with h1 | h1 <;> rcases le_total (-b) x with h2 | h2
  · rw [max_eq_left (by linarith), max_eq_left h2, min_eq_left (by linarith), min_eq_left h1]
  · rw [max_eq_left (by linarith), max_eq_right h2, min_eq_right (by linarith), min_eq_left (by linarith), neg_neg]
  · rw [max_eq_right (by linarith), max_eq_left h2, min_eq_left (by linarith), min_eq_right h1]
  · obtain rfl : b = 0 := by linarith
    obtain rfl : x = 0 := by linarith
    simp

theorem stage_up {acc vel α h : ℝ} (hvel : 0 < vel) (hα : 0 ≤ α) (ha : α ≤ acc) (t : ℝ) (q : ℝ × ℝ) {w : ℝ} (hw : w = q.2) :
    StageUp vel (h * α) w (h * (attitudeField acc vel α t q).2) (attitudeField acc vel α t q).1 := by
  subst hw
  have e : kclip (some (-acc)) (some acc) α = α := kclip_within (by linarith) ha
  simp only [attitudeField, klimit, e, Option.some.injEq, exists_eq_left']
  rcases le_or_gt vel q.2 with h1 | h1
  · refine .inl ⟨h1, by rw [if_pos h1, min_eq_right hα, mul_zero], ?_⟩
    simp only [kclip]
    rw [max_eq_left (by linarith), min_eq_right h1]
  · rw [if_neg (not_le.2 h1)]
    have : (if q.2 ≤ -vel then max α 0 else α) = α := by split <;> simp [hα]
    rw [this]
    simp only [kclip]
    rcases le_or_gt (-vel) q.2 with h2 | h2
    · exact .inr (.inl ⟨h2, h1, rfl, by rw [max_eq_left h2, min_eq_left h1.le]⟩)
    · exact .inr (.inr ⟨h2, rfl, by rw [max_eq_right h2.le, min_eq_left (by linarith)]⟩)

theorem kdopri_stages (F : ℝ → ℝ × ℝ → ℝ × ℝ) (t h : ℝ) (y : ℝ × ℝ) : ∃ k1 k2 k3 k4 k5 k6 : ℝ × ℝ, ∃ t2 t3 t4 t5 t6 : ℝ, k1 = F t y ∧
    k2 = F t2 (y + h • ((1 / 5 : ℝ) • k1)) ∧ k3 = F t3 (y + h • ((3 / 40 : ℝ) • k1 + (9 / 40 : ℝ) • k2)) ∧
    k4 = F t4 (y + h • ((44 / 45 : ℝ) • k1 + (-56 / 15 : ℝ) • k2 + (32 / 9 : ℝ) • k3)) ∧
    k5 = F t5 (y + h • ((19372 / 6561 : ℝ) • k1 + (-25360 / 2187 : ℝ) • k2 + (64448 / 6561 : ℝ) • k3 + (-212 / 729 : ℝ) • k4)) ∧
    k6 = F t6 (y + h • ((9017 / 3168 : ℝ) • k1 + (-355 / 33 : ℝ) • k2 + (46732 / 5247 : ℝ) • k3 + (49 / 176 : ℝ) • k4 + (-5103 / 18656 : ℝ) • k5)) ∧
    rkStep kdopri F t h y = y + h • ((35 / 384 : ℝ) • k1 + (0 : ℝ) • k2 + (500 / 1113 : ℝ) • k3 + (125 / 192 : ℝ) • k4 + (-2187 / 6784 : ℝ) • k5
      + (11 / 84 : ℝ) • k6) :=
  ⟨_, _, _, _, _, _, _, _, _, _, _, rfl, rfl, rfl, rfl, rfl, rfl, by
    simp only [rkStep, kdopri, rkStages, combo, List.zip_cons_cons, List.foldl_cons, List.zip_nil_right, List.foldl_nil, zero_add,
      List.cons_append, List.nil_append]; rfl⟩

/-- one solver step under a moment that pushes upwards -/
theorem step_up {acc vel α : ℝ} (hvel : 0 < vel) (hα : 0 ≤ α) (ha : α ≤ acc) (t : ℝ) {h : ℝ} (hh : 0 ≤ h) (θ x : ℝ) (hx : -vel ≤ x) :
    |(rkStep kdopri (attitudeField acc vel α) t h (θ, x)).1 - θ| ≤ vel * h ∧ x ≤ (rkStep kdopri (attitudeField acc vel α) t h (θ, x)).2 ∧
      ((rkStep kdopri (attitudeField acc vel α) t h (θ, x)).2 ≤ x + h * α ∨ vel ≤ x + h * α) := by
  have S : ∀ {t q k}, k = attitudeField acc vel α t q → ∀ w, w = q.2 → StageUp vel (h * α) w (h * k.2) k.1 := by
    rintro t q k rfl w hw
    exact stage_up hvel hα ha t q hw
  obtain ⟨k1, k2, k3, k4, k5, k6, t2, t3, t4, t5, t6, h1, h2, h3, h4, h5, h6, e⟩ := kdopri_stages (attitudeField acc vel α) t h (θ, x)
  have s1 := S h1 x rfl
  have s2 := S h2 (x + 1 / 5 * (h * k1.2)) (by
    simp only [Prod.snd_add, Prod.smul_snd, smul_eq_mul]; ring)
  have s3 := S h3 (x + (3 / 40 * (h * k1.2) + 9 / 40 * (h * k2.2))) (by
    simp only [Prod.snd_add, Prod.smul_snd, smul_eq_mul]; ring)
  have s4 := S h4 (x + (44 / 45 * (h * k1.2) + -56 / 15 * (h * k2.2) + 32 / 9 * (h * k3.2))) (by
    simp only [Prod.snd_add, Prod.smul_snd, smul_eq_mul]; ring)
  have s5 := S h5 (x + (19372 / 6561 * (h * k1.2) + -25360 / 2187 * (h * k2.2) + 64448 / 6561 * (h * k3.2) + -212 / 729 * (h * k4.2))) (by
    simp only [Prod.snd_add, Prod.smul_snd, smul_eq_mul]; ring)
  have s6 := S h6 (x + (9017 / 3168 * (h * k1.2) + -355 / 33 * (h * k2.2) + 46732 / 5247 * (h * k3.2) + 49 / 176 * (h * k4.2)
    + -5103 / 18656 * (h * k5.2))) (by
    simp only [Prod.snd_add, Prod.smul_snd, smul_eq_mul]; ring)
  obtain ⟨⟨b1, b2⟩, b3, b4⟩ := stages_up hvel (mul_nonneg hh hα) hx s1 s2 s3 s4 s5 s6
  rw [e]
  simp only [Prod.snd_add, Prod.smul_snd, Prod.fst_add, Prod.smul_fst, smul_eq_mul]
  refine ⟨?_, by linarith, ?_⟩
  · rw [add_sub_cancel_left, abs_mul, abs_of_nonneg hh, mul_comm vel]
    refine mul_le_mul_of_nonneg_left (abs_le.2 ⟨by linarith, by linarith⟩) hh
  · rcases b4 with b4 | b4
    · left; linarith
    · exact .inr b4

/-- a call under a moment that pushes upwards: how far it turns, and how much the angular velocity, limited at the end, grows -/
theorem chain_up {acc vel α : ℝ} (hvel : 0 < vel) (hα : 0 ≤ α) (ha : α ≤ acc) (hs : List ℝ) : ∀ (t θ x : ℝ), (∀ h ∈ hs, 0 ≤ h) → -vel ≤ x →
    |(rkChain kdopri (attitudeField acc vel α) t (θ, x) hs).1 - θ| ≤ vel * hs.sum ∧
      x ≤ (rkChain kdopri (attitudeField acc vel α) t (θ, x) hs).2 ∧
      ((rkChain kdopri (attitudeField acc vel α) t (θ, x) hs).2 ≤ x + hs.sum * α ∨ vel ≤ x + hs.sum * α) := by
  induction hs with
  | nil => intro t θ x _ _; simp [rkChain]
  | cons h hs ih =>
    intro t θ x hh hx
    obtain ⟨a1, a2, a3⟩ := step_up hvel hα ha t (hh h (by simp)) θ x hx
    have hs0 : 0 ≤ hs.sum * α := mul_nonneg (List.sum_nonneg fun z hz => hh z (by simp [hz])) hα
    simp only [rkChain, List.sum_cons]
    obtain ⟨⟨θ1, x1⟩, hq⟩ : ∃ q, q = rkStep kdopri (attitudeField acc vel α) t h (θ, x) := ⟨_, rfl⟩
    rw [← hq] at a1 a2 a3 ⊢
    simp only at a1 a2 a3
    obtain ⟨b1, b2, b3⟩ := ih (t + h) θ1 x1 (fun z hz => hh z (by simp [hz])) (by linarith)
    refine ⟨?_, by linarith, ?_⟩
    · rw [abs_le] at a1 b1 ⊢
      constructor <;> linarith [a1.1, a1.2, b1.1, b1.2]
    · rcases a3 with a3 | a3
      · rcases b3 with b3 | b3
        · left; linarith
        · right; linarith
      · right; linarith

/-- the same for any moment within the limits -/
theorem chain_turn {acc vel α : ℝ} (hvel : 0 < vel) (ha1 : -acc ≤ α) (ha : α ≤ acc) (hs : List ℝ) (t θ x : ℝ) (h0 : ∀ h ∈ hs, 0 ≤ h)
    (hx : -vel ≤ x ∧ x ≤ vel) :
    |(rkChain kdopri (attitudeField acc vel α) t (θ, x) hs).1 - θ| ≤ vel * hs.sum ∧
      |min (max (rkChain kdopri (attitudeField acc vel α) t (θ, x) hs).2 (-vel)) vel - x| ≤ acc * hs.sum := by
  have hsum : 0 ≤ hs.sum := List.sum_nonneg h0
  have up : ∀ {α θ x : ℝ}, 0 ≤ α → α ≤ acc → (-vel ≤ x ∧ x ≤ vel) →
      |(rkChain kdopri (attitudeField acc vel α) t (θ, x) hs).1 - θ| ≤ vel * hs.sum ∧
      |min (max (rkChain kdopri (attitudeField acc vel α) t (θ, x) hs).2 (-vel)) vel - x| ≤ acc * hs.sum := by
    intro α θ x hα ha hx
    obtain ⟨b1, b2, b3⟩ := chain_up hvel hα ha hs t θ x h0 hx.1
    refine ⟨b1, ?_⟩
    have hle : hs.sum * α ≤ acc * hs.sum := by rw [mul_comm]; exact mul_le_mul_of_nonneg_right ha hsum
    rw [max_eq_left (by linarith [hx.1]), abs_le]
    constructor
    · have : x ≤ min (rkChain kdopri (attitudeField acc vel α) t (θ, x) hs).2 vel := le_min b2 hx.2
      have : 0 ≤ acc * hs.sum := le_trans (mul_nonneg hsum hα) hle
      linarith
    · rcases b3 with b3 | b3
      · have := min_le_left (rkChain kdopri (attitudeField acc vel α) t (θ, x) hs).2 vel
        linarith
      · have := min_le_right (rkChain kdopri (attitudeField acc vel α) t (θ, x) hs).2 vel
        linarith
  rcases le_total 0 α with hα | hα
  · exact up hα ha hx
  · have hneg := rkChain_map kdopri (-LinearMap.id : ℝ × ℝ →ₗ[ℝ] ℝ × ℝ) (attitudeField acc vel α) (attitudeField acc vel (-α)) (by
      intro t q
      have e1 : kclip (some (-acc)) (some acc) α = α := kclip_within ha1 ha
      have e2 : kclip (some (-acc)) (some acc) (-α) = -α := kclip_within (by linarith) (by linarith)
      refine Prod.ext ?_ ?_
      · have := clamp_neg' hvel.le q.2
        simp [attitudeField, kclip, this]
      · simp only [attitudeField, klimit, e1, e2, Option.some.injEq, exists_eq_left', LinearMap.neg_apply, LinearMap.id_coe, id_eq, Prod.snd_neg]
        rcases le_or_gt vel q.2 with g1 | g1
        · rw [if_pos g1, if_neg (by linarith), if_pos (by linarith), min_eq_left hα, max_eq_left (by linarith)]
        · rw [if_neg (not_le.2 g1)]
          rcases le_or_gt q.2 (-vel) with g2 | g2
          · rw [if_pos g2, if_pos (by linarith), max_eq_right hα, min_eq_right (by linarith), neg_zero]
          · rw [if_neg (not_le.2 g2), if_neg (by linarith), if_neg (by linarith)]) t (θ, x) hs
    obtain ⟨b1, b2⟩ := up (α := -α) (θ := -θ) (x := -x) (by linarith) (by linarith) ⟨by linarith, by linarith⟩
    have e : (-LinearMap.id : ℝ × ℝ →ₗ[ℝ] ℝ × ℝ) (θ, x) = (-θ, -x) := by simp
    rw [e] at hneg
    rw [← hneg] at b1 b2
    simp only [LinearMap.neg_apply, LinearMap.id_coe, id_eq, Prod.fst_neg, Prod.snd_neg] at b1 b2
    refine ⟨?_, ?_⟩
    · rw [← abs_neg]; convert b1 using 2; ring
    · rw [← abs_neg]
      convert b2 using 2
      rw [clamp_neg' hvel.le]; ring

theorem clamp_near {b x w d : ℝ} (hx : -b ≤ x ∧ x ≤ b) (h : |w - x| ≤ d) : |min (max w (-b)) b - x| ≤ d := by
  have hd : 0 ≤ d := (abs_nonneg _).trans h
  rw [abs_le] at h ⊢
  constructor
  · have : x - d ≤ min (max w (-b)) b := le_min (le_max_of_le_left (by linarith)) (by linarith)
    linarith
  · have : min (max w (-b)) b ≤ x + d := (min_le_left _ _).trans (max_le (by linarith) (by linarith))
    linarith

/-- C132: no actions turn the planar spacecraft faster than its limits, with either method and whatever steps the solver takes. In the time `t` its
angular velocity changes by at most `t` times the limit of the angular acceleration, and the spacecraft turns by at most `t` times the limit of the
angular velocity. -/
theorem C132_turn (env : Env realFmt) (henv : IsRk dopri env) (args : Rot2dArgs realFmt) (p : Rot2dParams ℝ) (hp : p.Of args)
    (hI : 0 < p.inertia) (hacc : 0 ≤ p.accLimit) (hvel : 0 < p.velLimit) (e0 : Entity realFmt) (h0 : newRot2d env args = .ok e0)
    (hm : PlainMethod e0.dynamics) (ops : List (Op realFmt)) (e : Entity realFmt) (he : e = e0.run env ops)
    (x y θ vx vy ω : ℝ) (hs : e.state = [.fin x, .fin y, .fin θ, .fin vx, .fin vy, .fin ω]) (hω : -p.velLimit ≤ ω ∧ ω ≤ p.velLimit)
    (hist : List (ℝ × Action realFmt)) (hu : ∀ h ∈ hist, 0 ≤ h.1 ∧ ∃ u : Fin 3 → ℝ, Asks env e h.2 u) :
    ∃ x' y' θ' vx' vy' ω' turned : ℝ, (e.run env (stepsOf hist)).state = [.fin x', .fin y', .fin θ', .fin vx', .fin vy', .fin ω'] ∧
      |ω' - ω| ≤ p.accLimit * elapsed env e hist ∧ |turned| ≤ p.velLimit * elapsed env e hist ∧ SameAngle π (θ + turned) θ' := by
  have hc := run_sameConfig env ops e0
  have hr := (rot2d_realised hp h0).1.congr hc
  have hm' := plain_congr hc hm
  rw [← he] at hr hm'
  obtain ⟨y', g1, -, g2, turned, g3, g4⟩ := Realises.run_timed henv pi_pos (M := rot2dModel realFmt p.m p.inertia p.n p.accLimit p.velLimit)
    (d := e.dynamics)
    (fun τ z => (-p.velLimit ≤ z 5 ∧ z 5 ≤ p.velLimit) ∧ |z 5 - ω| ≤ p.accLimit * τ ∧
      ∃ turned, |turned| ≤ p.velLimit * τ ∧ SameAngle π (θ + turned) (z 2))
    (fun T _ => 0 ≤ T) (S := fun _ => True) (D := ⊤) (fun _ _ => trivial)
    (fun _ _ _ => ⟨fun _ _ _ => trivial, fun _ _ _ _ => trivial⟩) (fun _ _ _ => trivial)
    (by
      rintro τ T u hT tab hs z hrun ⟨q1, q2, turned, q3, k, q4⟩
      have hmap := attitude_map p.m p.inertia p.n p.accLimit p.velLimit
        ((rot2dModel realFmt p.m p.inertia p.n p.accLimit p.velLimit).sat u) tab z hs
      rw [sat_moment] at hmap
      obtain ⟨a1, a2⟩ := moment_acc p hI hacc (u 2)
      obtain ⟨α, hα⟩ : ∃ α, α = moment p (u 2) / p.inertia := ⟨_, rfl⟩
      rw [← hα] at hmap a1 a2
      have hturn : |(rkChain tab (attitudeField p.accLimit p.velLimit α) 0 (z 2, z 5) hs).1 - z 2| ≤ p.velLimit * T ∧
          |min (max (rkChain tab (attitudeField p.accLimit p.velLimit α) 0 (z 2, z 5) hs).2 (-p.velLimit)) p.velLimit - z 5| ≤ p.accLimit * T := by
        rcases hrun.kind with ⟨-, rfl⟩ | ⟨-, rfl, rfl⟩
        · have := chain_turn hvel a1 a2 hs 0 (z 2) (z 5) (hrun.nonneg hT) q1
          rwa [hrun.sum] at this
        · rw [rkChain_keuler]
          simp only [attitudeField, Prod.fst_add, Prod.snd_add, Prod.smul_fst, Prod.smul_snd, smul_eq_mul, kclip_within q1.1 q1.2]
          refine ⟨?_, clamp_near q1 ?_⟩
          · rw [add_sub_cancel_left, abs_mul, abs_of_nonneg hT, mul_comm]
            exact mul_le_mul_of_nonneg_right (abs_le.2 q1) hT
          · rw [add_sub_cancel_left, abs_mul, abs_of_nonneg hT, mul_comm]
            refine mul_le_mul_of_nonneg_right (abs_le.2 ?_) hT
            rw [klimit, kclip_within a1 a2]
            split_ifs
            · exact ⟨le_min a1 (by linarith), min_le_of_left_le a2⟩
            · exact ⟨le_max_of_le_left a1, max_le a2 hacc⟩
            · exact ⟨a1, a2⟩
      rw [← hmap] at hturn
      obtain ⟨w, hw⟩ : ∃ w, w = rkChain tab ((rot2dModel realFmt p.m p.inertia p.n p.accLimit p.velLimit).field
        ((rot2dModel realFmt p.m p.inertia p.n p.accLimit p.velLimit).sat u)) 0 z hs := ⟨_, rfl⟩
      rw [← hw] at hturn ⊢
      simp only [attitude2, LinearMap.prod_apply, Function.prod, LinearMap.proj_apply] at hturn
      obtain ⟨p1, p2⟩ := attitude_post p.m p.inertia p.n p.accLimit p.velLimit w
      obtain ⟨t1, t2⟩ := hturn
      rw [← p2] at t2
      refine ⟨?_, ?_, turned + (w 2 - z 2), ?_, SameAngle.trans ⟨k, ?_⟩ p1⟩
      · rw [p2]
        exact ⟨le_min (le_max_right _ _) (by linarith), min_le_right _ _⟩
      · have := abs_sub_le ((rot2dModel realFmt p.m p.inertia p.n p.accLimit p.velLimit).post realFmt.pi w 5) (z 5) ω
        linarith
      · have := abs_add_le turned (w 2 - z 2)
        linarith
      · rw [q4]; ring)
    hist hr hm' rfl (fun h hh => by
      obtain ⟨h1, u, h2⟩ := hu h hh
      exact ⟨u, h2, h1⟩) (τ := 0) (y := ![x, y, θ, vx, vy, ω])
    (by rw [hs, toFl6]; rfl) ⟨hω, by simp, 0, by simp, 0, by simp⟩
  rw [zero_add] at g2 g3
  exact ⟨y' 0, y' 1, y' 2, y' 3, y' 4, y' 5, turned, by rw [g1, toFl6], g2, g3, g4⟩

/-- C132: a turn from rest to rest. A moment for the time `T`, then the opposite moment for the time `T`, with RK45: the spacecraft is at rest again,
turned by exactly `α T²`, if the angular velocity `α T` in the middle is below the limit; whatever the thrusters do, whatever steps the solver takes
and however the two halves are split into calls. -/
theorem C132_rest_to_rest (env : Env realFmt) (henv : IsRk dopri env) (args : Rot2dArgs realFmt) (p : Rot2dParams ℝ) (hp : p.Of args)
    (hI : 0 < p.inertia) (hacc : 0 ≤ p.accLimit) (hvel : 0 < p.velLimit) (e0 : Entity realFmt) (h0 : newRot2d env args = .ok e0)
    (hm : e0.dynamics.integrationMethod = "RK45") (ops : List (Op realFmt)) (e : Entity realFmt) (he : e = e0.run env ops)
    (x y θ vx vy mz α T : ℝ) (hs : e.state = [.fin x, .fin y, .fin θ, .fin vx, .fin vy, .fin 0])
    (hα : α = min (max mz (-(p.accLimit * p.inertia))) (p.accLimit * p.inertia) / p.inertia)
    (first second : List (ℝ × Action realFmt))
    (h1 : ∀ h ∈ first, 0 ≤ h.1 ∧ ∃ fx fy : ℝ, Asks env e h.2 ![fx, fy, mz])
    (h2 : ∀ h ∈ second, 0 ≤ h.1 ∧ ∃ fx fy : ℝ, Asks env e h.2 ![fx, fy, -mz])
    (t1 : elapsed env e first = T) (t2 : elapsed env (e.run env (stepsOf first)) second = T) (hT : |α * T| < p.velLimit) :
    ∃ x' y' θ' vx' vy' : ℝ, ((e.run env (stepsOf first)).run env (stepsOf second)).state
        = [.fin x', .fin y', .fin θ', .fin vx', .fin vy', .fin 0] ∧ SameAngle π (θ + α * T ^ 2) θ' := by
  rw [abs_lt] at hT
  obtain ⟨x1, y1, θ1, vx1, vy1, s1, k1⟩ := C105_spin_up env henv args p hp hI hacc e0 h0 hm ops e he x y θ vx vy 0 mz α hs hα
    ⟨by linarith, hvel⟩ first h1 (by rw [t1, zero_add]; exact hT)
  rw [t1, zero_add] at s1
  rw [t1] at k1
  have hα' : -α = min (max (-mz) (-(p.accLimit * p.inertia))) (p.accLimit * p.inertia) / p.inertia := by
    rw [clamp_neg' (by positivity), hα, neg_div]
  have hrun : e.run env (stepsOf first) = e0.run env (ops ++ stepsOf first) := by
    rw [he, Entity.run, Entity.run, Entity.run, List.foldl_append]
  have hc := run_sameConfig env (stepsOf first) e
  obtain ⟨x2, y2, θ2, vx2, vy2, s2, k2⟩ := C105_spin_up env henv args p hp hI hacc e0 h0 hm (ops ++ stepsOf first) _ hrun
    x1 y1 θ1 vx1 vy1 (α * T) (-mz) (-α) s1 hα' hT second
    (fun h hh => by
      obtain ⟨q1, fx, fy, q2⟩ := h2 h hh
      exact ⟨q1, fx, fy, requests_congr hc q2⟩)
    (by rw [t2]; constructor <;> linarith)
  rw [t2, show α * T + -α * T = 0 by ring] at s2
  rw [t2] at k2
  refine ⟨x2, y2, θ2, vx2, vy2, s2, SameAngle.trans ?_ k2⟩
  obtain ⟨k, hk⟩ := k1
  exact ⟨k, by rw [hk]; ring⟩

/-- The turn of the example: a spacecraft with limits 1 at rest is asked for a moment of 1/2 for one second and of -1/2 for another. It ends at rest,
turned by 1/2, and both calls return; after the first one `C132_turn` says that it has turned by at most 1. -/
example : ∃ e0 : Entity realFmt, newRot2d (rkEnv dopri (fun _ _ _ => [1, 2])) (Demo.jaxArgs "RK45" false) = .ok e0 ∧
    ∃ e1 e2 : Entity realFmt,
      e1 = (e0.run (rkEnv dopri (fun _ _ _ => [1, 2])) [.setState [.fin 5, .fin 0, .fin 2, .fin 1, .fin 0, .fin 0]]).run
        (rkEnv dopri (fun _ _ _ => [1, 2])) (stepsOf [(1, .ndarray .f64 [.fin (1 / 3), .fin 0, .fin (1 / 2)])]) ∧
      e2 = e1.run (rkEnv dopri (fun _ _ _ => [1, 2])) (stepsOf [(1, .ndarray .f64 [.fin (1 / 3), .fin 0, .fin (-(1 / 2))])]) ∧
      (∃ x y θ vx vy ω turned : ℝ, e1.state = [.fin x, .fin y, .fin θ, .fin vx, .fin vy, .fin ω] ∧ |ω - 0| ≤ 1 * 1 ∧ |turned| ≤ 1 * 1 ∧
        SameAngle π (2 + turned) θ) ∧
      ∃ x y θ vx vy : ℝ, e2.state = [.fin x, .fin y, .fin θ, .fin vx, .fin vy, .fin 0] ∧ SameAngle π (2 + 1 / 2 * 1 ^ 2) θ := by
  obtain ⟨e, h⟩ := Demo.jax_rot2d (rkEnv dopri (fun _ _ _ => [1, 2])) false rfl "RK45"
  obtain ⟨hr, -, -, hm, -⟩ := rot2d_realised (Demo.jaxParams_of _ _) h
  have hv : Demo.jaxParams.velLimit = 1 := by simp [Demo.jaxParams, Rot2dParams.velLimit]
  have ha : Demo.jaxParams.accLimit = 1 := by simp [Demo.jaxParams, Rot2dParams.accLimit]
  have hi : Demo.jaxParams.inertia = 1 := rfl
  have one : ∀ (ops : List (Op realFmt)) (y : Fin 6 → ℝ) (m : ℝ), (e.run (rkEnv dopri (fun _ _ _ => [1, 2])) ops).state = toFl y →
      elapsed (rkEnv dopri (fun _ _ _ => [1, 2])) (e.run (rkEnv dopri (fun _ _ _ => [1, 2])) ops)
        [(1, .ndarray .f64 [.fin (1 / 3), .fin 0, .fin m])] = 1 := fun ops y m hy =>
    elapsed_one (Realises.step_fixed (R := realFmt) [1, 2] pi_pos (hr.congr (run_sameConfig _ _ _))
      (plain_congr (run_sameConfig _ _ _) (.inl hm)) (a := .ndarray .f64 [.fin (1 / 3), .fin 0, .fin m]) (u := ![1 / 3, 0, m]) ⟨.f64, .array _ _⟩
      (S := fun _ => True) (D := ⊤) (fun _ _ => trivial)
      ⟨fun _ _ _ => trivial, fun _ _ _ _ => trivial⟩ (y := y) hy trivial 1).1
  have q1 := one [.setState [.fin 5, .fin 0, .fin 2, .fin 1, .fin 0, .fin 0]] ![5, 0, 2, 1, 0, 0] (1 / 2) (by rw [toFl6]; rfl)
  have henv : IsRk dopri (rkEnv (R := realFmt) dopri (fun _ _ _ => [1, 2])) := rkEnv_isRk _
  have hturn := C132_turn _ henv _ _ (Demo.jaxParams_of "RK45" false) (by rw [hi]; norm_num) (by rw [ha]; norm_num) (by rw [hv]; norm_num) e h
    (.inl hm) [.setState [.fin 5, .fin 0, .fin 2, .fin 1, .fin 0, .fin 0]] _ rfl 5 0 2 1 0 0 rfl (by rw [hv]; norm_num)
    [(1, .ndarray .f64 [.fin (1 / 3), .fin 0, .fin (1 / 2)])] (by
      intro g hg
      rw [List.mem_singleton] at hg
      subst hg
      exact ⟨by norm_num, ![1 / 3, 0, 1 / 2], .f64, .array _ _⟩)
  rw [q1, ha, hv] at hturn
  obtain ⟨x1, y1, θ1, vx1, vy1, ω1, turned, s1, s2⟩ := hturn
  have q2 := one ([.setState [.fin 5, .fin 0, .fin 2, .fin 1, .fin 0, .fin 0]] ++
    stepsOf [(1, .ndarray .f64 [.fin (1 / 3), .fin 0, .fin (1 / 2)])]) ![x1, y1, θ1, vx1, vy1, ω1] (-(1 / 2)) (by
      rw [toFl6, Entity.run, List.foldl_append]; exact s1)
  refine ⟨e, h, _, _, rfl, rfl, ⟨x1, y1, θ1, vx1, vy1, ω1, turned, s1, s2⟩, ?_⟩
  refine C132_rest_to_rest _ henv _ _ (Demo.jaxParams_of "RK45" false) (by rw [hi]; norm_num) (by rw [ha]; norm_num) (by rw [hv]; norm_num) e h
    hm [.setState [.fin 5, .fin 0, .fin 2, .fin 1, .fin 0, .fin 0]] _ rfl 5 0 2 1 0 (1 / 2) (1 / 2) 1 rfl (by rw [ha, hi]; norm_num)
    [(1, .ndarray .f64 [.fin (1 / 3), .fin 0, .fin (1 / 2)])] [(1, .ndarray .f64 [.fin (1 / 3), .fin 0, .fin (-(1 / 2))])]
    ?_ ?_ q1 ?_ (by rw [hv]; norm_num [abs_of_pos])
  · intro g hg
    rw [List.mem_singleton] at hg
    subst hg
    exact ⟨by norm_num, 1 / 3, 0, .f64, .array _ _⟩
  · intro g hg
    rw [List.mem_singleton] at hg
    subst hg
    exact ⟨by norm_num, 1 / 3, 0, .f64, .array _ _⟩
  · rw [Entity.run, List.foldl_append] at q2
    exact q2

end SAD
