import Verif.Lemmas.Agree
import Verif.Lemmas.Rotational
import Verif.Lemmas.Timed
import Verif.Props.Turn
import Verif.Props.JaxEnds

/-! # C105: the attitude of the planar spacecraft -/

set_option linter.unusedSectionVars false

namespace SAD
open Spec Real

/-- angle and angular velocity -/
def attitude2 : (Fin 6 → ℝ) →ₗ[ℝ] ℝ × ℝ := LinearMap.prod (LinearMap.proj 2) (LinearMap.proj 5)

/-- the limited rates of angle and angular velocity under the angular acceleration `α` -/
noncomputable def attitudeField (acc vel α : ℝ) (_ : ℝ) (q : ℝ × ℝ) : ℝ × ℝ :=
  (kclip (some (-vel)) (some vel) q.2, klimit (some (-vel)) (some vel) (some (-acc)) (some acc) q.2 α)

theorem attitude_map (m inertia n acc vel : ℝ) (u : Fin 3 → ℝ) (tab : KTab ℝ) (z : Fin 6 → ℝ) (hs : List ℝ) :
    attitude2 (rkChain tab ((rot2dModel realFmt m inertia n acc vel).field u) 0 z hs)
      = rkChain tab (attitudeField acc vel (u 2 / inertia)) 0 (z 2, z 5) hs :=
  rkChain_map tab attitude2 _ (attitudeField acc vel (u 2 / inertia)) (by
    intro t w
    refine Prod.ext ?_ ?_
    · simp [attitude2, KModel.field, rot2dModel, attitudeField, klimit]
    · simp [attitude2, KModel.field, rot2dModel, attitudeField]) 0 z hs

/-- the angle after the step is the angle of the integration up to whole turns, the angular velocity is clipped -/
theorem attitude_post (m inertia n acc vel : ℝ) (w : Fin 6 → ℝ) :
    SameAngle π (w 2) ((rot2dModel realFmt m inertia n acc vel).post realFmt.pi w 2) ∧
    (rot2dModel realFmt m inertia n acc vel).post realFmt.pi w 5 = min (max (w 5) (-vel)) vel := by
  constructor
  · have := wrap_angle (w 2)
    simp [KModel.post, rot2dModel, kclip] at this ⊢
    exact this
  · simp [KModel.post, rot2dModel, kclip]

/-- the moment in force: `mz`, saturated -/
noncomputable def moment (p : Rot2dParams ℝ) (mz : ℝ) : ℝ := min (max mz (-(p.accLimit * p.inertia))) (p.accLimit * p.inertia)

theorem moment_acc (p : Rot2dParams ℝ) (hI : 0 < p.inertia) (ha : 0 ≤ p.accLimit) (mz : ℝ) :
    -p.accLimit ≤ moment p mz / p.inertia ∧ moment p mz / p.inertia ≤ p.accLimit := by
  have h : 0 ≤ p.accLimit * p.inertia := by positivity
  have h1 : -(p.accLimit * p.inertia) ≤ moment p mz := le_min (le_max_right _ _) (by linarith)
  have h2 : moment p mz ≤ p.accLimit * p.inertia := min_le_right _ _
  rw [le_div_iff₀ hI, div_le_iff₀ hI]
  exact ⟨by linarith, h2⟩

theorem sat_moment (p : Rot2dParams ℝ) (u : Fin 3 → ℝ) :
    (rot2dModel realFmt p.m p.inertia p.n p.accLimit p.velLimit).sat u 2 = moment p (u 2) := by
  simp [KModel.sat, rot2dModel, kclip, moment]

/-- C105: while a constant moment keeps the angular velocity of the planar spacecraft strictly between its limits, RK45 gives exactly the motion of
constant angular acceleration, whatever the thrusters do, whatever steps the solver takes and however the time is split into calls:
the angular velocity gains `α τ` and the spacecraft turns by `ω τ + α τ² / 2`, up to whole turns. -/
theorem C105_spin_up (env : Env realFmt) (henv : IsRk dopri env) (args : Rot2dArgs realFmt) (p : Rot2dParams ℝ) (hp : p.Of args)
    (hI : 0 < p.inertia) (hacc : 0 ≤ p.accLimit) (e0 : Entity realFmt) (h0 : newRot2d env args = .ok e0)
    (hm : e0.dynamics.integrationMethod = "RK45") (ops : List (Op realFmt)) (e : Entity realFmt) (he : e = e0.run env ops)
    (x y θ vx vy ω mz α : ℝ) (hs : e.state = [.fin x, .fin y, .fin θ, .fin vx, .fin vy, .fin ω]) 
    (hα : α = min (max mz (-(p.accLimit * p.inertia))) (p.accLimit * p.inertia) / p.inertia)
    (hω : -p.velLimit < ω ∧ ω < p.velLimit) (hist : List (ℝ × Action realFmt))
    (hu : ∀ h ∈ hist, 0 ≤ h.1 ∧ ∃ fx fy : ℝ, Asks env e h.2 ![fx, fy, mz])
    (hend : -p.velLimit < ω + α * elapsed env e hist ∧ ω + α * elapsed env e hist < p.velLimit) :
    ∃ x' y' θ' vx' vy' : ℝ, (e.run env (stepsOf hist)).state
        = [.fin x', .fin y', .fin θ', .fin vx', .fin vy', .fin (ω + α * elapsed env e hist)] ∧
      SameAngle π (θ + (ω * elapsed env e hist + α * elapsed env e hist ^ 2 / 2)) θ' := by
  have hc := run_sameConfig env ops e0
  have hr := (rot2d_realised hp h0).1.congr hc
  obtain ⟨k1, -⟩ := sameConfig_method hc
  rw [← he] at hr k1
  replace hα : α = moment p mz / p.inertia := hα
  obtain ⟨a1, a2⟩ := moment_acc p hI hacc mz
  rw [← hα] at a1 a2
  obtain ⟨E, hE⟩ : ∃ E, E = elapsed env e hist := ⟨_, rfl⟩
  rw [← hE] at hend ⊢
  obtain ⟨y', g1, -, g2⟩ := Realises.run_timed henv pi_pos (M := rot2dModel realFmt p.m p.inertia p.n p.accLimit p.velLimit) (d := e.dynamics)
    (fun τ z => 0 ≤ τ ∧ (τ ≤ E → z 5 = ω + α * τ ∧ SameAngle π (θ + (ω * τ + α * τ ^ 2 / 2)) (z 2)))
    (fun T u => 0 ≤ T ∧ u 2 = mz) (S := fun _ => True) (D := ⊤) (fun _ _ => trivial)
    (fun _ _ _ => ⟨fun _ _ _ => trivial, fun _ _ _ _ => trivial⟩) (fun _ _ _ => trivial)
    (by
      rintro τ T u ⟨hT, hu2⟩ tab hs z hrun ⟨q0, q⟩
      refine ⟨add_nonneg q0 hT, fun hτ => ?_⟩
      obtain ⟨q1, q2⟩ := q (by linarith)
      rcases hrun.kind with ⟨-, rfl⟩ | ⟨hb, -⟩
      swap
      · rw [k1, hm] at hb; simp at hb
      have hmap := attitude_map p.m p.inertia p.n p.accLimit p.velLimit
        ((rot2dModel realFmt p.m p.inertia p.n p.accLimit p.velLimit).sat u) kdopri z hs
      rw [sat_moment, hu2, ← hα] at hmap
      have hE0 : 0 ≤ E := by linarith
      have hin : ∀ s, 0 ≤ s → s ≤ E → -p.velLimit < ω + α * s ∧ ω + α * s < p.velLimit := by
        intro s s0 s1
        rcases eq_or_lt_of_le hE0 with h | h
        · obtain rfl : s = 0 := by linarith
          simpa using hω
        · have := between hω hend ⟨div_nonneg s0 hE0, (div_le_one h).2 s1⟩
          rwa [show ω + s / E * (ω + α * E - ω) = ω + α * s by field_simp; ring] at this
      let G : ℝ → ℝ × ℝ → ℝ × ℝ := fun _ q => (q.2, α)
      have hsum := hrun.sum
      have hc2 : rkChain kdopri (attitudeField p.accLimit p.velLimit α) 0 (z 2, z 5) hs = rkChain kdopri G 0 (z 2, z 5) hs := by
        refine rkChain_agree (LinearMap.snd ℝ ℝ ℝ) α (-p.velLimit) p.velLimit (fun _ _ => rfl) ?_ kdopri kdopri_consistent.rows kdopri_consistent.b1
          kdopri_consistent.blen kdopri_nodes hs 0 _ (.inl (hrun.nonneg hT)) ?_ ?_
        · rintro t w ⟨h1, h2⟩
          simp only [LinearMap.snd_apply] at h1 h2
          have e1 := kclip_within h1.le h2.le
          have e2 := kclip_within a1 a2
          simp [attitudeField, G, klimit, e1, e2, not_le.2 h1, not_le.2 h2]
        · simp only [LinearMap.snd_apply, q1]
          exact hin τ q0 (by linarith)
        · simp only [LinearMap.snd_apply, q1, hsum]
          have := hin (τ + T) (by linarith) hτ
          rwa [show ω + α * τ + α * T = ω + α * (τ + T) by ring]
      have c1 := rkChain_const_rate kdopri kdopri_consistent.b1 kdopri_consistent.blen G (LinearMap.snd ℝ ℝ ℝ) α (fun _ _ => rfl) 0 (z 2, z 5) hs
      have c2 := rkChain_double_integrator kdopri kdopri_consistent G (LinearMap.fst ℝ ℝ ℝ) (LinearMap.snd ℝ ℝ ℝ) α (fun _ _ => rfl) (fun _ _ => rfl)
        0 (z 2, z 5) hs
      rw [hc2] at hmap
      rw [← hmap, hsum] at c1 c2
      obtain ⟨w, hw⟩ : ∃ w, w = rkChain kdopri ((rot2dModel realFmt p.m p.inertia p.n p.accLimit p.velLimit).field
        ((rot2dModel realFmt p.m p.inertia p.n p.accLimit p.velLimit).sat u)) 0 z hs := ⟨_, rfl⟩
      rw [← hw] at c1 c2 ⊢
      simp only [attitude2, LinearMap.snd_apply, LinearMap.fst_apply, LinearMap.prod_apply, Function.prod, LinearMap.proj_apply, q1] at c1 c2
      obtain ⟨p1, p2⟩ := attitude_post p.m p.inertia p.n p.accLimit p.velLimit w
      have hlim := hin (τ + T) (by linarith) hτ
      have c1' : w 5 = ω + α * (τ + T) := by rw [c1]; ring
      refine ⟨?_, SameAngle.trans ?_ p1⟩
      · rw [p2, c1', max_eq_left hlim.1.le, min_eq_left hlim.2.le]
      · obtain ⟨k, hk⟩ := q2
        refine ⟨k, ?_⟩
        rw [c2, hk]; ring)
    hist hr (.inl (k1.trans hm)) rfl (fun h hh => by
      obtain ⟨h1, fx, fy, h2⟩ := hu h hh
      exact ⟨_, h2, h1, rfl⟩) (τ := 0) (y := ![x, y, θ, vx, vy, ω])
    (by rw [hs, toFl6]; rfl) ⟨le_rfl, fun _ => ⟨by simp, ⟨0, by simp⟩⟩⟩
  rw [zero_add, ← hE] at g2
  obtain ⟨g3, g4⟩ := g2 le_rfl
  exact ⟨y' 0, y' 1, y' 2, y' 3, y' 4, by rw [g1, toFl6, g3], g4⟩

/-- C105: a planar spacecraft without moment, or at its greatest angular velocity with a moment that would increase it, keeps its angular velocity and
turns by exactly `ω τ`, up to whole turns: with RK45 and with Euler's method, whatever the thrusters do. -/
theorem C105_steady (env : Env realFmt) (henv : IsRk dopri env) (args : Rot2dArgs realFmt) (p : Rot2dParams ℝ) (hp : p.Of args)
    (hI : 0 < p.inertia) (hacc : 0 ≤ p.accLimit) (e0 : Entity realFmt) (h0 : newRot2d env args = .ok e0) (hm : PlainMethod e0.dynamics)
    (ops : List (Op realFmt)) (e : Entity realFmt) (he : e = e0.run env ops)
    (x y θ vx vy ω : ℝ) (hs : e.state = [.fin x, .fin y, .fin θ, .fin vx, .fin vy, .fin ω]) (hω : -p.velLimit ≤ ω ∧ ω ≤ p.velLimit)
    (hist : List (ℝ × Action realFmt))
    (hu : ∀ h ∈ hist, ∃ fx fy mz : ℝ, Asks env e h.2 ![fx, fy, mz] ∧ (mz = 0 ∨ (ω = p.velLimit ∧ 0 ≤ mz) ∨ (ω = -p.velLimit ∧ ω ≠ p.velLimit ∧ mz ≤ 0))) :
    ∃ x' y' θ' vx' vy' : ℝ, (e.run env (stepsOf hist)).state = [.fin x', .fin y', .fin θ', .fin vx', .fin vy', .fin ω] ∧
      SameAngle π (θ + ω * elapsed env e hist) θ' := by
  have hc := run_sameConfig env ops e0
  have hr := (rot2d_realised hp h0).1.congr hc
  have hm' := plain_congr hc hm
  rw [← he] at hr hm'
  have hM : 0 ≤ p.accLimit * p.inertia := by positivity
  obtain ⟨y', g1, g2, g3⟩ := Realises.run_timed henv pi_pos (M := rot2dModel realFmt p.m p.inertia p.n p.accLimit p.velLimit) (d := e.dynamics)
    (fun τ z => z 5 = ω ∧ SameAngle π (θ + ω * τ) (z 2))
    (fun T u => u 2 = 0 ∨ (ω = p.velLimit ∧ 0 ≤ u 2) ∨ (ω = -p.velLimit ∧ ω ≠ p.velLimit ∧ u 2 ≤ 0)) (S := fun _ => True) (D := ⊤) (fun _ _ => trivial)
    (fun _ _ _ => ⟨fun _ _ _ => trivial, fun _ _ _ _ => trivial⟩) (fun _ _ _ => trivial)
    (by
      rintro τ T u hu tab hs z hrun ⟨q1, q2⟩
      have hmap := attitude_map p.m p.inertia p.n p.accLimit p.velLimit
        ((rot2dModel realFmt p.m p.inertia p.n p.accLimit p.velLimit).sat u) tab z hs
      rw [sat_moment] at hmap
      have hrate : klimit (some (-p.velLimit)) (some p.velLimit) (some (-p.accLimit)) (some p.accLimit) ω (moment p (u 2) / p.inertia) = 0 := by
        obtain ⟨a1, a2⟩ := moment_acc p hI hacc (u 2)
        rw [klimit, kclip_within a1 a2]
        rcases hu with h | ⟨h1, h2⟩ | ⟨h1, h1', h2⟩
        · have : moment p (u 2) = 0 := by rw [h, moment, max_eq_left (by linarith), min_eq_left hM]
          simp [this]
        · have : 0 ≤ moment p (u 2) := le_min (h2.trans (le_max_left _ _)) hM
          simp [h1, div_nonneg this hI.le]
        · have : moment p (u 2) ≤ 0 := (min_le_left _ _).trans (max_le h2 (by linarith))
          have hlt : ω < p.velLimit := lt_of_le_of_ne hω.2 h1'
          simp only [Option.some.injEq, exists_eq_left', not_le.2 hlt, if_false, h1.le, if_true]
          exact max_eq_right (div_nonpos_of_nonpos_of_nonneg this hI.le)
      have hline : rkChain tab (attitudeField p.accLimit p.velLimit (moment p (u 2) / p.inertia)) 0 (z 2, z 5) hs = (z 2, z 5) + hs.sum • ((ω, 0) : ℝ × ℝ) :=
        rkChain_line tab hrun.b.1 hrun.b.2 (by
          intro t c
          have h5 : ((z 2, z 5) + c • ((ω, 0) : ℝ × ℝ)).2 = ω := by simp [q1]
          simp only [attitudeField, h5, hrate, kclip_within hω.1 hω.2]) 0 hs
      rw [hline, hrun.sum] at hmap
      obtain ⟨w, hw⟩ : ∃ w, w = rkChain tab ((rot2dModel realFmt p.m p.inertia p.n p.accLimit p.velLimit).field
        ((rot2dModel realFmt p.m p.inertia p.n p.accLimit p.velLimit).sat u)) 0 z hs := ⟨_, rfl⟩
      rw [← hw] at hmap ⊢
      have c1 : w 2 = z 2 + T * ω := by simpa [attitude2] using congrArg Prod.fst hmap
      have c2 : w 5 = ω := by simpa [attitude2, q1] using congrArg Prod.snd hmap
      obtain ⟨p1, p2⟩ := attitude_post p.m p.inertia p.n p.accLimit p.velLimit w
      refine ⟨?_, SameAngle.trans ?_ p1⟩
      · rw [p2, c2, max_eq_left hω.1, min_eq_left hω.2]
      · obtain ⟨k, hk⟩ := q2
        exact ⟨k, by rw [c1, hk]; ring⟩)
    hist hr hm' rfl (fun h hh => by
      obtain ⟨fx, fy, mz, h1, h2⟩ := hu h hh
      exact ⟨_, h1, h2⟩) (τ := 0) (y := ![x, y, θ, vx, vy, ω])
    (by rw [hs, toFl6]; rfl) ⟨rfl, ⟨0, by simp⟩⟩
  refine ⟨y' 0, y' 1, y' 2, y' 3, y' 4, by rw [g1, toFl6, g2], ?_⟩
  rwa [zero_add] at g3

/-- a spacecraft with limits 1, turning at 1/4, is spun up by a moment of 1/2 for one second; at its limit it is steady -/
example : ∃ e0 : Entity realFmt, newRot2d (rkEnv dopri (fun _ _ _ => [1, 2])) (Demo.jaxArgs "RK45" false) = .ok e0 ∧
    Demo.jaxParams.Of (Demo.jaxArgs "RK45" false) ∧ 0 < Demo.jaxParams.inertia ∧ 0 ≤ Demo.jaxParams.accLimit ∧
    e0.dynamics.integrationMethod = "RK45" ∧ Demo.jaxParams.velLimit = 1 ∧
    (e0.run (rkEnv dopri (fun _ _ _ => [1, 2])) [.setState [.fin 5, .fin 0, .fin 2, .fin 1, .fin 0, .fin (1 / 4)]]).state
      = [.fin 5, .fin 0, .fin 2, .fin 1, .fin 0, .fin (1 / 4)] ∧
    Asks (rkEnv dopri (fun _ _ _ => [1, 2])) e0 (.ndarray .f64 [.fin (1 / 3), .fin 0, .fin (1 / 2)]) ![1 / 3, 0, 1 / 2] ∧
    (1 / 2 : ℝ) = min (max (1 / 2) (-(Demo.jaxParams.accLimit * Demo.jaxParams.inertia))) (Demo.jaxParams.accLimit * Demo.jaxParams.inertia)
      / Demo.jaxParams.inertia ∧
    elapsed (rkEnv dopri (fun _ _ _ => [1, 2]))
      (e0.run (rkEnv dopri (fun _ _ _ => [1, 2])) [.setState [.fin 5, .fin 0, .fin 2, .fin 1, .fin 0, .fin (1 / 4)]])
      [(1, .ndarray .f64 [.fin (1 / 3), .fin 0, .fin (1 / 2)])] = 1 ∧
    -(1 : ℝ) < 1 / 4 + 1 / 2 * 1 ∧ (1 / 4 : ℝ) + 1 / 2 * 1 < 1 := by
  obtain ⟨e, h⟩ := Demo.jax_rot2d (rkEnv dopri (fun _ _ _ => [1, 2])) false rfl "RK45"
  obtain ⟨hr, -, -, hm, -⟩ := rot2d_realised (Demo.jaxParams_of _ _) h
  have hv : Demo.jaxParams.velLimit = 1 := by simp [Demo.jaxParams, Rot2dParams.velLimit]
  have ha : Demo.jaxParams.accLimit = 1 := by simp [Demo.jaxParams, Rot2dParams.accLimit]
  have hi : Demo.jaxParams.inertia = 1 := rfl
  refine ⟨e, h, Demo.jaxParams_of _ _, by rw [hi]; norm_num, by rw [ha]; norm_num, hm, hv, rfl, ⟨.f64, .array _ _⟩, by rw [ha, hi]; norm_num, ?_,
    by norm_num, by norm_num⟩
  exact elapsed_one (Realises.step_fixed (R := realFmt) [1, 2] pi_pos (hr.congr (run_sameConfig _ _ _))
      (plain_congr (run_sameConfig _ _ _) (.inl hm)) (a := .ndarray .f64 [.fin (1 / 3), .fin 0, .fin (1 / 2)]) (u := ![1 / 3, 0, 1 / 2]) ⟨.f64, .array _ _⟩
      (S := fun _ => True) (D := ⊤) (fun _ _ => trivial)
      ⟨fun _ _ _ => trivial, fun _ _ _ _ => trivial⟩ (y := ![5, 0, 2, 1, 0, 1 / 4]) (by rw [toFl6]; rfl) trivial 1).1

end SAD
