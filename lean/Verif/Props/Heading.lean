import Verif.Props.DubinsReach

/-! # C133: how an aircraft's heading changes -/

set_option linter.unusedSectionVars false

namespace SAD
open Spec Real

/-- The sum of rate times duration over the calls of a history that return normally, `rate` giving a rate for every action. -/
noncomputable def Spec.accumulated (env : Env realFmt) (rate : Action realFmt → ℝ) : Entity realFmt → List (ℝ × Action realFmt) → ℝ
  | _, [] => 0
  | e, (T, a) :: hist => (match (e.step env (.fin T) a).outcome with | .ok () => rate a * T | .error _ => 0) +
      accumulated env rate (e.step env (.fin T) a).entity hist

theorem accumulated_bounds (env : Env realFmt) (rate : Action realFmt → ℝ) {lo hi : ℝ} (h : ∀ a, lo ≤ rate a ∧ rate a ≤ hi)
    (hist : List (ℝ × Action realFmt)) : ∀ e : Entity realFmt, (∀ g ∈ hist, 0 ≤ g.1) →
      lo * elapsed env e hist ≤ accumulated env rate e hist ∧ accumulated env rate e hist ≤ hi * elapsed env e hist := by
  induction hist with
  | nil => intro e _; simp [accumulated, elapsed]
  | cons g hist ih =>
    intro e hT
    obtain ⟨T, a⟩ := g
    obtain ⟨i1, i2⟩ := ih (e.step env (.fin T) a).entity fun g hg => hT g (by simp [hg])
    have h0 : 0 ≤ T := hT (T, a) (by simp)
    have b1 := mul_le_mul_of_nonneg_right (h a).1 h0
    have b2 := mul_le_mul_of_nonneg_right (h a).2 h0
    simp only [accumulated, elapsed]
    cases (e.step env (.fin T) a).outcome <;> constructor <;> simp only <;> linarith

theorem heading2d_run {env : Env realFmt} (henv : IsRk dopri env) (p : Dubins2dParams ℝ) (rate : Action realFmt → ℝ)
    (hist : List (ℝ × Action realFmt)) : ∀ {e : Entity realFmt}, Realises e (dubins2dModel realFmt p) → PlainMethod e.dynamics →
      (∀ h ∈ hist, ∃ acc : ℝ, Asks env e h.2 ![rate h.2, acc]) → ∀ {y : Fin 4 → ℝ}, e.state = toFl y →
      ∃ y' : Fin 4 → ℝ, (e.run env (stepsOf hist)).state = toFl y' ∧
        SameAngle π (y 2 + accumulated env (fun a => min (max (rate a) p.headingRateMin) p.headingRateMax) e hist) (y' 2) := by
  induction hist with
  | nil => intro e _ _ _ y hy; exact ⟨y, hy, 0, by simp [accumulated]⟩
  | cons h hist ih =>
    intro e hr hp ha y hy
    obtain ⟨T, a⟩ := h
    have hcf : SameConfig e (e.step env (.fin T) a).entity := step_sameConfig env e _ _
    have hrun : e.run env (stepsOf ((T, a) :: hist)) = (e.step env (.fin T) a).entity.run env (stepsOf hist) := rfl
    have ha' : ∀ h ∈ hist, ∃ acc : ℝ, Asks env (e.step env (.fin T) a).entity h.2 ![rate h.2, acc] := fun g hg =>
      let ⟨acc, q⟩ := ha g (by simp [hg])
      ⟨acc, requests_congr hcf q⟩
    rw [hrun]
    cases ho : (e.step env (.fin T) a).outcome with
    | error x =>
      obtain ⟨y', g1, g2⟩ := ih (hr.congr hcf) (plain_congr hcf hp) ha' (by rw [(step_error ho).1, hy])
      refine ⟨y', g1, ?_⟩
      simpa only [accumulated, ho, zero_add] using g2
    | ok _ =>
      obtain ⟨acc, hq⟩ := ha (T, a) (by simp)
      obtain ⟨tab, hs', h1, h2, -⟩ := hr.step henv pi_pos hp hq (S := fun _ => True) (fun _ _ => trivial) (Stable.univ _) hy trivial ho
      have c := rkChain_const_rate tab h1.b.1 h1.b.2 ((dubins2dModel realFmt p).field ((dubins2dModel realFmt p).sat ![rate a, acc]))
        (LinearMap.proj 2) (min (max (rate a) p.headingRateMin) p.headingRateMax)
        (fun t w => by simp [KModel.field, dubins2dModel, klimit_free, KModel.sat, kclip]) 0 y hs'
      rw [h1.sum] at c
      obtain ⟨w, hw⟩ : ∃ w, w = rkChain tab ((dubins2dModel realFmt p).field ((dubins2dModel realFmt p).sat ![rate a, acc])) 0 y hs' := ⟨_, rfl⟩
      rw [← hw] at c h2
      simp only [LinearMap.proj_apply] at c
      have p2 : SameAngle π (w 2) ((dubins2dModel realFmt p).post realFmt.pi w 2) := by
        have := wrap_angle (w 2)
        simp [KModel.post, dubins2dModel, kclip] at this ⊢
        exact this
      obtain ⟨y', g1, g2⟩ := ih (hr.congr hcf) (plain_congr hcf hp) ha' h2
      refine ⟨y', g1, SameAngle.trans ?_ g2⟩
      obtain ⟨k, hk⟩ := p2
      refine ⟨k, ?_⟩
      rw [hk, c]
      simp only [accumulated, ho]
      ring

/-- C133: whatever the actions, the heading of a 2d aircraft changes by exactly the sum of (saturated heading rate) times duration over the calls that
return, up to whole turns: with both methods, whatever steps the solver takes and whatever the speed does. So it changes by no more than the limits of
the heading rate times the time. -/
theorem C133_heading_2d (env : Env realFmt) (henv : IsRk dopri env) (args : Dubins2dArgs realFmt) (p : Dubins2dParams ℝ) (hp : p.Of args)
    (hlim : p.headingRateMin ≤ p.headingRateMax) (e0 : Entity realFmt) (h0 : newDubins2d env args = .ok e0) (hm : PlainMethod e0.dynamics)
    (ops : List (Op realFmt)) (e : Entity realFmt) (he : e = e0.run env ops) (x y heading v : ℝ)
    (hs : e.state = [.fin x, .fin y, .fin heading, .fin v]) (hist : List (ℝ × Action realFmt)) (rate : Action realFmt → ℝ)
    (hu : ∀ h ∈ hist, ∃ acc : ℝ, Asks env e h.2 ![rate h.2, acc]) :
    ∃ x' y' heading' v' turned : ℝ, (e.run env (stepsOf hist)).state = [.fin x', .fin y', .fin heading', .fin v'] ∧
      SameAngle π (heading + turned) heading' ∧
      turned = accumulated env (fun a => min (max (rate a) p.headingRateMin) p.headingRateMax) e hist ∧
      ((∀ h ∈ hist, 0 ≤ h.1) →
        p.headingRateMin * elapsed env e hist ≤ turned ∧ turned ≤ p.headingRateMax * elapsed env e hist) := by
  have hc := run_sameConfig env ops e0
  have hr := (dubins2d_realised hp h0).congr hc
  have hm' := plain_congr hc hm
  rw [← he] at hr hm'
  obtain ⟨y', g1, g2⟩ := heading2d_run henv p rate hist hr hm' hu (y := ![x, y, heading, v]) (by rw [hs, toFl4]; rfl)
  refine ⟨y' 0, y' 1, y' 2, y' 3, _, by rw [g1, toFl4], g2, rfl, fun hT => ?_⟩
  exact accumulated_bounds env _ (fun a => ⟨le_min (le_max_right _ _) hlim, min_le_right _ _⟩) hist e hT

/-- C133: two 2d aircraft, whatever their limits, methods, solvers, speeds and accelerations, that start with the same heading and whose
saturated heading rates times durations add up to the same number, end with the same heading up to whole turns. -/
theorem C133_same_heading (env env' : Env realFmt) (henv : IsRk dopri env) (henv' : IsRk dopri env') (args args' : Dubins2dArgs realFmt)
    (p p' : Dubins2dParams ℝ) (hp : p.Of args) (hp' : p'.Of args') (hlim : p.headingRateMin ≤ p.headingRateMax)
    (hlim' : p'.headingRateMin ≤ p'.headingRateMax) (e0 e0' : Entity realFmt) (h0 : newDubins2d env args = .ok e0)
    (h0' : newDubins2d env' args' = .ok e0') (hm : PlainMethod e0.dynamics) (hm' : PlainMethod e0'.dynamics)
    (ops ops' : List (Op realFmt)) (e e' : Entity realFmt) (he : e = e0.run env ops) (he' : e' = e0'.run env' ops') (x y heading v x' y' v' : ℝ)
    (hs : e.state = [.fin x, .fin y, .fin heading, .fin v]) (hs' : e'.state = [.fin x', .fin y', .fin heading, .fin v'])
    (hist hist' : List (ℝ × Action realFmt)) (rate rate' : Action realFmt → ℝ)
    (hu : ∀ h ∈ hist, ∃ acc : ℝ, Asks env e h.2 ![rate h.2, acc]) (hu' : ∀ h ∈ hist', ∃ acc : ℝ, Asks env' e' h.2 ![rate' h.2, acc])
    (hsame : accumulated env (fun a => min (max (rate a) p.headingRateMin) p.headingRateMax) e hist
      = accumulated env' (fun a => min (max (rate' a) p'.headingRateMin) p'.headingRateMax) e' hist') :
    ∃ x1 y1 θ1 v1 x2 y2 θ2 v2 : ℝ, (e.run env (stepsOf hist)).state = [.fin x1, .fin y1, .fin θ1, .fin v1] ∧
      (e'.run env' (stepsOf hist')).state = [.fin x2, .fin y2, .fin θ2, .fin v2] ∧ SameAngle π θ1 θ2 := by
  obtain ⟨x1, y1, θ1, v1, t1, a1, ⟨k1, a2⟩, a3, -⟩ := C133_heading_2d env henv args p hp hlim e0 h0 hm ops e he x y heading v hs hist rate hu
  obtain ⟨x2, y2, θ2, v2, t2, b1, ⟨k2, b2⟩, b3, -⟩ :=
    C133_heading_2d env' henv' args' p' hp' hlim' e0' h0' hm' ops' e' he' x' y' heading v' hs' hist' rate' hu'
  refine ⟨x1, y1, θ1, v1, x2, y2, θ2, v2, a1, b1, k2 - k1, ?_⟩
  rw [a2, b2, a3, b3, hsame]
  push_cast
  ring

/-- C133: a 3d aircraft with Euler's method, positive least speed and roll limits within `±R`, `R` below a quarter turn, turns by at most
`32.17 tan R / v_min` per second, whatever the actions. -/
theorem C133_heading_3d (env : Env realFmt) (args : Dubins3dArgs realFmt) (p : Dubins3dParams ℝ) (hp : p.Of args)
    (hlim : p.vMin ≤ p.vMax) (hpos : 0 < p.vMin) (R : ℝ) (hR : R < π / 2) (hroll : -R ≤ p.rollMin ∧ p.rollMin ≤ p.rollMax ∧ p.rollMax ≤ R)
    (e0 : Entity realFmt) (h0 : newDubins3d env args = .ok e0)
    (hm : e0.dynamics.integrationMethod = "Euler") (hts : e0.dynamics.trajectorySamples ≤ 0) (ops : List (Op realFmt)) (e : Entity realFmt)
    (he : e = e0.run env ops) (x y z heading gamma roll v : ℝ)
    (hs : e.state = [.fin x, .fin y, .fin z, .fin heading, .fin gamma, .fin roll, .fin v]) (hv : p.vMin ≤ v ∧ v ≤ p.vMax)
    (hrl : p.rollMin ≤ roll ∧ roll ≤ p.rollMax)
    (hist : List (ℝ × Action realFmt)) (hu : ∀ h ∈ hist, 0 ≤ h.1 ∧ ∃ u : Fin 3 → ℝ, Asks env e h.2 u) :
    ∃ x' y' z' heading' gamma' roll' v' turned : ℝ,
      (e.run env (stepsOf hist)).state = [.fin x', .fin y', .fin z', .fin heading', .fin gamma', .fin roll', .fin v'] ∧
      SameAngle π (heading + turned) heading' ∧ |turned| ≤ 32.17 * tan R / p.vMin * (hist.map Prod.fst).sum := by
  have hc := run_sameConfig env ops e0
  have hr := (dubins3d_realised hp h0).congr hc
  obtain ⟨k1, k2⟩ := sameConfig_method hc
  rw [← he] at hr k1 k2
  have hpi := pi_pos
  obtain ⟨y', g1, -, -, turned, g3, g4⟩ := Realises.run_euler (env := env) (M := dubins3dModel realFmt p)
    (fun τ s => (p.vMin ≤ s 6 ∧ s 6 ≤ p.vMax) ∧ (p.rollMin ≤ s 5 ∧ s 5 ≤ p.rollMax) ∧
      ∃ turned, SameAngle π (heading + turned) (s 3) ∧ |turned| ≤ 32.17 * tan R / p.vMin * τ)
    (fun T => 0 ≤ T) (fun _ s h => (hpos.trans_le h.1.1).ne')
    (by
      rintro τ T u s hT ⟨⟨q1, q2⟩, ⟨q5, q5'⟩, turned, ⟨k, q3⟩, q4⟩
      obtain ⟨w, hw⟩ : ∃ w, w = s + T • (dubins3dModel realFmt p).field ((dubins3dModel realFmt p).sat u) 0 s := ⟨_, rfl⟩
      rw [← hw]
      have p6 : (dubins3dModel realFmt p).post π w 6 = min (max (w 6) p.vMin) p.vMax := by simp [KModel.post, dubins3dModel, kclip]
      have p3 : SameAngle π (w 3) ((dubins3dModel realFmt p).post π w 3) := by
        have := wrap_angle (w 3)
        simp [KModel.post, dubins3dModel, kclip] at this ⊢
        exact this
      have p5 : (dubins3dModel realFmt p).post π w 5 = min (max (w 5) p.rollMin) p.rollMax := by
        have hk : ⌊(min (max (w 5) p.rollMin) p.rollMax + π) / (2 * π)⌋ = 0 := by
          have b1 : p.rollMin ≤ min (max (w 5) p.rollMin) p.rollMax := le_min (le_max_right _ _) hroll.2.1
          have b2 : min (max (w 5) p.rollMin) p.rollMax ≤ p.rollMax := min_le_right _ _
          rw [Int.floor_eq_zero_iff]
          exact ⟨div_nonneg (by linarith [hroll.1]) (by linarith), by rw [div_lt_one (by linarith)]; linarith [hroll.2.2]⟩
        simp [KModel.post, dubins3dModel, kclip, hk]
      have w3 : w 3 = s 3 + T * (3217 / 100 / s 6 * tan (s 5)) := by
        rw [hw]; simp [KModel.field, dubins3dModel, klimit_free]; exact Or.inl (Or.inl rfl)
      have ht : |tan (s 5)| ≤ tan R := by
        have h1 : tan (s 5) ≤ tan R := by
          rcases eq_or_lt_of_le (q5'.trans hroll.2.2) with h | h
          · rw [h]
          · exact (tan_lt_tan_of_lt_of_lt_pi_div_two (by linarith [hroll.1]) hR h).le
        have h2 : -tan R ≤ tan (s 5) := by
          rw [← tan_neg]
          rcases eq_or_lt_of_le (hroll.1.trans q5) with h | h
          · rw [h]
          · exact (tan_lt_tan_of_lt_of_lt_pi_div_two (by linarith) (by linarith [hroll.2.2]) h).le
        exact abs_le.2 ⟨h2, h1⟩
      have hs6 : 0 < s 6 := hpos.trans_le q1
      have hrate : |3217 / 100 / s 6 * tan (s 5)| ≤ 32.17 * tan R / p.vMin := by
        rw [abs_mul, abs_of_pos (by positivity)]
        have : (3217 / 100 / s 6 : ℝ) ≤ 32.17 / p.vMin := by
          rw [show (3217 / 100 : ℝ) = 32.17 by norm_num]
          exact div_le_div_of_nonneg_left (by norm_num) hpos q1
        calc 3217 / 100 / s 6 * |tan (s 5)| ≤ 32.17 / p.vMin * tan R := mul_le_mul this ht (abs_nonneg _) (by positivity)
          _ = _ := by ring
      rw [p6, p5]
      refine ⟨⟨le_min (le_max_right _ _) hlim, min_le_right _ _⟩, ⟨le_min (le_max_right _ _) hroll.2.1, min_le_right _ _⟩,
        turned + T * (3217 / 100 / s 6 * tan (s 5)), SameAngle.trans ⟨k, ?_⟩ p3, ?_⟩
      · rw [w3, q3]; ring
      · have a1 := abs_add_le turned (T * (3217 / 100 / s 6 * tan (s 5)))
        have a2 : |T * (3217 / 100 / s 6 * tan (s 5))| ≤ T * (32.17 * tan R / p.vMin) := by
          rw [abs_mul, abs_of_nonneg hT]
          exact mul_le_mul_of_nonneg_left hrate hT
        linarith)
    hist hr (k1.trans hm) (k2 ▸ hts) hu (τ := 0) (y := ![x, y, z, heading, gamma, roll, v])
    (by rw [hs, toFl7]; rfl) ⟨hv, hrl, 0, ⟨0, by simp⟩, by simp⟩
  refine ⟨y' 0, y' 1, y' 2, y' 3, y' 4, y' 5, y' 6, turned, by rw [g1, toFl7], g3, ?_⟩
  simpa using g4

/-- An aircraft told to turn left for three seconds and then, beyond the limit, right for half a second, while it speeds up. -/
example : ∃ e0 : Entity realFmt, newDubins2d (rkEnv dopri (fun _ _ _ => [1, 2]))
      { headingRateMin := -1, headingRateMax := 1, accMin := -96, accMax := 96, kwargs := [("name", .str "a"), ("heading", .num 1)] } = .ok e0 ∧
    Dubins2dParams.Of (R := realFmt) ⟨200, 400, -1, 1, -96, 96⟩
      { headingRateMin := -1, headingRateMax := 1, accMin := -96, accMax := 96, kwargs := [("name", .str "a"), ("heading", .num 1)] } ∧
    PlainMethod e0.dynamics ∧ e0.state = [.fin 0, .fin 0, .fin 1, .fin 200] ∧
    ∀ h ∈ [((3 : ℝ), (.ndarray .f64 [.fin 1, .fin 50] : Action realFmt)), (1 / 2, .ndarray .f64 [.fin (-7), .fin 5000])],
      ∃ acc : ℝ, Asks (rkEnv dopri (fun _ _ _ => [1, 2])) e0 h.2
        ![(match h.2 with | .ndarray _ (.fin r :: _) => r | _ => 0), acc] := by
  refine ⟨_, rfl, ⟨Fl.ofNat_fin 200, Fl.ofNat_fin 400, congrArg Fl.neg Fl.one_fin, Fl.one_fin, congrArg Fl.neg (Fl.ofNat_fin 96), Fl.ofNat_fin 96⟩,
    .inl rfl, ?_, ?_⟩
  · show [(0 : Fl realFmt), 0, 1, 200] = _
    rw [Fl.zero_fin, Fl.one_fin, show (200 : Fl realFmt) = .fin 200 from Fl.ofNat_fin 200]
  · intro h hh
    simp only [List.mem_cons, List.not_mem_nil, or_false] at hh
    rcases hh with rfl | rfl
    · exact ⟨50, .f64, .array _ _⟩
    · exact ⟨5000, .f64, .array _ _⟩

/-- A 3d aircraft with Euler's method and roll limits of one radian either way, banked and told to roll further. -/
example : ∃ e0 : Entity realFmt, newDubins3d (rkEnv dopri (fun _ _ _ => []))
      { gammaMin := -1, gammaMax := 1, rollMin := -1, rollMax := 1, gammaRateMin := -1, gammaRateMax := 1, integrationMethod := "Euler",
        trajectorySamples := some 0, rollRateMin := -1, rollRateMax := 1, accMin := -1, accMax := 1, kwargs := [("name", .str "a")] } = .ok e0 ∧
    e0.dynamics.integrationMethod = "Euler" ∧ e0.dynamics.trajectorySamples ≤ 0 ∧
    (e0.run (rkEnv dopri (fun _ _ _ => [])) [.setState [.fin 0, .fin 0, .fin 0, .fin 2, .fin (1 / 2), .fin (1 / 2), .fin 300]]).state
      = [.fin 0, .fin 0, .fin 0, .fin 2, .fin (1 / 2), .fin (1 / 2), .fin 300] ∧ (1 : ℝ) < π / 2 ∧
    Asks (rkEnv dopri (fun _ _ _ => [])) e0 (.ndarray .f64 [.fin 0, .fin 1, .fin 3]) ![0, 1, 3] :=
  ⟨_, rfl, rfl, le_rfl, rfl, by linarith [pi_gt_three], ⟨.f64, .array _ _⟩⟩

end SAD
