import Verif.Lemmas.Turn
import Verif.Lemmas.Timed
import Verif.Props.Dubins

/-!
# C88: turns of the Dubins aircraft
-/

set_option linter.unusedSectionVars false

namespace SAD
open Spec Real

/-- how far, per unit of time, a simulated turn may depart from the circular arc: at speed `v`, turning at `ω`, with calls of duration
at most `η` -/
noncomputable def Spec.turnError (method : String) (v ω η : ℝ) : ℝ :=
  if method = "Euler" then |v| * (|ω| * η) / 2 else |v| * (|ω| * η) ^ 5 / 170

theorem turnError_nonneg (method : String) {v ω η : ℝ} (hη : 0 ≤ η) : 0 ≤ turnError method v ω η := by
  unfold turnError
  split <;> positivity

/-- one call of the turning vehicle, by either method -/
theorem turn_call {d : Dyn realFmt} {T η V ω : ℝ} {tab : KTab ℝ} {hs : List ℝ} (hr : Run d T tab hs) (hT : 0 ≤ T) (hη : T ≤ η)
    (hω : ω ≠ 0) (z : ℂ) (θ : ℝ) :
    (rkChain tab (turnField V ω) 0 (z, θ) hs).2 = θ + ω * T ∧
    ‖(rkChain tab (turnField V ω) 0 (z, θ) hs).1 - (z + turnArc V ω θ T)‖ ≤ turnError d.integrationMethod V ω η * T := by
  have hb : ∀ h ∈ hs, 0 ≤ h ∧ h ≤ η := by
    intro h hh
    refine ⟨hr.nonneg hT h hh, le_trans ?_ hη⟩
    rw [← hr.sum]
    exact List.single_le_sum (hr.nonneg hT) h hh
  have hs' := hr.sum
  rcases hr.kind with ⟨hk, rfl⟩ | ⟨hk, rfl, -⟩
  · have hne : d.integrationMethod ≠ "Euler" := by rw [hk]; decide
    have := turn_chain dopri_turns (C := 1 / 170) (p := 5) (fun s h => (dopri_quadrature h).trans (le_of_eq (by ring)))
      (by norm_num) (V := V) hω hs hb 0 z θ
    rw [hs'] at this
    refine ⟨this.1, this.2.trans (le_of_eq ?_)⟩
    rw [turnError, if_neg hne]; ring
  · have := turn_chain euler_turns (C := 1 / 2) (p := 1) (fun s h => (euler_quadrature h).trans (le_of_eq (by ring)))
      (by norm_num) (V := V) hω hs hb 0 z θ
    rw [hs'] at this
    refine ⟨this.1, this.2.trans (le_of_eq ?_)⟩
    rw [turnError, if_pos hk]; ring

theorem exp_I (x : ℝ) : Complex.exp (Complex.I * x) = ⟨cos x, sin x⟩ := by
  rw [mul_comm, Complex.exp_mul_I]
  apply Complex.ext <;> simp [Complex.cos_ofReal_re, Complex.sin_ofReal_re]

/-- complex and real coordinates of the arc -/
theorem turnArc_re_im (V ω θ T : ℝ) : (turnArc V ω θ T).re = V / ω * (sin (θ + ω * T) - sin θ) ∧
    (turnArc V ω θ T).im = -(V / ω * (cos (θ + ω * T) - cos θ)) := by
  have e : turnArc V ω θ T = ((V / ω : ℝ) : ℂ) * (-Complex.I * (Complex.exp (Complex.I * (θ + ω * T : ℝ)) - Complex.exp (Complex.I * θ))) := by
    unfold turnArc
    rw [div_eq_mul_inv, mul_inv, Complex.inv_I]
    push_cast
    ring
  rw [e, exp_I, exp_I]
  constructor
  · rw [Complex.re_ofReal_mul]; simp
  · rw [Complex.im_ofReal_mul]; simp; ring

theorem wrap_angle (x : ℝ) : SameAngle π x (x + 0 - 2 * π * ⌊(x + π) / (2 * π)⌋) :=
  ⟨-⌊(x + π) / (2 * π)⌋, by push_cast; ring⟩

theorem SameAngle.trans {p a b c : ℝ} (h : SameAngle p a b) (h' : SameAngle p b c) : SameAngle p a c := by
  obtain ⟨k, rfl⟩ := h
  obtain ⟨l, rfl⟩ := h'
  exact ⟨k + l, by push_cast; ring⟩

theorem turnArc_angle {a b : ℝ} (h : SameAngle π a b) (V ω T : ℝ) : turnArc V ω b T = turnArc V ω a T := by
  obtain ⟨k, rfl⟩ := h
  have hp : ∀ x : ℝ, Complex.exp (Complex.I * (x + 2 * π * k : ℝ)) = Complex.exp (Complex.I * x) := by
    intro x
    push_cast
    rw [mul_add, Complex.exp_add, show Complex.I * (2 * (π : ℂ) * k) = k * (2 * π * Complex.I) by ring, Complex.exp_int_mul_two_pi_mul_I, mul_one]
  unfold turnArc
  rw [show a + 2 * π * k + ω * T = a + ω * T + 2 * π * k by ring, hp, hp]

/-- plane position and heading of the 2d aircraft -/
noncomputable def plane2 : (Fin 4 → ℝ) →ₗ[ℝ] ℂ × ℝ where
  toFun y := (⟨y 0, y 1⟩, y 2)
  map_add' a b := by simp [Complex.ext_iff]
  map_smul' c a := by simp [Complex.ext_iff]

/-- C88: a 2d aircraft asked for a constant heading rate and no acceleration keeps its speed, turns by exactly the (saturated)
rate times the time, up to whole turns, and follows the circular arc of radius `v / ω`: its distance from the exact position on
the arc grows at most linearly, at a rate proportional to the fifth power of the angle turned per call with RK45 (whatever steps the
solver takes) and to the first with Euler. -/
theorem C88_turn_2d (env : Env realFmt) (henv : IsRk dopri env) (args : Dubins2dArgs realFmt) (p : Dubins2dParams ℝ) (hp : p.Of args)
    (hacc : p.accMin ≤ 0 ∧ 0 ≤ p.accMax) (e0 : Entity realFmt) (h0 : newDubins2d env args = .ok e0) (hm : PlainMethod e0.dynamics)
    (ops : List (Op realFmt)) (e : Entity realFmt) (he : e = e0.run env ops) (x y heading v : ℝ)
    (hs : e.state = [.fin x, .fin y, .fin heading, .fin v]) (hv : p.vMin ≤ v ∧ v ≤ p.vMax) (rate ω : ℝ)
    (hω : ω = min (max rate p.headingRateMin) p.headingRateMax) (hω0 : ω ≠ 0) (η : ℝ) (hist : List (ℝ × Action realFmt))
    (hT : ∀ h ∈ hist, 0 ≤ h.1 ∧ h.1 ≤ η) (hu : ∀ h ∈ hist, Asks env e h.2 ![rate, 0]) :
    ∃ x' y' heading' : ℝ, (e.run env (stepsOf hist)).state = [.fin x', .fin y', .fin heading', .fin v] ∧
      SameAngle π (heading + ω * elapsed env e hist) heading' ∧
      √((x' - (x + v / ω * (sin (heading + ω * elapsed env e hist) - sin heading))) ^ 2
        + (y' - (y - v / ω * (cos (heading + ω * elapsed env e hist) - cos heading))) ^ 2)
        ≤ turnError e0.dynamics.integrationMethod v ω η * elapsed env e hist := by
  have hc := run_sameConfig env ops e0
  have hr := (dubins2d_realised hp h0).congr hc
  have hm' := plain_congr hc hm
  have hmeth := (sameConfig_method hc).1
  rw [← he] at hr hm' hmeth
  have hsat : (dubins2dModel realFmt p).sat ![rate, 0] = ![ω, 0] := by
    funext i
    fin_cases i
    · simp [KModel.sat, dubins2dModel, kclip, hω]
    · simpa [KModel.sat, dubins2dModel] using kclip_within hacc.1 hacc.2
  have hfield : ∀ t (z : Fin 4 → ℝ), z 3 = v → (dubins2dModel realFmt p).field ![ω, 0] t z = ![v * cos (z 2), v * sin (z 2), ω, 0] := by
    intro t z hz
    funext i
    fin_cases i
    · simp [KModel.field, dubins2dModel, klimit_free, hz]; exact Or.inl rfl
    · simp [KModel.field, dubins2dModel, klimit_free, hz]; exact Or.inl rfl
    · simp [KModel.field, dubins2dModel, klimit_free]
    · simp [KModel.field, dubins2dModel, klimit_zero]
  let D : Submodule ℝ (Fin 4 → ℝ) := LinearMap.ker (LinearMap.proj (R := ℝ) (φ := fun _ : Fin 4 => ℝ) 3)
  have hst : Stable ((dubins2dModel realFmt p).field ((dubins2dModel realFmt p).sat ![rate, 0])) (fun z => z 3 = v) D := by
    rw [hsat]
    constructor
    · intro t z hz
      rw [LinearMap.mem_ker, hfield t z hz]
      rfl
    · intro y d hy hd
      rw [LinearMap.mem_ker] at hd
      change d 3 = 0 at hd
      simp [hy, hd]
  obtain ⟨y', g1, -, g2, g3, g4⟩ := Realises.run_timed henv pi_pos (M := dubins2dModel realFmt p) (d := e.dynamics)
    (fun τ z => 0 ≤ τ ∧ z 3 = v ∧ SameAngle π (heading + ω * τ) (z 2) ∧
      ‖(⟨z 0, z 1⟩ : ℂ) - (⟨x, y⟩ + turnArc v ω heading τ)‖ ≤ turnError e0.dynamics.integrationMethod v ω η * τ)
    (fun T u => u = ![rate, 0] ∧ 0 ≤ T ∧ T ≤ η) (S := fun z => z 3 = v) (D := D) (fun _ _ => trivial)
    (by rintro T u ⟨rfl, -⟩; exact hst) (fun τ z h => h.2.1)
    (by
      rintro τ T u ⟨rfl, hT0, hTη⟩ tab hs z hrun ⟨q1, q2, q3, q4⟩
      have hchain : rkChain tab ((dubins2dModel realFmt p).field ((dubins2dModel realFmt p).sat ![rate, 0])) 0 z hs
          = rkChain tab (fun _ z => ![v * cos (z 2), v * sin (z 2), ω, 0]) 0 z hs :=
        rkChain_congrOn tab hst.field hst.move (by intro t z hz; rw [hsat]; exact hfield t z hz) 0 z hs q2
      have hinv : rkChain tab ((dubins2dModel realFmt p).field ((dubins2dModel realFmt p).sat ![rate, 0])) 0 z hs 3 = v :=
        rkChain_inv tab _ (fun z => z 3 = v) D hst.field hst.move 0 z hs q2
      have hmap := rkChain_map tab plane2 (fun _ z => ![v * cos (z 2), v * sin (z 2), ω, 0]) (turnField v ω) (by
        intro t z
        simp only [plane2, LinearMap.coe_mk, AddHom.coe_mk, turnField]
        refine Prod.ext ?_ rfl
        simp only
        rw [exp_I]
        apply Complex.ext <;> simp) 0 z hs
      rw [← hchain] at hmap
      obtain ⟨w, hw⟩ : ∃ w, w = rkChain tab ((dubins2dModel realFmt p).field ((dubins2dModel realFmt p).sat ![rate, 0])) 0 z hs := ⟨_, rfl⟩
      rw [← hw] at hmap hinv ⊢
      obtain ⟨c1, c2⟩ := turn_call (V := v) hrun hT0 hTη hω0 (⟨z 0, z 1⟩ : ℂ) (z 2)
      have e1 : plane2 z = (⟨z 0, z 1⟩, z 2) := rfl
      rw [← e1, ← hmap] at c1 c2
      have p0 : (dubins2dModel realFmt p).post realFmt.pi w 0 = w 0 := by simp [KModel.post, dubins2dModel, kclip]
      have p1 : (dubins2dModel realFmt p).post realFmt.pi w 1 = w 1 := by simp [KModel.post, dubins2dModel, kclip]
      have p3 : (dubins2dModel realFmt p).post realFmt.pi w 3 = v := by
        simpa [KModel.post, dubins2dModel, hinv] using kclip_within hv.1 hv.2
      have p2 : SameAngle π (w 2) ((dubins2dModel realFmt p).post realFmt.pi w 2) := by
        have := wrap_angle (w 2)
        simp [KModel.post, dubins2dModel, kclip] at this ⊢
        exact this
      refine ⟨add_nonneg q1 hT0, p3, SameAngle.trans ?_ p2, ?_⟩
      · obtain ⟨k, hk⟩ := q3
        refine ⟨k, ?_⟩
        have : w 2 = z 2 + ω * T := c1
        rw [this, hk]; ring
      · rw [p0, p1]
        have harc : turnArc v ω heading (τ + T) = turnArc v ω heading τ + turnArc v ω (z 2) T := by
          rw [turnArc_add, turnArc_angle q3]
        have e2 : (⟨w 0, w 1⟩ : ℂ) - (⟨x, y⟩ + turnArc v ω heading (τ + T))
            = ((plane2 w).1 - (⟨z 0, z 1⟩ + turnArc v ω (z 2) T)) + (⟨z 0, z 1⟩ - (⟨x, y⟩ + turnArc v ω heading τ)) := by
          rw [harc]
          show (⟨w 0, w 1⟩ : ℂ) - _ = (⟨w 0, w 1⟩ - _) + _
          ring
        rw [e2, mul_add, add_comm (_ * τ)]
        refine (norm_add_le _ _).trans (add_le_add ?_ q4)
        rw [hmeth] at c2
        exact c2)
    hist hr hm' rfl (fun h hh => ⟨_, hu h hh, rfl, hT h hh⟩) (τ := 0) (y := ![x, y, heading, v]) (by rw [hs, toFl4]; rfl)
    ⟨le_rfl, rfl, ⟨0, by simp⟩, by simp [turnArc]⟩
  refine ⟨y' 0, y' 1, y' 2, by rw [g1, toFl4, g2], by simpa using g3, ?_⟩
  simp only [zero_add] at g4
  obtain ⟨a1, a2⟩ := turnArc_re_im v ω heading (elapsed env e hist)
  refine le_trans (le_of_eq ?_) g4
  rw [Complex.norm_def, Complex.normSq_apply]
  simp only [Complex.sub_re, Complex.add_re, Complex.sub_im, Complex.add_im, a1, a2]
  congr 1
  ring

/-- C88: after any number of full turns the aircraft is back where it was, up to the same error. -/
theorem C88_full_circle (env : Env realFmt) (henv : IsRk dopri env) (args : Dubins2dArgs realFmt) (p : Dubins2dParams ℝ) (hp : p.Of args)
    (hacc : p.accMin ≤ 0 ∧ 0 ≤ p.accMax) (e0 : Entity realFmt) (h0 : newDubins2d env args = .ok e0) (hm : PlainMethod e0.dynamics)
    (ops : List (Op realFmt)) (e : Entity realFmt) (he : e = e0.run env ops) (x y heading v : ℝ)
    (hs : e.state = [.fin x, .fin y, .fin heading, .fin v]) (hv : p.vMin ≤ v ∧ v ≤ p.vMax) (rate ω : ℝ)
    (hω : ω = min (max rate p.headingRateMin) p.headingRateMax) (hω0 : ω ≠ 0) (η : ℝ) (hist : List (ℝ × Action realFmt))
    (hT : ∀ h ∈ hist, 0 ≤ h.1 ∧ h.1 ≤ η) (hu : ∀ h ∈ hist, Asks env e h.2 ![rate, 0]) (turns : ℤ)
    (hturns : ω * elapsed env e hist = 2 * π * turns) :
    ∃ x' y' heading' : ℝ, (e.run env (stepsOf hist)).state = [.fin x', .fin y', .fin heading', .fin v] ∧
      SameAngle π heading heading' ∧
      √((x' - x) ^ 2 + (y' - y) ^ 2) ≤ turnError e0.dynamics.integrationMethod v ω η * elapsed env e hist := by
  obtain ⟨x', y', h', g1, g2, g3⟩ := C88_turn_2d env henv args p hp hacc e0 h0 hm ops e he x y heading v hs hv rate ω hω hω0 η hist hT hu
  have es : sin (heading + 2 * π * turns) = sin heading := by
    rw [show heading + 2 * π * turns = heading + turns * (2 * π) by ring]; exact sin_add_int_mul_two_pi _ _
  have ec : cos (heading + 2 * π * turns) = cos heading := by
    rw [show heading + 2 * π * turns = heading + turns * (2 * π) by ring]; exact cos_add_int_mul_two_pi _ _
  rw [hturns] at g2 g3
  rw [es, ec] at g3
  refine ⟨x', y', h', g1, SameAngle.trans ⟨turns, rfl⟩ g2, ?_⟩
  simpa using g3

/-- plane position and heading of the 3d aircraft -/
noncomputable def plane3 : (Fin 7 → ℝ) →ₗ[ℝ] ℂ × ℝ where
  toFun y := (⟨y 0, y 1⟩, y 3)
  map_add' a b := by simp [Complex.ext_iff]
  map_smul' c a := by simp [Complex.ext_iff]

/-- C88: a 3d aircraft flown hands off with a roll angle follows a helix: speed, roll and flight path angle stay, it turns by exactly
`32.17 tan(roll) / v` times the time, up to whole turns, climbs or sinks by exactly the vertical speed times the time, and its
horizontal distance from the exact position on the arc grows at most as in the 2d case. -/
theorem C88_turn_3d (env : Env realFmt) (henv : IsRk dopri env) (args : Dubins3dArgs realFmt) (p : Dubins3dParams ℝ) (hp : p.Of args)
    (hg : p.gammaRateMin ≤ 0 ∧ 0 ≤ p.gammaRateMax) (hroll : p.rollRateMin ≤ 0 ∧ 0 ≤ p.rollRateMax)
    (hacc : p.accMin ≤ 0 ∧ 0 ≤ p.accMax) (e0 : Entity realFmt) (h0 : newDubins3d env args = .ok e0) (hm : PlainMethod e0.dynamics)
    (ops : List (Op realFmt)) (e : Entity realFmt) (he : e = e0.run env ops) (x y z heading gamma roll v : ℝ)
    (hs : e.state = [.fin x, .fin y, .fin z, .fin heading, .fin gamma, .fin roll, .fin v])
    (hga : -π ≤ gamma ∧ gamma < π) (hgl : p.gammaMin ≤ gamma ∧ gamma ≤ p.gammaMax)
    (hra : -π ≤ roll ∧ roll < π) (hrl : p.rollMin ≤ roll ∧ roll ≤ p.rollMax) (hv : p.vMin ≤ v ∧ v ≤ p.vMax) (hv0 : v ≠ 0)
    (ω : ℝ) (hω : ω = 32.17 * tan roll / v) (hω0 : ω ≠ 0) (η : ℝ) (hist : List (ℝ × Action realFmt))
    (hT : ∀ h ∈ hist, 0 ≤ h.1 ∧ h.1 ≤ η) (hu : ∀ h ∈ hist, Asks env e h.2 (fun _ : Fin 3 => 0)) :
    ∃ x' y' heading' : ℝ, (e.run env (stepsOf hist)).state
        = [.fin x', .fin y', .fin (z - v * sin gamma * elapsed env e hist), .fin heading', .fin gamma, .fin roll, .fin v] ∧
      SameAngle π (heading + ω * elapsed env e hist) heading' ∧
      √((x' - (x + v * cos gamma / ω * (sin (heading + ω * elapsed env e hist) - sin heading))) ^ 2
        + (y' - (y - v * cos gamma / ω * (cos (heading + ω * elapsed env e hist) - cos heading))) ^ 2)
        ≤ turnError e0.dynamics.integrationMethod (v * cos gamma) ω η * elapsed env e hist := by
  have hc := run_sameConfig env ops e0
  have hr := (dubins3d_realised hp h0).congr hc
  have hm' := plain_congr hc hm
  have hmeth := (sameConfig_method hc).1
  rw [← he] at hr hm' hmeth
  obtain ⟨V, hV⟩ : ∃ V, V = v * cos gamma := ⟨_, rfl⟩
  rw [← hV]
  have hsat : (dubins3dModel realFmt p).sat (fun _ => 0) = fun _ => 0 := by
    funext i
    fin_cases i
    · exact kclip_within hg.1 hg.2
    · exact kclip_within hroll.1 hroll.2
    · exact kclip_within hacc.1 hacc.2
  let S : (Fin 7 → ℝ) → Prop := fun w => w 4 = gamma ∧ w 5 = roll ∧ w 6 = v
  let G : (Fin 7 → ℝ) → (Fin 7 → ℝ) := fun w => ![V * cos (w 3), V * sin (w 3), -(v * sin gamma), ω, 0, 0, 0]
  have hfield : ∀ t (w : Fin 7 → ℝ), S w → (dubins3dModel realFmt p).field (fun _ => 0) t w = G w := by
    rintro t w ⟨h4, h5, h6⟩
    funext i
    fin_cases i
    · simp only [KModel.field, dubins3dModel, klimit_free, Matrix.cons_val, h4, h6, G, hV]
      simp [klimit_free]
      show v * cos (w 3) * cos gamma = _
      ring
    · simp only [KModel.field, dubins3dModel, klimit_free, Matrix.cons_val, h4, h6, G, hV]
      simp [klimit_free]
      show v * sin (w 3) * cos gamma = _
      ring
    · simp only [KModel.field, dubins3dModel, klimit_free, Matrix.cons_val, h4, h6, G]
      simp [klimit_free]
      exact Or.inl rfl
    · simp only [KModel.field, dubins3dModel, klimit_free, Matrix.cons_val, h5, h6, G, hω]
      simp [klimit_free]
      show 3217 / 100 / v * tan roll = _
      field_simp
      ring
    · simp [KModel.field, dubins3dModel, klimit_zero, G]
    · simp [KModel.field, dubins3dModel, klimit_zero, G]
    · simp [KModel.field, dubins3dModel, klimit_zero, G]
  let D : Submodule ℝ (Fin 7 → ℝ) := LinearMap.ker (LinearMap.proj (R := ℝ) (φ := fun _ : Fin 7 => ℝ) 4)
    ⊓ LinearMap.ker (LinearMap.proj (R := ℝ) (φ := fun _ : Fin 7 => ℝ) 5) ⊓ LinearMap.ker (LinearMap.proj (R := ℝ) (φ := fun _ : Fin 7 => ℝ) 6)
  have hst : Stable ((dubins3dModel realFmt p).field ((dubins3dModel realFmt p).sat (fun _ => 0))) S D := by
    rw [hsat]
    constructor
    · intro t w hw
      rw [hfield t w hw]
      exact ⟨⟨rfl, rfl⟩, rfl⟩
    · rintro w d ⟨h4, h5, h6⟩ ⟨⟨d4, d5⟩, d6⟩
      change d 4 = 0 at d4
      change d 5 = 0 at d5
      change d 6 = 0 at d6
      exact ⟨by simp [h4, d4], by simp [h5, d5], by simp [h6, d6]⟩
  obtain ⟨y', g1, -, ⟨g4, g5, g6⟩, gz, g2, g3⟩ := Realises.run_timed henv pi_pos (M := dubins3dModel realFmt p) (d := e.dynamics)
    (fun τ w => 0 ≤ τ ∧ S w ∧ w 2 = z - v * sin gamma * τ ∧ SameAngle π (heading + ω * τ) (w 3) ∧
      ‖(⟨w 0, w 1⟩ : ℂ) - (⟨x, y⟩ + turnArc V ω heading τ)‖ ≤ turnError e0.dynamics.integrationMethod V ω η * τ)
    (fun T u => u = (fun _ => 0) ∧ 0 ≤ T ∧ T ≤ η) (S := S) (D := D) (by rintro w ⟨-, -, h⟩; show w 6 ≠ 0; rw [h]; exact hv0)
    (by rintro T u ⟨rfl, -⟩; exact hst) (fun τ w h => h.2.1)
    (by
      rintro τ T u ⟨rfl, hT0, hTη⟩ tab hs w0 hrun ⟨q1, q2, qz, q3, q4⟩
      have hchain : rkChain tab ((dubins3dModel realFmt p).field ((dubins3dModel realFmt p).sat (fun _ => 0))) 0 w0 hs
          = rkChain tab (fun _ => G) 0 w0 hs :=
        rkChain_congrOn tab hst.field hst.move (by intro t w hw; rw [hsat]; exact hfield t w hw) 0 w0 hs q2
      have hinv : S (rkChain tab ((dubins3dModel realFmt p).field ((dubins3dModel realFmt p).sat (fun _ => 0))) 0 w0 hs) :=
        rkChain_inv tab _ S D hst.field hst.move 0 w0 hs q2
      have hmap := rkChain_map tab plane3 (fun _ => G) (turnField V ω) (by
        intro t w
        simp only [plane3, LinearMap.coe_mk, AddHom.coe_mk, turnField, G]
        refine Prod.ext ?_ rfl
        simp only
        rw [exp_I]
        apply Complex.ext <;> simp) 0 w0 hs
      have hz := rkChain_const_rate tab hrun.b.1 hrun.b.2 (fun _ => G) (LinearMap.proj (R := ℝ) (φ := fun _ : Fin 7 => ℝ) 2)
        (-(v * sin gamma)) (by intro t w; rfl) 0 w0 hs
      simp only [LinearMap.proj_apply, hrun.sum] at hz
      rw [← hchain] at hmap hz
      obtain ⟨w, hw⟩ : ∃ w, w = rkChain tab ((dubins3dModel realFmt p).field ((dubins3dModel realFmt p).sat (fun _ => 0))) 0 w0 hs := ⟨_, rfl⟩
      rw [← hw] at hmap hinv hz ⊢
      obtain ⟨i4, i5, i6⟩ := hinv
      obtain ⟨c1, c2⟩ := turn_call (V := V) hrun hT0 hTη hω0 (⟨w0 0, w0 1⟩ : ℂ) (w0 3)
      have e1 : plane3 w0 = (⟨w0 0, w0 1⟩, w0 3) := rfl
      rw [← e1, ← hmap] at c1 c2
      have p0 : (dubins3dModel realFmt p).post realFmt.pi w 0 = w 0 := by simp [KModel.post, dubins3dModel, kclip]
      have p1 : (dubins3dModel realFmt p).post realFmt.pi w 1 = w 1 := by simp [KModel.post, dubins3dModel, kclip]
      have p2 : (dubins3dModel realFmt p).post realFmt.pi w 2 = w 2 := by simp [KModel.post, dubins3dModel, kclip]
      have p3 : SameAngle π (w 3) ((dubins3dModel realFmt p).post realFmt.pi w 3) := by
        have := wrap_angle (w 3)
        simp [KModel.post, dubins3dModel, kclip] at this ⊢
        exact this
      have p4 : (dubins3dModel realFmt p).post realFmt.pi w 4 = gamma := by
        simpa [KModel.post, dubins3dModel, i4, kclip_within hgl.1 hgl.2] using wrap_zero_id (R := realFmt) pi_pos hga.1 hga.2
      have p5 : (dubins3dModel realFmt p).post realFmt.pi w 5 = roll := by
        simpa [KModel.post, dubins3dModel, i5, kclip_within hrl.1 hrl.2] using wrap_zero_id (R := realFmt) pi_pos hra.1 hra.2
      have p6 : (dubins3dModel realFmt p).post realFmt.pi w 6 = v := by
        simpa [KModel.post, dubins3dModel, i6] using kclip_within hv.1 hv.2
      refine ⟨add_nonneg q1 hT0, ⟨p4, p5, p6⟩, by rw [p2, hz, qz]; ring, SameAngle.trans ?_ p3, ?_⟩
      · obtain ⟨k, hk⟩ := q3
        refine ⟨k, ?_⟩
        have : w 3 = w0 3 + ω * T := c1
        rw [this, hk]; ring
      · rw [p0, p1]
        have harc : turnArc V ω heading (τ + T) = turnArc V ω heading τ + turnArc V ω (w0 3) T := by
          rw [turnArc_add, turnArc_angle q3]
        have e2 : (⟨w 0, w 1⟩ : ℂ) - (⟨x, y⟩ + turnArc V ω heading (τ + T))
            = ((plane3 w).1 - (⟨w0 0, w0 1⟩ + turnArc V ω (w0 3) T)) + (⟨w0 0, w0 1⟩ - (⟨x, y⟩ + turnArc V ω heading τ)) := by
          rw [harc]
          show (⟨w 0, w 1⟩ : ℂ) - _ = (⟨w 0, w 1⟩ - _) + _
          ring
        rw [e2, mul_add, add_comm (_ * τ)]
        refine (norm_add_le _ _).trans (add_le_add ?_ q4)
        rw [hmeth] at c2
        exact c2)
    hist hr hm' rfl (fun h hh => ⟨_, hu h hh, rfl, hT h hh⟩) (τ := 0) (y := ![x, y, z, heading, gamma, roll, v])
    (by rw [hs, toFl7]; rfl)
    ⟨le_rfl, ⟨rfl, rfl, rfl⟩, by simp, ⟨0, by simp⟩, by simp [turnArc]⟩
  rw [zero_add] at gz
  refine ⟨y' 0, y' 1, y' 3, by rw [g1, toFl7, gz, g4, g5, g6], by simpa using g2, ?_⟩
  simp only [zero_add] at g3
  obtain ⟨a1, a2⟩ := turnArc_re_im V ω heading (elapsed env e hist)
  refine le_trans (le_of_eq ?_) g3
  rw [Complex.norm_def, Complex.normSq_apply]
  simp only [Complex.sub_re, Complex.add_re, Complex.sub_im, Complex.add_im, a1, a2]
  congr 1
  ring

theorem elapsed_one {env : Env realFmt} {e : Entity realFmt} {T : ℝ} {a : Action realFmt}
    (h : (e.step env (.fin T) a).outcome = .ok ()) : elapsed env e [(T, a)] = T := by
  simp [elapsed, h]

/-- an aircraft asked to turn at one radian per second for a full turn: the hypotheses hold and the call succeeds -/
example : ∃ e0 : Entity realFmt, newDubins2d (rkEnv dopri (fun _ _ _ => [1, 2]))
      { headingRateMin := -1, headingRateMax := 1, accMin := -96, accMax := 96, kwargs := [("name", .str "a"), ("heading", .num 1)] } = .ok e0 ∧
    PlainMethod e0.dynamics ∧ e0.state = [.fin 0, .fin 0, .fin 1, .fin 200] ∧
    Asks (rkEnv dopri (fun _ _ _ => [1, 2])) e0 (.ndarray .f64 [.fin 1, .fin 0]) ![1, 0] ∧
    (1 : ℝ) = min (max 1 (-1)) 1 ∧
    1 * elapsed (rkEnv dopri (fun _ _ _ => [1, 2])) e0 [(2 * π, .ndarray .f64 [.fin 1, .fin 0])] = 2 * π * (1 : ℤ) := by
  have hp : Dubins2dParams.Of (R := realFmt) ⟨200, 400, -1, 1, -96, 96⟩
      { headingRateMin := -1, headingRateMax := 1, accMin := -96, accMax := 96, kwargs := [("name", .str "a"), ("heading", .num 1)] } :=
    ⟨Fl.ofNat_fin 200, Fl.ofNat_fin 400, congrArg Fl.neg Fl.one_fin, Fl.one_fin, congrArg Fl.neg (Fl.ofNat_fin 96), Fl.ofNat_fin 96⟩
  refine ⟨_, rfl, .inl rfl, ?_, ⟨.f64, .array _ _⟩, by norm_num, ?_⟩
  · show [(0 : Fl realFmt), 0, 1, 200] = _
    rw [Fl.zero_fin, Fl.one_fin, show (200 : Fl realFmt) = .fin 200 from Fl.ofNat_fin 200]
  · have h := (Realises.step_fixed (R := realFmt) [1, 2] pi_pos (dubins2d_realised hp (env := rkEnv dopri (fun _ _ _ => [1, 2])) rfl)
      (.inl rfl) (a := .ndarray .f64 [.fin 1, .fin 0]) (u := ![1, 0]) ⟨.f64, .array _ _⟩ (S := fun _ => True) (D := ⊤) (fun _ _ => trivial)
      ⟨fun _ _ _ => trivial, fun _ _ _ _ => trivial⟩ (y := ![0, 0, 1, 200]) (by
        show [(0 : Fl realFmt), 0, 1, 200] = _
        rw [Fl.zero_fin, Fl.one_fin, show (200 : Fl realFmt) = .fin 200 from Fl.ofNat_fin 200, toFl4]; rfl) trivial (2 * π)).1
    refine (congrArg (1 * ·) (elapsed_one h)).trans ?_
    simp

/-- a banked, climbing aircraft flown hands off -/
example : ∃ e0 : Entity realFmt, newDubins3d (rkEnv dopri (fun _ _ _ => [1, 2]))
      { gammaMin := -1, gammaMax := 1, rollMin := -1, rollMax := 1, gammaRateMin := -1, gammaRateMax := 1
        rollRateMin := -1, rollRateMax := 1, accMin := -1, accMax := 1, kwargs := [("name", .str "a")] } = .ok e0 ∧
    PlainMethod e0.dynamics ∧
    (e0.run (rkEnv dopri (fun _ _ _ => [1, 2])) [.setState [.fin 0, .fin 0, .fin 0, .fin 2, .fin (1 / 2), .fin (-1), .fin 300]]).state
      = [.fin 0, .fin 0, .fin 0, .fin 2, .fin (1 / 2), .fin (-1), .fin 300] ∧
    Asks (rkEnv dopri (fun _ _ _ => [1, 2])) e0 (.ndarray .f64 (toFl fun _ : Fin 3 => (0 : ℝ))) (fun _ : Fin 3 => 0) ∧
    (-π ≤ (1 / 2 : ℝ) ∧ (1 / 2 : ℝ) < π) ∧ (-π ≤ (-1 : ℝ) ∧ (-1 : ℝ) < π) ∧ 32.17 * tan (-1) / (300 : ℝ) ≠ 0 := by
  have h3 := pi_gt_three
  have ht : 0 < tan 1 := tan_pos_of_pos_of_lt_pi_div_two (by norm_num) (by linarith)
  refine ⟨_, rfl, .inl rfl, rfl, ⟨.f64, .array _ _⟩, by constructor <;> linarith, by constructor <;> linarith, ?_⟩
  rw [tan_neg]
  exact ne_of_lt (div_neg_of_neg_of_pos (by linarith) (by norm_num))

end SAD
