import Verif.Props.Slew
import Verif.Props.DubinsReach
import Verif.Lemmas.Stops
import Verif.Lemmas.Symmetry

/-! # C135: how fast an aircraft speeds up, pitches and rolls -/

set_option linter.unusedSectionVars false

namespace SAD
open Spec Real

theorem stop_up_chain {lo hi r : ℝ} (h : lo < hi) (hr : 0 ≤ r) {hs : List ℝ} (h0 : ∀ h ∈ hs, 0 ≤ h) {x : ℝ} (hx : lo ≤ x) (t : ℝ) :
    x ≤ rkChain kdopri (fun _ => stopRate lo hi r) t x hs ∧
      (rkChain kdopri (fun _ => stopRate lo hi r) t x hs ≤ x + hs.sum * r ∨ hi ≤ x + hs.sum * r) := by
  have hmap := rkChain_affine kdopri (LinearMap.snd ℝ ℝ ℝ) ((hi + lo) / 2) (F := attitudeField r ((hi - lo) / 2) r) (G := fun _ => stopRate lo hi r) (by
    intro t q
    have e : kclip (some (-r)) (some r) r = r := kclip_within (by linarith) le_rfl
    simp only [attitudeField, klimit, e, Option.some.injEq, exists_eq_left', LinearMap.snd_apply, stopRate]
    have i1 : hi ≤ q.2 + (hi + lo) / 2 ↔ (hi - lo) / 2 ≤ q.2 := by constructor <;> intro h <;> linarith
    have i2 : q.2 + (hi + lo) / 2 ≤ lo ↔ q.2 ≤ -((hi - lo) / 2) := by constructor <;> intro h <;> linarith
    simp only [i1, i2]) t (0, x - (hi + lo) / 2) hs
  obtain ⟨-, b1, b2⟩ := chain_up (acc := r) (vel := (hi - lo) / 2) (by linarith) hr le_rfl hs t 0 (x - (hi + lo) / 2) h0 (by linarith)
  simp only [LinearMap.snd_apply, sub_add_cancel] at hmap
  rw [hmap]
  refine ⟨by linarith, ?_⟩
  rcases b2 with b2 | b2
  · left; linarith
  · right; linarith

/-- What a limited quantity gains in a call of RK45. -/
theorem stop_gain {lo hi r : ℝ} (h : lo < hi) {hs : List ℝ} (h0 : ∀ h ∈ hs, 0 ≤ h) {x : ℝ} (hx : lo ≤ x ∧ x ≤ hi) (t : ℝ) :
    min (r * hs.sum) 0 ≤ min (max (rkChain kdopri (fun _ => stopRate lo hi r) t x hs) lo) hi - x ∧
      min (max (rkChain kdopri (fun _ => stopRate lo hi r) t x hs) lo) hi - x ≤ max (r * hs.sum) 0 := by
  have up : ∀ {lo hi r x : ℝ}, lo < hi → 0 ≤ r → (lo ≤ x ∧ x ≤ hi) →
      0 ≤ min (max (rkChain kdopri (fun _ => stopRate lo hi r) t x hs) lo) hi - x ∧
      min (max (rkChain kdopri (fun _ => stopRate lo hi r) t x hs) lo) hi - x ≤ r * hs.sum := by
    intro lo hi r x h hr hx
    obtain ⟨a1, a2⟩ := stop_up_chain h hr h0 hx.1 t
    rw [max_eq_left (hx.1.trans a1)]
    refine ⟨sub_nonneg.2 (le_min a1 hx.2), ?_⟩
    rcases a2 with a2 | a2
    · linarith [min_le_left (rkChain kdopri (fun _ => stopRate lo hi r) t x hs) hi]
    · linarith [min_le_right (rkChain kdopri (fun _ => stopRate lo hi r) t x hs) hi]
  rcases le_total 0 r with hr | hr
  · obtain ⟨a, b⟩ := up h hr hx
    exact ⟨(min_le_right _ _).trans a, b.trans (le_max_left _ _)⟩
  · obtain ⟨a, b⟩ := up (lo := -hi) (hi := -lo) (r := -r) (x := -x) (by linarith) (by linarith) ⟨by linarith, by linarith⟩
    have e1 := rkChain_map kdopri (-LinearMap.id : ℝ →ₗ[ℝ] ℝ) (fun _ => stopRate lo hi r) (fun _ => stopRate (-hi) (-lo) (-r))
      (fun _ y => by simpa using stopRate_neg h r y) t x hs
    simp only [LinearMap.neg_apply, LinearMap.id_apply] at e1
    rw [← e1, clamp_neg h.le] at a b
    exact ⟨(min_le_left _ _).trans (by linarith), (by linarith : _ ≤ (0 : ℝ)).trans (le_max_right _ _)⟩

/-- The same for a call of Euler's method. -/
theorem euler_gain {T : ℝ} (hT : 0 ≤ T) {lo hi r rlo rhi : ℝ} (h : lo < hi) (hr : rlo ≤ r ∧ r ≤ rhi) (h0 : rlo ≤ 0 ∧ 0 ≤ rhi) {x : ℝ}
    (hx : lo ≤ x ∧ x ≤ hi) :
    rlo * T ≤ min (max (x + T * stopRate lo hi r x) lo) hi - x ∧ min (max (x + T * stopRate lo hi r x) lo) hi - x ≤ rhi * T := by
  have b1 := mul_le_mul_of_nonneg_right hr.1 hT
  have b2 := mul_le_mul_of_nonneg_right hr.2 hT
  have c1 := mul_le_mul_of_nonneg_right h0.1 hT
  have c2 := mul_le_mul_of_nonneg_right h0.2 hT
  rw [zero_mul] at c1 c2
  rw [euler_stop h hT hx]
  constructor
  · have : x + rlo * T ≤ min (max (x + r * T) lo) hi := le_min (le_max_of_le_left (by linarith)) (by linarith)
    linarith
  · have : min (max (x + r * T) lo) hi ≤ x + rhi * T := (min_le_left _ _).trans (max_le (by linarith) (by linarith))
    linarith

/-- The same for both methods: what the quantity gains lies between the duration times the limits of its rate. -/
theorem run_gain {d : Dyn realFmt} {T : ℝ} {tab : KTab ℝ} {hs : List ℝ} (hrun : Run d T tab hs) (hT : 0 ≤ T) {lo hi r rlo rhi : ℝ} (h : lo < hi)
    (hr : rlo ≤ r ∧ r ≤ rhi) (h0 : rlo ≤ 0 ∧ 0 ≤ rhi) {x : ℝ} (hx : lo ≤ x ∧ x ≤ hi) :
    rlo * T ≤ min (max (rkChain tab (fun _ => stopRate lo hi r) 0 x hs) lo) hi - x ∧
      min (max (rkChain tab (fun _ => stopRate lo hi r) 0 x hs) lo) hi - x ≤ rhi * T := by
  have b1 := mul_le_mul_of_nonneg_right hr.1 hT
  have b2 := mul_le_mul_of_nonneg_right hr.2 hT
  have c1 := mul_le_mul_of_nonneg_right h0.1 hT
  have c2 := mul_le_mul_of_nonneg_right h0.2 hT
  rw [zero_mul] at c1 c2
  have fin : ∀ {z : ℝ}, min (r * T) 0 ≤ z ∧ z ≤ max (r * T) 0 → rlo * T ≤ z ∧ z ≤ rhi * T := fun q =>
    ⟨(le_min b1 c1).trans q.1, q.2.trans (max_le b2 c2)⟩
  rcases hrun.kind with ⟨-, rfl⟩ | ⟨-, rfl, rfl⟩
  · have := stop_gain (r := r) h (hrun.nonneg hT) hx 0
    rw [hrun.sum] at this
    exact fin this
  · rw [rkChain_keuler]
    exact euler_gain hT h hr h0 hx

/-- C135: whatever the actions, in the time `t` a 2d aircraft gains at most `t` times the greatest and at least `t` times the least acceleration of
speed, with both methods and whatever steps the solver takes. -/
theorem C135_speed (env : Env realFmt) (henv : IsRk dopri env) (args : Dubins2dArgs realFmt) (p : Dubins2dParams ℝ) (hp : p.Of args)
    (hlim : p.vMin < p.vMax) (hacc : p.accMin ≤ 0 ∧ 0 ≤ p.accMax) (e0 : Entity realFmt) (h0 : newDubins2d env args = .ok e0)
    (hm : PlainMethod e0.dynamics) (ops : List (Op realFmt)) (e : Entity realFmt) (he : e = e0.run env ops) (x y heading v : ℝ)
    (hs : e.state = [.fin x, .fin y, .fin heading, .fin v]) (hv : p.vMin ≤ v ∧ v ≤ p.vMax)
    (hist : List (ℝ × Action realFmt)) (hu : ∀ h ∈ hist, 0 ≤ h.1 ∧ ∃ u : Fin 2 → ℝ, Asks env e h.2 u) :
    ∃ x' y' heading' v' : ℝ, (e.run env (stepsOf hist)).state = [.fin x', .fin y', .fin heading', .fin v'] ∧
      p.accMin * elapsed env e hist ≤ v' - v ∧ v' - v ≤ p.accMax * elapsed env e hist ∧ p.vMin ≤ v' ∧ v' ≤ p.vMax := by
  have hc := run_sameConfig env ops e0
  have hr := (dubins2d_realised hp h0).congr hc
  have hm' := plain_congr hc hm
  rw [← he] at hr hm'
  obtain ⟨y', g1, g2, g3, g4⟩ := Realises.run_timed henv pi_pos (M := dubins2dModel realFmt p) (d := e.dynamics)
    (fun τ z => (p.vMin ≤ z 3 ∧ z 3 ≤ p.vMax) ∧ p.accMin * τ ≤ z 3 - v ∧ z 3 - v ≤ p.accMax * τ)
    (fun T _ => 0 ≤ T) (S := fun _ => True) (D := ⊤) (fun _ _ => trivial)
    (fun _ _ _ => ⟨fun _ _ _ => trivial, fun _ _ _ _ => trivial⟩) (fun _ _ _ => trivial)
    (by
      rintro τ T u hT tab hs z hrun ⟨q1, q2, q3⟩
      obtain ⟨a, ha⟩ : ∃ a, a = min (max (u 1) p.accMin) p.accMax := ⟨_, rfl⟩
      have a1 : p.accMin ≤ a ∧ a ≤ p.accMax := by
        rw [ha]; exact ⟨le_min (le_max_right _ _) (hacc.1.trans hacc.2), min_le_right _ _⟩
      have hmap := rkChain_map tab (LinearMap.proj 3 : (Fin 4 → ℝ) →ₗ[ℝ] ℝ) ((dubins2dModel realFmt p).field ((dubins2dModel realFmt p).sat u))
        (fun _ => stopRate p.vMin p.vMax a) (by
          intro t w
          simp [KModel.field, dubins2dModel, KModel.sat, klimit, kclip, stopRate, ha]) 0 z hs
      simp only [LinearMap.proj_apply] at hmap
      obtain ⟨w, hw⟩ : ∃ w, w = rkChain tab ((dubins2dModel realFmt p).field ((dubins2dModel realFmt p).sat u)) 0 z hs := ⟨_, rfl⟩
      rw [← hw] at hmap ⊢
      have p3 : (dubins2dModel realFmt p).post realFmt.pi w 3 = min (max (w 3) p.vMin) p.vMax := by simp [KModel.post, dubins2dModel, kclip]
      obtain ⟨b1, b2⟩ := run_gain hrun hT hlim a1 hacc q1
      rw [← hmap, ← p3] at b1 b2
      refine ⟨?_, by linarith, by linarith⟩
      rw [p3]
      exact ⟨le_min (le_max_right _ _) hlim.le, min_le_right _ _⟩)
    hist hr hm' rfl (fun h hh => by
      obtain ⟨h1, u, h2⟩ := hu h hh
      exact ⟨u, h2, h1⟩) (τ := 0) (y := ![x, y, heading, v])
    (by rw [hs, toFl4]; rfl) ⟨hv, by simp, by simp⟩
  rw [zero_add] at g3 g4
  exact ⟨y' 0, y' 1, y' 2, y' 3, by rw [g1, toFl4], g3, g4, g2⟩

/-- C135: the same for the speed, the flight path angle and the roll of a 3d aircraft with Euler's method. -/
theorem C135_attitude (env : Env realFmt) (args : Dubins3dArgs realFmt) (p : Dubins3dParams ℝ) (hp : p.Of args)
    (hv0 : 0 < p.vMin) (hlim : p.vMin < p.vMax ∧ p.gammaMin < p.gammaMax ∧ p.rollMin < p.rollMax)
    (hpi : -π ≤ p.gammaMin ∧ p.gammaMax < π ∧ -π ≤ p.rollMin ∧ p.rollMax < π)
    (hacc : p.accMin ≤ 0 ∧ 0 ≤ p.accMax) (hgr : p.gammaRateMin ≤ 0 ∧ 0 ≤ p.gammaRateMax) (hrr : p.rollRateMin ≤ 0 ∧ 0 ≤ p.rollRateMax)
    (e0 : Entity realFmt) (h0 : newDubins3d env args = .ok e0)
    (hm : e0.dynamics.integrationMethod = "Euler") (hts : e0.dynamics.trajectorySamples ≤ 0) (ops : List (Op realFmt)) (e : Entity realFmt)
    (he : e = e0.run env ops) (x y z heading gamma roll v : ℝ)
    (hs : e.state = [.fin x, .fin y, .fin z, .fin heading, .fin gamma, .fin roll, .fin v]) (hv : p.vMin ≤ v ∧ v ≤ p.vMax)
    (hg : p.gammaMin ≤ gamma ∧ gamma ≤ p.gammaMax) (hrl : p.rollMin ≤ roll ∧ roll ≤ p.rollMax)
    (hist : List (ℝ × Action realFmt)) (hu : ∀ h ∈ hist, 0 ≤ h.1 ∧ ∃ u : Fin 3 → ℝ, Asks env e h.2 u)
    (t : ℝ) (ht : t = (hist.map Prod.fst).sum) :
    ∃ x' y' z' heading' gamma' roll' v' : ℝ,
      (e.run env (stepsOf hist)).state = [.fin x', .fin y', .fin z', .fin heading', .fin gamma', .fin roll', .fin v'] ∧
      (p.accMin * t ≤ v' - v ∧ v' - v ≤ p.accMax * t) ∧ (p.gammaRateMin * t ≤ gamma' - gamma ∧ gamma' - gamma ≤ p.gammaRateMax * t) ∧
      (p.rollRateMin * t ≤ roll' - roll ∧ roll' - roll ≤ p.rollRateMax * t) := by
  have hc := run_sameConfig env ops e0
  have hr := (dubins3d_realised hp h0).congr hc
  obtain ⟨k1, k2⟩ := sameConfig_method hc
  rw [← he] at hr k1 k2
  have hpi0 := pi_pos
  obtain ⟨y', g1, -, -, -, g2, g3, g4⟩ := Realises.run_euler (env := env) (M := dubins3dModel realFmt p)
    (fun τ s => (p.vMin ≤ s 6 ∧ s 6 ≤ p.vMax) ∧ (p.gammaMin ≤ s 4 ∧ s 4 ≤ p.gammaMax) ∧ (p.rollMin ≤ s 5 ∧ s 5 ≤ p.rollMax) ∧
      (p.accMin * τ ≤ s 6 - v ∧ s 6 - v ≤ p.accMax * τ) ∧ (p.gammaRateMin * τ ≤ s 4 - gamma ∧ s 4 - gamma ≤ p.gammaRateMax * τ) ∧
      (p.rollRateMin * τ ≤ s 5 - roll ∧ s 5 - roll ≤ p.rollRateMax * τ))
    (fun T => 0 ≤ T) (fun _ s h => (hv0.trans_le h.1.1).ne')
    (by
      rintro τ T u s hT ⟨q6, q4, q5, r6, r4, r5⟩
      obtain ⟨w, hw⟩ : ∃ w, w = s + T • (dubins3dModel realFmt p).field ((dubins3dModel realFmt p).sat u) 0 s := ⟨_, rfl⟩
      rw [← hw]
      have wrap : ∀ {lo hi : ℝ} (z : ℝ), lo < hi → -π ≤ lo → hi < π → ⌊(min (max z lo) hi + π) / (2 * π)⌋ = 0 := by
        intro lo hi z h1 h2 h3
        have b1 : lo ≤ min (max z lo) hi := le_min (le_max_right _ _) h1.le
        have b2 : min (max z lo) hi ≤ hi := min_le_right _ _
        rw [Int.floor_eq_zero_iff]
        exact ⟨div_nonneg (by linarith) (by linarith), by rw [div_lt_one (by linarith)]; linarith⟩
      have p6 : (dubins3dModel realFmt p).post π w 6 = min (max (w 6) p.vMin) p.vMax := by simp [KModel.post, dubins3dModel, kclip]
      have p4 : (dubins3dModel realFmt p).post π w 4 = min (max (w 4) p.gammaMin) p.gammaMax := by
        simp [KModel.post, dubins3dModel, kclip, wrap (w 4) hlim.2.1 hpi.1 hpi.2.1]
      have p5 : (dubins3dModel realFmt p).post π w 5 = min (max (w 5) p.rollMin) p.rollMax := by
        simp [KModel.post, dubins3dModel, kclip, wrap (w 5) hlim.2.2 hpi.2.2.1 hpi.2.2.2]
      have w6 : w 6 = s 6 + T * stopRate p.vMin p.vMax (min (max (u 2) p.accMin) p.accMax) (s 6) := by
        rw [hw]; simp [KModel.field, dubins3dModel, KModel.sat, klimit, kclip, stopRate]
      have w4 : w 4 = s 4 + T * stopRate p.gammaMin p.gammaMax (min (max (u 0) p.gammaRateMin) p.gammaRateMax) (s 4) := by
        rw [hw]; simp [KModel.field, dubins3dModel, KModel.sat, klimit, kclip, stopRate]
      have w5 : w 5 = s 5 + T * stopRate p.rollMin p.rollMax (min (max (u 1) p.rollRateMin) p.rollRateMax) (s 5) := by
        rw [hw]; simp [KModel.field, dubins3dModel, KModel.sat, klimit, kclip, stopRate]
      have sat : ∀ {lo hi : ℝ} (z : ℝ), (lo ≤ 0 ∧ 0 ≤ hi) → lo ≤ min (max z lo) hi ∧ min (max z lo) hi ≤ hi := fun z h =>
        ⟨le_min (le_max_right _ _) (h.1.trans h.2), min_le_right _ _⟩
      have e6 := euler_gain hT hlim.1 (sat (u 2) hacc) hacc q6
      have e4 := euler_gain hT hlim.2.1 (sat (u 0) hgr) hgr q4
      have e5 := euler_gain hT hlim.2.2 (sat (u 1) hrr) hrr q5
      rw [← w6] at e6
      rw [← w4] at e4
      rw [← w5] at e5
      rw [p4, p5, p6]
      refine ⟨⟨le_min (le_max_right _ _) hlim.1.le, min_le_right _ _⟩, ⟨le_min (le_max_right _ _) hlim.2.1.le, min_le_right _ _⟩,
        ⟨le_min (le_max_right _ _) hlim.2.2.le, min_le_right _ _⟩, ⟨?_, ?_⟩, ⟨?_, ?_⟩, ?_, ?_⟩
      · linarith [e6.1, r6.1]
      · linarith [e6.2, r6.2]
      · linarith [e4.1, r4.1]
      · linarith [e4.2, r4.2]
      · linarith [e5.1, r5.1]
      · linarith [e5.2, r5.2])
    hist hr (k1.trans hm) (k2 ▸ hts) hu (τ := 0) (y := ![x, y, z, heading, gamma, roll, v])
    (by rw [hs, toFl7]; rfl) ⟨hv, hg, hrl, by simp, by simp, by simp⟩
  rw [zero_add, ← ht] at g2 g3 g4
  exact ⟨y' 0, y' 1, y' 2, y' 3, y' 4, y' 5, y' 6, by rw [g1, toFl7], g2, g3, g4⟩

/-- An aircraft near its greatest speed told to speed up beyond the limit, and to brake. -/
example : ∃ e0 : Entity realFmt, newDubins2d (rkEnv dopri (fun _ _ _ => [1, 2]))
      { headingRateMin := -1, headingRateMax := 1, accMin := -96, accMax := 96, kwargs := [("name", .str "a"), ("heading", .num 1)] } = .ok e0 ∧
    Dubins2dParams.Of (R := realFmt) ⟨200, 400, -1, 1, -96, 96⟩
      { headingRateMin := -1, headingRateMax := 1, accMin := -96, accMax := 96, kwargs := [("name", .str "a"), ("heading", .num 1)] } ∧
    PlainMethod e0.dynamics ∧
    (e0.run (rkEnv dopri (fun _ _ _ => [1, 2])) [.setState [.fin 0, .fin 0, .fin 1, .fin 390]]).state = [.fin 0, .fin 0, .fin 1, .fin 390] ∧
    ∀ h ∈ [((3 : ℝ), (.ndarray .f64 [.fin 1, .fin 500] : Action realFmt)), (1 / 2, .ndarray .f64 [.fin (-7), .fin (-50)])],
      0 ≤ h.1 ∧ ∃ u : Fin 2 → ℝ, Asks (rkEnv dopri (fun _ _ _ => [1, 2])) e0 h.2 u := by
  refine ⟨_, rfl, ⟨Fl.ofNat_fin 200, Fl.ofNat_fin 400, congrArg Fl.neg Fl.one_fin, Fl.one_fin, congrArg Fl.neg (Fl.ofNat_fin 96), Fl.ofNat_fin 96⟩,
    .inl rfl, rfl, ?_⟩
  intro h hh
  simp only [List.mem_cons, List.not_mem_nil, or_false] at hh
  rcases hh with rfl | rfl
  · exact ⟨by norm_num, ![1, 500], .f64, .array _ _⟩
  · exact ⟨by norm_num, ![-7, -50], .f64, .array _ _⟩

/-- A banked, climbing 3d aircraft told to climb, roll and speed up. -/
example : ∃ e0 : Entity realFmt, newDubins3d (rkEnv dopri (fun _ _ _ => []))
      { gammaMin := -1, gammaMax := 1, rollMin := -1, rollMax := 1, gammaRateMin := -1, gammaRateMax := 1, integrationMethod := "Euler",
        trajectorySamples := some 0, rollRateMin := -1, rollRateMax := 1, accMin := -1, accMax := 1, kwargs := [("name", .str "a")] } = .ok e0 ∧
    e0.dynamics.integrationMethod = "Euler" ∧ e0.dynamics.trajectorySamples ≤ 0 ∧
    (e0.run (rkEnv dopri (fun _ _ _ => [])) [.setState [.fin 0, .fin 0, .fin 0, .fin 2, .fin (1 / 2), .fin (1 / 2), .fin 300]]).state
      = [.fin 0, .fin 0, .fin 0, .fin 2, .fin (1 / 2), .fin (1 / 2), .fin 300] ∧ (-π ≤ -1 ∧ (1 : ℝ) < π) ∧
    Asks (rkEnv dopri (fun _ _ _ => [])) e0 (.ndarray .f64 [.fin 1, .fin 1, .fin 3]) ![1, 1, 3] :=
  ⟨_, rfl, rfl, le_rfl, rfl, ⟨by linarith [pi_gt_three], by linarith [pi_gt_three]⟩, ⟨.f64, .array _ _⟩⟩

end SAD
