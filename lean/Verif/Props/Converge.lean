import Verif.Lemmas.Converge
import Verif.Lemmas.History
import Verif.Lemmas.Applied
import Verif.Model.Formats
import Mathlib.Analysis.SpecialFunctions.Trigonometric.ArctanDeriv
import Mathlib.Analysis.Calculus.Deriv.Prod
import Mathlib.Analysis.ODE.ExistUnique

/-!
# C98: simulations converge to the solution of the differential equation
-/

set_option linter.unusedSectionVars false

namespace SAD
open Spec Real

/-- An exact motion under the steps of a history: during each step that succeeds, the solution of `y' = f u y` for its duration, under the control `u`
the step applies; nothing during the others. `B` bounds the speed. -/
def Spec.ExactMotion {n m : Nat} (env : Env realFmt) (f : (Fin m → ℝ) → (Fin n → ℝ) → Fin n → ℝ) (B : ℝ) :
    Entity realFmt → List (ℝ × Action realFmt) → (Fin n → ℝ) → (Fin n → ℝ) → Prop
  | _, [], y, z => z = y
  | e, (T, a) :: hist, y, z => match (e.step env (.fin T) a).outcome with
    | .error _ => ExactMotion env f B (e.step env (.fin T) a).entity hist y z
    | .ok () => ∃ (u : Fin m → ℝ) (φ : ℝ → Fin n → ℝ), Applied env e a (toFl u) ∧ φ 0 = y ∧
        (∀ t ∈ Set.Icc 0 T, HasDerivWithinAt φ (f u (φ t)) (Set.Icc 0 T) t ∧ ‖f u (φ t)‖ ≤ B) ∧
        ExactMotion env f B (e.step env (.fin T) a).entity hist (φ T) z

/-- no limits on the state and no wrapping, the defaults of the constructor -/
def Spec.NoLimits (d : Dyn realFmt) : Prop := d.stateMin = .scalar .ninf ∧ d.stateMax = .scalar .pinf ∧ d.angleWrapCenters = none

theorem applied_congr {env : Env realFmt} {e e' : Entity realFmt} (hc : SameConfig e e') {a : Action realFmt} {v : Vec realFmt} :
    Applied env e' a v ↔ Applied env e a v := by
  obtain ⟨-, h2, h3, h4, h5, -⟩ := hc
  have : e'.resolve env a = e.resolve env a := by cases a <;> simp [Entity.resolve, h2, h5]
  rw [applied_iff, applied_iff, this, h3, h4]

/-- one step of an unlimited model is a Runge-Kutta chain -/
theorem step_chain {n m : Nat} {env : Env realFmt} (henv : IsRk dopri env) {e : Entity realFmt} (hc : e.dynamics.custom = none)
    (hm : PlainMethod e.dynamics) (hlim : NoLimits e.dynamics) {f : (Fin m → ℝ) → (Fin n → ℝ) → Fin n → ℝ}
    (hf : ∀ t y u, e.dynamics.computeStateDot (.fin t) (toFl y) (toFl u) = .ok (toFl (f u y))) {a : Action realFmt} {u : Fin m → ℝ}
    (ha : Applied env e a (toFl u)) {T : ℝ} (ho : (e.step env (.fin T) a).outcome = .ok ()) {y : Fin n → ℝ} (hs : e.state = toFl y) :
    ∃ tab hs, Run e.dynamics T tab hs ∧ (e.step env (.fin T) a).entity.state = toFl (rkChain tab (fun _ => f u) 0 y hs) := by
  obtain ⟨ty, u', v, d, s, sd, h1, h2, h3, h4⟩ := step_ok ho
  have hv : v = toFl u := applied_unique (applied_of h1 h2) ha
  subst hv
  obtain ⟨next, c, g1, g2, g3⟩ := dynStep_parts (show (e.dynamics.step env (.fin T) e.state (toFl u)).2 = .ok (s, sd) by rw [h3])
  rw [hs] at g1
  obtain ⟨tab, hs, k1, k2, -⟩ := rawStep_run (F := fun _ => f u) (S := fun _ => True) henv hc hm (fun t y _ => hf t y u) (Stable.univ _) trivial g1
  refine ⟨tab, hs, k1, ?_⟩
  subst k2
  have hcl := npClip_toFl (R := realFmt) (lo := .scalar .ninf) (hi := .scalar .pinf) (l := fun _ => none) (h := fun _ => none)
    (rkChain tab (fun _ => f u) 0 y hs) (.inr ⟨_, rfl, fun _ => rfl⟩) (.inr ⟨_, rfl, fun _ => rfl⟩)
  rw [hlim.1, hlim.2.1, hcl] at g2
  cases g2
  rw [Dyn.wrapAngles, hlim.2.2] at g3
  cases g3
  rw [h4]
  simp [kclip]

/-- C98: **convergence**. A model of the user's, without limits on the state, whose derivative is Lipschitz with constant `L` under the controls applied:
after any history of calls of at most `η` seconds, with RK45 (whatever steps the solver takes) or Euler, the state is within
`18 L B η t exp(2 L t)` of the exact solution, where `t` is the time elapsed and `B` the largest speed of the exact solution. -/
theorem C98_converges {n m : Nat} (env : Env realFmt) (henv : IsRk dopri env) (e : Entity realFmt) (hc : e.dynamics.custom = none)
    (hm : PlainMethod e.dynamics) (hlim : NoLimits e.dynamics) (f : (Fin m → ℝ) → (Fin n → ℝ) → Fin n → ℝ)
    (hf : ∀ t y u, e.dynamics.computeStateDot (.fin t) (toFl y) (toFl u) = .ok (toFl (f u y))) (hist : List (ℝ × Action realFmt)) (L : ℝ) (hL : 0 ≤ L)
    (hlip : ∀ h ∈ hist, ∀ u, Applied env e h.2 (toFl u) → ∀ y z, ‖f u y - f u z‖ ≤ L * ‖y - z‖) (η : ℝ) (hη : 0 ≤ η) (hηL : η * L ≤ 1 / 25)
    (hT : ∀ h ∈ hist, 0 ≤ h.1 ∧ h.1 ≤ η) (y z : Fin n → ℝ) (hs : e.state = toFl y) (B : ℝ) (hB : 0 ≤ B) (hz : ExactMotion env f B e hist y z) :
    ∃ y' : Fin n → ℝ, (e.run env (stepsOf hist)).state = toFl y' ∧
      ‖y' - z‖ ≤ 18 * L * B * η * elapsed env e hist * exp (2 * L * elapsed env e hist) := by
  suffices H : ∀ (hist : List (ℝ × Action realFmt)) (e : Entity realFmt), e.dynamics.custom = none → PlainMethod e.dynamics → NoLimits e.dynamics →
      (∀ t y u, e.dynamics.computeStateDot (.fin t) (toFl y) (toFl u) = .ok (toFl (f u y))) →
      (∀ h ∈ hist, ∀ u, Applied env e h.2 (toFl u) → ∀ y z, ‖f u y - f u z‖ ≤ L * ‖y - z‖) →
      (∀ h ∈ hist, 0 ≤ h.1 ∧ h.1 ≤ η) → ∀ (y y0 z : Fin n → ℝ) (τ : ℝ), e.state = toFl y → 0 ≤ τ → ‖y - y0‖ ≤ 18 * L * B * η * τ * exp (2 * L * τ) →
      ExactMotion env f B e hist y0 z →
      ∃ y' : Fin n → ℝ, (e.run env (stepsOf hist)).state = toFl y' ∧
        ‖y' - z‖ ≤ 18 * L * B * η * (τ + elapsed env e hist) * exp (2 * L * (τ + elapsed env e hist)) by
    have := H hist e hc hm hlim hf hlip hT y y z 0 hs le_rfl (by simp) hz
    simpa using this
  intro hist
  induction hist with
  | nil =>
    intro e _ _ _ _ _ _ y y0 z τ hs _ he hz
    refine ⟨y, hs, ?_⟩
    rw [show z = y0 from hz]
    simpa [elapsed] using he
  | cons h hist ih =>
    intro e hc hm hlim hf hlip hT y y0 z τ hs hτ he hz
    obtain ⟨T, a⟩ := h
    have hsc : SameConfig e (e.step env (.fin T) a).entity := step_sameConfig env e _ _
    have hrun : e.run env (stepsOf ((T, a) :: hist)) = (e.step env (.fin T) a).entity.run env (stepsOf hist) := rfl
    obtain ⟨c1, c2, c3⟩ : (e.step env (.fin T) a).entity.dynamics.custom = none ∧ NoLimits (e.step env (.fin T) a).entity.dynamics ∧
        (∀ t y u, (e.step env (.fin T) a).entity.dynamics.computeStateDot (.fin t) (toFl y) (toFl u) = .ok (toFl (f u y))) := by
      obtain ⟨-, -, -, -, -, h6⟩ := hsc
      rw [← h6] at hc hlim hf
      exact ⟨hc, hlim, hf⟩
    have ih' := ih _ c1 (plain_congr hsc hm) c2 c3 (fun g hg u hu => hlip g (by simp [hg]) u ((applied_congr hsc).1 hu)) (fun g hg => hT g (by simp [hg]))
    obtain ⟨hT0, hTη⟩ := hT (T, a) (by simp)
    rw [hrun]
    rw [ExactMotion] at hz
    cases ho : (e.step env (.fin T) a).outcome with
    | error x =>
      rw [ho] at hz
      obtain ⟨y', g1, g2⟩ := ih' y y0 z τ (by rw [(step_error ho).1, hs]) hτ he hz
      exact ⟨y', g1, by simpa [elapsed, ho] using g2⟩
    | ok _ =>
      rw [ho] at hz
      obtain ⟨u, φ, hu, hφ0, hφ, hz⟩ := hz
      obtain ⟨tab, hs', hR, hst⟩ := step_chain henv hc hm hlim hf hu ho hs
      have hl : LipOn (f u) L (fun _ => True) ⊤ := ⟨hL, fun y z _ _ => hlip (T, a) (by simp) u hu y z, fun _ _ => trivial, fun _ _ _ _ => trivial⟩
      have hfl : Flows (f u) (fun _ => True) B T φ := ⟨fun t ht => (hφ t ht).1, fun t ht => (hφ t ht).2, fun _ _ => trivial⟩
      have hloc : ∀ (t h : ℝ) (y : Fin n → ℝ), True → 0 ≤ h → h * L ≤ 1 / 25 →
          ‖rkStep tab (fun _ => f u) t h y - (y + h • f u y)‖ ≤ 17 * h ^ 2 * L * ‖f u y‖ := by
        intro t h y _ hh hx
        rcases hR.kind with ⟨-, rfl⟩ | ⟨-, rfl, -⟩
        · exact kdopri_local hl trivial t hh hx
        · exact keuler_local hL y t h
      have hb : ∀ h ∈ hs', 0 ≤ h ∧ h ≤ η := by
        intro h hh
        refine ⟨hR.nonneg hT0 h hh, le_trans ?_ hTη⟩
        rw [← hR.sum]
        exact List.single_le_sum (hR.nonneg hT0) h hh
      have herr := rkChain_error (tab := tab) hl hloc hfl hη hηL hs' (s := 0) (t := 0) (τ := τ) (y := y) le_rfl hτ trivial hb (by rw [zero_add, hR.sum]) hB
        (by rw [hφ0]; exact he)
      rw [hR.sum] at herr
      obtain ⟨y', g1, g2⟩ := ih' _ (φ T) z (τ + T) hst (add_nonneg hτ hT0) herr hz
      exact ⟨y', g1, by simpa [elapsed, ho, add_assoc] using g2⟩

/-- a Lipschitz field has a solution for a call short enough, whatever the initial state -/
theorem exists_flow {n : Nat} {f : (Fin n → ℝ) → Fin n → ℝ} {L : ℝ} (hL : 0 ≤ L) (hlip : ∀ y z, ‖f y - f z‖ ≤ L * ‖y - z‖) {T : ℝ} (hT : 0 ≤ T)
    (hTL : T * L ≤ 1 / 25) (y : Fin n → ℝ) : ∃ (φ : ℝ → Fin n → ℝ) (B : ℝ), φ 0 = y ∧
      ∀ t ∈ Set.Icc 0 T, HasDerivWithinAt φ (f (φ t)) (Set.Icc 0 T) t ∧ ‖f (φ t)‖ ≤ B := by
  have hl : LipschitzWith ⟨L, hL⟩ f := LipschitzWith.of_dist_le_mul fun y z => by rw [dist_eq_norm, dist_eq_norm]; exact hlip y z
  have hn := norm_nonneg (f y)
  have ha : 0 ≤ 2 * T * ‖f y‖ := by positivity
  have hb : 0 ≤ 2 * ‖f y‖ := by positivity
  have hpl : IsPicardLindelof (fun _ => f) (⟨0, le_rfl, hT⟩ : Set.Icc 0 T) y ⟨_, ha⟩ 0 ⟨_, hb⟩ ⟨L, hL⟩ := by
    refine IsPicardLindelof.of_time_independent (fun x hx => ?_) (hl.lipschitzOnWith) ?_
    · have h1 : ‖x - y‖ ≤ 2 * T * ‖f y‖ := mem_closedBall_iff_norm.1 hx
      have h2 := hlip x y
      have h3 : ‖f x‖ ≤ ‖f x - f y‖ + ‖f y‖ := by simpa using norm_add_le (f x - f y) (f y)
      have h4 : L * ‖x - y‖ ≤ L * (2 * T * ‖f y‖) := mul_le_mul_of_nonneg_left h1 hL
      show ‖f x‖ ≤ 2 * ‖f y‖
      nlinarith
    · show 2 * ‖f y‖ * max (T - 0) (0 - 0) ≤ 2 * T * ‖f y‖ - 0
      rw [sub_zero, sub_zero, max_eq_left hT]
      linarith
  obtain ⟨φ, h0, hd⟩ := hpl.exists_eq_forall_mem_Icc_hasDerivWithinAt₀
  have hc : ContinuousOn φ (Set.Icc 0 T) := fun t ht => (hd t ht).continuousWithinAt
  obtain ⟨B, hB⟩ := isCompact_Icc.exists_bound_of_continuousOn (hl.continuous.comp_continuousOn hc)
  exact ⟨φ, B, h0, fun t ht => ⟨hd t ht, hB t ht⟩⟩

theorem exactMotion_mono {n m : Nat} {env : Env realFmt} {f : (Fin m → ℝ) → (Fin n → ℝ) → Fin n → ℝ} {B B' : ℝ} (hB : B ≤ B')
    {hist : List (ℝ × Action realFmt)} : ∀ {e : Entity realFmt} {y z : Fin n → ℝ}, ExactMotion env f B e hist y z → ExactMotion env f B' e hist y z := by
  induction hist with
  | nil => exact fun h => h
  | cons h hist ih =>
    intro e y z hz
    obtain ⟨T, a⟩ := h
    rw [ExactMotion] at hz ⊢
    split at hz
    · exact ih hz
    · obtain ⟨u, φ, g1, g2, g3, g4⟩ := hz
      exact ⟨u, φ, g1, g2, fun t ht => ⟨(g3 t ht).1, (g3 t ht).2.trans hB⟩, ih g4⟩

/-- C98: and such an exact motion exists, for every initial state and history of short enough calls with finite controls. -/
theorem C98_exists {n m : Nat} (env : Env realFmt) (e : Entity realFmt) (f : (Fin m → ℝ) → (Fin n → ℝ) → Fin n → ℝ)
    (hist : List (ℝ × Action realFmt)) (hfin : ∀ h ∈ hist, ∀ v, Applied env e h.2 v → ∃ u : Fin m → ℝ, v = toFl u) (L : ℝ) (hL : 0 ≤ L)
    (hlip : ∀ h ∈ hist, ∀ u, Applied env e h.2 (toFl u) → ∀ y z, ‖f u y - f u z‖ ≤ L * ‖y - z‖)
    (hT : ∀ h ∈ hist, 0 ≤ h.1 ∧ h.1 * L ≤ 1 / 25) (y : Fin n → ℝ) : ∃ z B, 0 ≤ B ∧ ExactMotion env f B e hist y z := by
  induction hist generalizing e y with
  | nil => exact ⟨y, 0, le_rfl, rfl⟩
  | cons h hist ih =>
    obtain ⟨T, a⟩ := h
    have hsc : SameConfig e (e.step env (.fin T) a).entity := step_sameConfig env e _ _
    have ih' := ih (e.step env (.fin T) a).entity (fun g hg v hv => hfin g (by simp [hg]) v ((applied_congr hsc).1 hv))
      (fun g hg u hu => hlip g (by simp [hg]) u ((applied_congr hsc).1 hu)) (fun g hg => hT g (by simp [hg]))
    cases ho : (e.step env (.fin T) a).outcome with
    | error x =>
      obtain ⟨z, B, hB, hz⟩ := ih' y
      refine ⟨z, B, hB, ?_⟩
      rw [ExactMotion, ho]
      exact hz
    | ok _ =>
      obtain ⟨ty, u', v, d, s, sd, h1, h2, h3, h4⟩ := step_ok ho
      have hv := applied_of h1 h2
      obtain ⟨u, rfl⟩ := hfin (T, a) (by simp) v hv
      obtain ⟨hT0, hTL⟩ := hT (T, a) (by simp)
      obtain ⟨φ, B, g0, g1⟩ := exists_flow hL (hlip (T, a) (by simp) u hv) hT0 hTL y
      obtain ⟨z, B', hB', hz⟩ := ih' (φ T)
      refine ⟨z, max B B', le_max_of_le_right hB', ?_⟩
      rw [ExactMotion, ho]
      exact ⟨u, φ, hv, g0, fun t ht => ⟨(g1 t ht).1, (g1 t ht).2.trans (le_max_left _ _)⟩, exactMotion_mono (le_max_right _ _) hz⟩

/-- C98: there is only one. -/
theorem C98_unique {n m : Nat} (env : Env realFmt) (e : Entity realFmt) (f : (Fin m → ℝ) → (Fin n → ℝ) → Fin n → ℝ)
    (hist : List (ℝ × Action realFmt)) (L : ℝ) (hL : 0 ≤ L) (hT : ∀ h ∈ hist, 0 ≤ h.1)
    (hlip : ∀ h ∈ hist, ∀ u, Applied env e h.2 (toFl u) → ∀ y z, ‖f u y - f u z‖ ≤ L * ‖y - z‖)
    (y z z' : Fin n → ℝ) (B B' : ℝ) (hz : ExactMotion env f B e hist y z) (hz' : ExactMotion env f B' e hist y z') : z = z' := by
  induction hist generalizing e y with
  | nil => exact (show z = y from hz).trans (show z' = y from hz').symm
  | cons h hist ih =>
    obtain ⟨T, a⟩ := h
    have hsc : SameConfig e (e.step env (.fin T) a).entity := step_sameConfig env e _ _
    have ih' := ih (e.step env (.fin T) a).entity (fun g hg => hT g (by simp [hg]))
      (fun g hg u hu => hlip g (by simp [hg]) u ((applied_congr hsc).1 hu))
    rw [ExactMotion] at hz hz'
    cases ho : (e.step env (.fin T) a).outcome with
    | error x =>
      rw [ho] at hz hz'
      exact ih' y hz hz'
    | ok _ =>
      rw [ho] at hz hz'
      obtain ⟨u, φ, g1, g2, g3, g4⟩ := hz
      obtain ⟨u', φ', k1, k2, k3, k4⟩ := hz'
      have hu : u = u' := toFl_inj (applied_unique g1 k1)
      subst hu
      have hl : LipschitzWith ⟨L, hL⟩ (f u) := LipschitzWith.of_dist_le_mul fun y z => by
        rw [dist_eq_norm, dist_eq_norm]; exact hlip (T, a) (by simp) u g1 y z
      have hd : ∀ {ψ : ℝ → Fin n → ℝ} {C : ℝ}, (∀ t ∈ Set.Icc 0 T, HasDerivWithinAt ψ (f u (ψ t)) (Set.Icc 0 T) t ∧ ‖f u (ψ t)‖ ≤ C) →
          ContinuousOn ψ (Set.Icc 0 T) ∧ ∀ t ∈ Set.Ico 0 T, HasDerivWithinAt ψ (f u (ψ t)) (Set.Ici t) t := fun h =>
        ⟨fun t ht => (h t ht).1.continuousWithinAt, fun t ht => (h t ⟨ht.1, ht.2.le⟩).1.mono_of_mem_nhdsWithin (Icc_mem_nhdsGE_of_mem ht)⟩
      have heq : Set.EqOn φ φ' (Set.Icc 0 T) := ODE_solution_unique_of_mem_Icc_right (v := fun _ => f u) (s := fun _ => Set.univ)
        (fun _ _ => hl.lipschitzOnWith) (hd g3).1 (hd g3).2 (fun _ _ => trivial) (hd k3).1 (hd k3).2 (fun _ _ => trivial) (g2.trans k2.symm)
      rw [← heq ⟨hT (T, a) (by simp), le_rfl⟩] at k4
      exact ih' _ g4 k4

theorem elapsed_nonneg (env : Env realFmt) (hist : List (ℝ × Action realFmt)) : ∀ e : Entity realFmt, (∀ h ∈ hist, 0 ≤ h.1) → 0 ≤ elapsed env e hist := by
  induction hist with
  | nil => intro e _; exact le_rfl
  | cons h hist ih =>
    intro e hT
    obtain ⟨T, a⟩ := h
    have h1 := ih (e.step env (.fin T) a).entity (fun g hg => hT g (by simp [hg]))
    have h2 := hT (T, a) (by simp)
    rw [elapsed]
    split <;> simp_all [add_nonneg]

/-- C98: so, within any period and for any tolerance, short enough calls keep the simulation within the tolerance of the exact solution. -/
theorem C98_limit {n m : Nat} (env : Env realFmt) (henv : IsRk dopri env) (e : Entity realFmt) (hc : e.dynamics.custom = none)
    (hm : PlainMethod e.dynamics) (hlim : NoLimits e.dynamics) (f : (Fin m → ℝ) → (Fin n → ℝ) → Fin n → ℝ)
    (hf : ∀ t y u, e.dynamics.computeStateDot (.fin t) (toFl y) (toFl u) = .ok (toFl (f u y))) (L : ℝ)
    (hlip : ∀ a u, Applied env e a (toFl u) → ∀ y z, ‖f u y - f u z‖ ≤ L * ‖y - z‖) (y : Fin n → ℝ) (hs : e.state = toFl y) (B tmax ε : ℝ)
    (hε : 0 < ε) : ∃ η > 0, ∀ hist : List (ℝ × Action realFmt), (∀ h ∈ hist, 0 ≤ h.1 ∧ h.1 ≤ η) → elapsed env e hist ≤ tmax →
      ∀ z, ExactMotion env f B e hist y z → ∃ y' : Fin n → ℝ, (e.run env (stepsOf hist)).state = toFl y' ∧ ‖y' - z‖ ≤ ε := by
  obtain ⟨C, hC⟩ : ∃ C, C = 18 * |L| * |B| * |tmax| * exp (2 * |L| * |tmax|) := ⟨_, rfl⟩
  have hC0 : 0 ≤ C := by rw [hC]; positivity
  refine ⟨min (1 / (25 * (|L| + 1))) (ε / (C + 1)), by positivity, fun hist hT ht z hz => ?_⟩
  obtain ⟨η, hη⟩ : ∃ η, η = min (1 / (25 * (|L| + 1))) (ε / (C + 1)) := ⟨_, rfl⟩
  rw [← hη] at hT
  have hη0 : 0 ≤ η := by rw [hη]; positivity
  have h1 : η * |L| ≤ 1 / 25 := by
    have : η ≤ 1 / (25 * (|L| + 1)) := hη ▸ min_le_left _ _
    rw [le_div_iff₀ (by positivity)] at this
    nlinarith [abs_nonneg L]
  have h2 : η * C ≤ ε := by
    have : η ≤ ε / (C + 1) := hη ▸ min_le_right _ _
    rw [le_div_iff₀ (by positivity)] at this
    nlinarith
  have hz' : ExactMotion env f |B| e hist y z := exactMotion_mono (le_abs_self B) hz
  obtain ⟨y', g1, g2⟩ := C98_converges env henv e hc hm hlim f hf hist |L| (abs_nonneg L)
    (fun h _ u hu y z => (hlip h.2 u hu y z).trans (mul_le_mul_of_nonneg_right (le_abs_self L) (norm_nonneg _))) η hη0 h1 hT y z hs |B| (abs_nonneg B) hz'
  refine ⟨y', g1, g2.trans (le_trans ?_ h2)⟩
  have ht0 := elapsed_nonneg env hist e (fun h hh => (hT h hh).1)
  have ht' : elapsed env e hist ≤ |tmax| := ht.trans (le_abs_self _)
  rw [hC]
  calc _ = η * (18 * |L| * |B| * elapsed env e hist * exp (2 * |L| * elapsed env e hist)) := by ring
    _ ≤ _ := by gcongr

/-! ## a nonlinear model: `y' = sin y` -/

/-- a one-dimensional entity that moves with the sine of its position; its control is ignored -/
noncomputable def Demo.sineEntity (method : String) (y : ℝ) : Entity realFmt where
  name := "a"
  dynamics := {
    stateMin := .scalar .ninf, stateMax := .scalar .pinf, angleWrapCenters := none, useJax := false, trajectorySamples := 0
    stateDotMin := .scalar .ninf, stateDotMax := .scalar .pinf, integrationMethod := method, custom := none, trajectory := none, trajectoryT := none
    rhs := fun _ y _ => match y with | [x] => .ok [Fl.sin x] | _ => .error .valueError }
  controlDefault := []
  controlMin := .scalar .ninf
  controlMax := .scalar .pinf
  controlMap := none
  state := [.fin y]
  stateDot := [0]

theorem Demo.sine_dot (method : String) (y0 t : ℝ) (y : Fin 1 → ℝ) (u : Fin 0 → ℝ) :
    (Demo.sineEntity method y0).dynamics.computeStateDot (.fin t) (toFl y) (toFl u) = .ok (toFl (fun _ : Fin 1 => sin (y 0))) := by
  have := computeStateDot_lift (d := (Demo.sineEntity method y0).dynamics) (t := .fin t) (u := toFl u) (lo := fun _ : Fin 1 => none) (hi := fun _ => none)
    (dlo := fun _ => none) (dhi := fun _ => none) (y := y) (v := fun _ => sin (y 0)) (.inr ⟨_, rfl, fun _ => rfl⟩) (.inr ⟨_, rfl, fun _ => rfl⟩)
    (.inr ⟨_, rfl, fun _ => rfl⟩) (.inr ⟨_, rfl, fun _ => rfl⟩) rfl
  rw [this]
  simp [klimit, kclip]

theorem Demo.sine_lip (y z : Fin 1 → ℝ) : ‖(fun _ : Fin 1 => sin (y 0)) - (fun _ : Fin 1 => sin (z 0))‖ ≤ 1 * ‖y - z‖ := by
  rw [one_mul, pi_norm_le_iff_of_nonneg (norm_nonneg _)]
  intro i
  simp only [Pi.sub_apply, Real.norm_eq_abs]
  have h1 := Real.abs_sin_sub_sin_le (y 0) (z 0)
  exact h1.trans (norm_le_pi_norm (y - z) 0)

theorem Demo.sine_solution (t : ℝ) : HasDerivAt (fun t => 2 * arctan (exp t)) (sin (2 * arctan (exp t))) t := by
  have h := (((hasDerivAt_arctan (exp t)).comp t (Real.hasDerivAt_exp t)).const_mul 2)
  refine h.congr_deriv ?_
  rw [sin_two_mul, sin_arctan, cos_arctan]
  have : √(1 + exp t ^ 2) * √(1 + exp t ^ 2) = 1 + exp t ^ 2 := Real.mul_self_sqrt (by positivity)
  field_simp
  rw [pow_two √_, this]

/-- the hypotheses of `C98_converges`, met by this model with a motion that is not trivial: from `π / 2`, for one step of 1/50 s, with either method -/
example (method : String) (hm : method = "RK45" ∨ method = "Euler") : ∃ (e : Entity realFmt) (env : Env realFmt)
    (f : (Fin 0 → ℝ) → (Fin 1 → ℝ) → Fin 1 → ℝ), IsRk dopri env ∧ e.dynamics.custom = none ∧ PlainMethod e.dynamics ∧ NoLimits e.dynamics ∧
    (∀ t y u, e.dynamics.computeStateDot (.fin t) (toFl y) (toFl u) = .ok (toFl (f u y))) ∧ (∀ u y z, ‖f u y - f u z‖ ≤ 1 * ‖y - z‖) ∧
    e.state = toFl (fun _ : Fin 1 => π / 2) ∧ (e.step env (.fin (1 / 50)) .none).outcome = .ok () ∧
    ExactMotion env f 1 e [(1 / 50, .none)] (fun _ => π / 2) (fun _ => 2 * arctan (exp (1 / 50))) := by
  have hp : PlainMethod (Demo.sineEntity method (π / 2)).dynamics := by
    rcases hm with h | h
    · exact .inl h
    · exact .inr ⟨h, le_rfl⟩
  have ha : Applied (rkEnv dopri (fun _ _ _ => [1])) (Demo.sineEntity method (π / 2)) .none (toFl (![] : Fin 0 → ℝ)) := applied_iff.2 ⟨.f64, [], rfl, rfl⟩
  have hok : ((Demo.sineEntity method (π / 2)).step (rkEnv dopri (fun _ _ _ => [1])) (.fin (1 / 50)) .none).outcome = .ok () := by
    let M : KModel ℝ 1 0 := ⟨fun _ => True, fun _ y _ _ => sin (y 0), fun _ => none, fun _ => none, fun _ => none, fun _ => none, fun _ => none, fun _ => none, fun _ => none⟩
    have hr : Realises (Demo.sineEntity method (π / 2)) M :=
      ⟨⟨rfl, fun _ _ _ _ => rfl, .inr ⟨_, rfl, fun _ => rfl⟩, .inr ⟨_, rfl, fun _ => rfl⟩, .inr ⟨_, rfl, fun _ => rfl⟩, .inr ⟨_, rfl, fun _ => rfl⟩, .inl ⟨rfl, fun _ => rfl⟩⟩,
        .inr ⟨_, rfl, fun _ => rfl⟩, .inr ⟨_, rfl, fun _ => rfl⟩⟩
    exact (hr.step_fixed [1] pi_pos hp (u := ![]) (asks_iff.2 ⟨.f64, rfl⟩) (S := fun _ => True) (fun _ _ => trivial) (Stable.univ _)
      (y := fun _ => π / 2) rfl trivial (1 / 50)).1
  refine ⟨Demo.sineEntity method (π / 2), rkEnv dopri (fun _ _ _ => [1]), fun _ y _ => sin (y 0), ?_, rfl, hp, ⟨rfl, rfl, rfl⟩,
    Demo.sine_dot method _, fun _ => Demo.sine_lip, rfl, ?_, ?_⟩
  · exact rkEnv_isRk _
  · exact hok
  · rw [ExactMotion, hok]
    refine ⟨![], fun t _ => 2 * arctan (exp t), ha, ?_, ?_, rfl⟩
    · funext i
      show 2 * arctan (exp 0) = π / 2
      rw [exp_zero, arctan_one]
      ring
    · intro t _
      refine ⟨(hasDerivAt_pi.2 fun _ => Demo.sine_solution t).hasDerivWithinAt, ?_⟩
      rw [pi_norm_le_iff_of_nonneg zero_le_one]
      exact fun _ => abs_sin_le_one _

/-- the hypotheses of `C98_exists` and `C98_unique`, met by any history of this model -/
example (method : String) (y : ℝ) (hist : List (ℝ × Action realFmt)) (hh : ∀ h ∈ hist, h.2 = .none) (env : Env realFmt) :
    (∀ h ∈ hist, ∀ v, Applied env (Demo.sineEntity method y) h.2 v → ∃ u : Fin 0 → ℝ, v = toFl u) ∧
    (∀ h ∈ hist, ∀ u : Fin 0 → ℝ, Applied env (Demo.sineEntity method y) h.2 (toFl u) →
      ∀ y z : Fin 1 → ℝ, ‖(fun _ : Fin 1 => sin (y 0)) - (fun _ : Fin 1 => sin (z 0))‖ ≤ 1 * ‖y - z‖) := by
  refine ⟨fun h hm v hv => ?_, fun _ _ _ _ => Demo.sine_lip⟩
  rw [hh h hm] at hv
  exact ⟨![], applied_unique hv (applied_iff.2 ⟨.f64, [], rfl, rfl⟩)⟩

end SAD
