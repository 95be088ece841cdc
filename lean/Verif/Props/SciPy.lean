import Verif.Lemmas.SciPyStep
import Verif.Lemmas.Dubins
import Verif.Spec.ErrorControl
import Verif.Props.Integrators
import Verif.Props.Solver
import Verif.Props.Turn

/-!
# C89 - C91: RK45 steps with SciPy's error control

`exactScipy fuel` is SciPy's `solve_ivp` (`Model/SciPy.lean`) in exact arithmetic whose loops may turn `fuel` times.
-/

set_option linter.unusedSectionVars false

namespace SAD
open Spec

/-! ## C89 error control -/

section
variable {K : Type} {R : Fmt K} [Field K] [LinearOrder K] [IsStrictOrderedRing K] [Exact R]

/-- Whatever the error control does, an answer of the solver is the end of a chain of Dormand-Prince steps in the direction of integration
that add up to the time span: so all theorems about `RK45` with a solver of this kind hold with SciPy's solver. -/
theorem C89_dormand_prince (hp : ∀ a b, 0 < a → 0 ≤ R.pow a b) (fuel : Nat) : IsRk dopri (exactScipy fuel : Env R) :=
  scipy_isRk hp (fun _ _ => rfl) fuel

end

/-- the hypothesis holds for the powers of the reals, and for the format used in the examples -/
example : ∀ a b : ℝ, 0 < a → 0 ≤ realFmt.pow a b := powNonneg_real

/-- exact rational arithmetic in which all powers are 1 -/
def Demo.ratPow : Fmt ℚ := { ratFmt with pow := fun _ _ => 1 }
instance : Exact Demo.ratPow := ⟨fun _ => rfl, fun _ => rfl⟩

/-- In every accepted step of a successful RK45 step of duration `T` the estimated error is within the tolerance of SciPy's documentation. With `F` the
derivative of the model under the applied control, the accepted steps start in the current state, are in the direction of integration and add up to
`T`; the new state is the end of them, clipped and wrapped, and the reported derivative is the one there. -/
theorem C89_error_controlled {n : Nat} (fuel : Nat) (e : Entity realFmt) (hc : e.dynamics.custom = none) (hm : e.dynamics.integrationMethod = "RK45")
    (y : Fin n → ℝ) (he : e.state = toFl y) (T : ℝ) (a : Action realFmt) (F : ℝ → (Fin n → ℝ) → (Fin n → ℝ))
    (hF : ∀ t y v, Applied (exactScipy fuel) e a v → e.dynamics.computeStateDot (.fin t) (toFl y) v = .ok (toFl (F t y)))
    (hok : (e.step (exactScipy fuel) (.fin T) a).outcome = .ok ()) :
    ∃ hs yf c, hs.sum = T ∧ (0 ≤ T → ∀ h ∈ hs, 0 ≤ h) ∧ (T ≤ 0 → ∀ h ∈ hs, h ≤ 0) ∧ ErrorControlled F 0 y hs yf ∧
      ClippedTo e.dynamics.stateMin e.dynamics.stateMax (toFl yf) c ∧
      e.dynamics.wrapAngles c = .ok (e.step (exactScipy fuel) (.fin T) a).entity.state ∧
      (e.step (exactScipy fuel) (.fin T) a).entity.stateDot = toFl (F T yf) := by
  obtain ⟨v, sol, yf, h1, h2, h3, h4, ⟨c, h5, h6⟩, -⟩ := C16_rk45_step (exactScipy fuel) e (.fin T) a hc hm hok
  rw [he] at h2
  obtain ⟨hs, z, g1, g2, g3, g4, -, g5, -⟩ := scipySolve_controlled (S := fun _ => True) (f := fun t y => e.dynamics.computeStateDot t y v)
    (fun t y _ => hF t y v h1) (Stable.univ F) trivial (fun ts h => tEval_last e.dynamics T ts h) h2
  rw [h3] at g5
  cases g5
  rw [hF _ _ _ h1] at h4
  exact ⟨hs, z, c, g1, g2, g3, g4, h5, h6, (Except.ok.inj h4).symm⟩

/-! ## C90 sampled trajectories of point masses -/

section
variable {K : Type} {R : Fmt K} [Field K] [LinearOrder K] [IsStrictOrderedRing K] [FloorRing K] [Exact R]

/-- Between the accepted steps too the samples are exact: after a step of duration `T` of an undamped integrator with `trajectory_samples = N` the
trajectory attributes hold the times `T/N, 2T/N, ..., T` and the uniformly accelerated motion at these times. -/
theorem C90_sampled_motion (hp : ∀ a b, 0 < a → 0 ≤ R.pow a b) (fuel : Nat) (env : Env R) (k : Nat) (args : IntegratorArgs R) (m : K)
    (hm : args.m = .fin m) (hc : args.damping = 0) (hr : args.integrationMethod = "RK45") (N : Nat) (hN : 0 < N)
    (hsam : args.trajectorySamples = some (N : Int)) (e0 : Entity R)
    (h0 : initIntegrator env args k = .ok e0) (ops : List (Op R)) (T : K) (a : Action R) (x v u : Fin k → K)
    (hs : (e0.run (exactScipy fuel) ops).state = toFl (Fin.append x v)) (ha : Asks (exactScipy fuel) (e0.run (exactScipy fuel) ops) a u)
    (hok : ((e0.run (exactScipy fuel) ops).step (exactScipy fuel) (.fin T) a).outcome = .ok ()) :
    ((e0.run (exactScipy fuel) ops).step (exactScipy fuel) (.fin T) a).entity.dynamics.trajectoryT
      = some ((List.range N).map fun j => .fin (((j + 1 : Nat) : K) * (T / N))) ∧
    ((e0.run (exactScipy fuel) ops).step (exactScipy fuel) (.fin T) a).entity.dynamics.trajectory
      = some ((List.range N).map fun j => toFl (uniform x v (fun i => min (max (u i) (-1)) 1 / m) (((j + 1 : Nat) : K) * (T / N)))) := by
  obtain ⟨r, r2, r3⟩ := integratorEntity_realised hm (hc.trans Fl.zero_fin) h0
  have hcfg := run_sameConfig (exactScipy fuel) ops e0
  have r' := r.congr hcfg
  have hm45 : (e0.run (exactScipy fuel) ops).dynamics.integrationMethod = "RK45" := by rw [(sameConfig_method hcfg).1, r2, hr]
  have hNs : (e0.run (exactScipy fuel) ops).dynamics.trajectorySamples = N := by
    rw [(sameConfig_method hcfg).2]
    rw [hsam] at r3
    exact Option.some.inj r3
  generalize e0.run (exactScipy fuel) ops = e at *
  have hNp : 0 < e.dynamics.trajectorySamples := by omega
  obtain ⟨ty, hres⟩ := asks_iff.1 ha
  obtain ⟨ty', u', w, d, s, sd, h1, h2, h3, h4⟩ := step_ok hok
  rw [hres] at h1
  cases h1
  rw [forDType_exact, forDType_exact, npClip_toFl u r'.ulo r'.uhi] at h2
  cases h2
  have h5 : (e.dynamics.step (exactScipy fuel) (.fin T) e.state (toFl ((pointModel k m 0).sat u))).2 = .ok (s, sd) := by
    change (e.dynamics.step (exactScipy fuel) (.fin T) e.state (toFl (fun i => kclip ((pointModel k m 0).ulo i) ((pointModel k m 0).uhi i) (u i)))).2 = _
    rw [h3]
  obtain ⟨next, c, h6, -, -⟩ := dynStep_parts h5
  have h9 := dynStep_fst (exactScipy fuel) e.dynamics (.fin T) e.state (toFl ((pointModel k m 0).sat u))
  rw [rawStep_ode r'.dyn.custom] at h6 h9
  obtain ⟨sol, g1, -, -, g4, g5⟩ := odeStep_rk45_ok hm45 h6
  have hd : d = (e.dynamics.odeStep (exactScipy fuel) (.fin T) e.state (toFl ((pointModel k m 0).sat u))).1 := by
    rw [← h9]
    change d = (e.dynamics.step (exactScipy fuel) (.fin T) e.state (toFl (fun i => kclip ((pointModel k m 0).ulo i) ((pointModel k m 0).uhi i) (u i)))).1
    rw [h3]
  rw [h4]
  simp only
  rw [hd, g4, g5]
  have hf := r'.dyn.liftsOn ((pointModel k m 0).sat u) (S := fun _ => True) (fun _ _ => trivial)
  rw [tEval_ktimes _ _ hNp, hNs, hs, Int.toNat_natCast] at g1
  change scipySolve (fun _ _ => 0) fuel (e.dynamics.field _) _ _ _ = _ at g1
  have hT : T ≠ 0 := by
    rintro rfl
    unfold scipySolve at g1
    split at g1
    · cases g1
    split at g1
    · cases g1
    split at g1
    · cases g1
    obtain ⟨k, -, g1⟩ := Except.bind_ok.1 g1
    obtain ⟨f0, -, g1⟩ := Except.bind_ok.1 g1
    rw [if_pos (by rw [Fl.zero_fin]; simp [Fl.eqb])] at g1
    cases g1
  obtain ⟨n', y', yf, δ, hs', as, e1, hδ, hpos, hsteps, -, k1, -⟩ := scipySolve_steps hp (fun _ _ => rfl) hT g1
  have hn' : k + k = n' := by simpa using congrArg List.length e1
  subst hn'
  have e2 := toFl_inj e1
  obtain ⟨-, k2, k3⟩ := k1 _ rfl
  have hrows := hsteps.dense_exact hf (Stable.univ _) hδ (uniform x v (fun i => (pointModel k m 0).sat u i / m)) ?_ trivial ?_ (ktimes T N)
    (ktimes_pairwise hpos) (fun u hu => by
      obtain ⟨q1, q2⟩ := ktimes_mem hpos hu
      exact ⟨by rw [sub_zero]; exact q1, q2⟩)
  · rw [hrows] at k2 k3
    rw [k2, k3]
    simp only [List.map_map, ktimes, pointModel_sat]
    exact ⟨rfl, rfl⟩
  · intro t h z
    have hU : ∀ (i : Fin k) (t : K) (y : Fin (k + k) → K),
        LinearMap.proj (R := K) (φ := fun _ => K) (Fin.natAdd k i) ((pointModel k m 0).field ((pointModel k m 0).sat u) t y)
          = (pointModel k m 0).sat u i / m := by
      intro i t y; simp [pointModel_field, -Fin.natAdd_eq_addNat]
    have hX : ∀ (i : Fin k) (t : K) (y : Fin (k + k) → K),
        LinearMap.proj (R := K) (φ := fun _ => K) (Fin.castAdd k i) ((pointModel k m 0).field ((pointModel k m 0).sat u) t y)
          = LinearMap.proj (R := K) (φ := fun _ => K) (Fin.natAdd k i) y := by
      intro i t y; simp [pointModel_field, -Fin.natAdd_eq_addNat]
    funext j
    refine Fin.addCases (fun i => ?_) (fun i => ?_) j
    · have := (kdense_double _ _ _ (hX i) (hU i) t h (uniform x v (fun i => (pointModel k m 0).sat u i / m) t) z).1
      simp only [LinearMap.proj_apply] at this
      rw [this]
      simp only [uniform, Fin.append_left, Fin.append_right]
      ring
    · have := (kdense_double _ _ _ (hX i) (hU i) t h (uniform x v (fun i => (pointModel k m 0).sat u i / m) t) z).2
      simp only [LinearMap.proj_apply] at this
      rw [this]
      simp only [uniform, Fin.append_right]
      ring
  · rw [← e2]
    funext j
    refine Fin.addCases (fun i => ?_) (fun i => ?_) j <;> simp [uniform, -Fin.natAdd_eq_addNat]

end

/-- an integrator of mass 2 with three samples per step -/
def Demo.sampledArgs {K : Type} {R : Fmt K} [Field K] [LinearOrder K] : IntegratorArgs R where
  m := .fin 2
  damping := 0
  integrationMethod := "RK45"
  trajectorySamples := some 3
  kwargs := [("name", .str "a"), ("x", .num (.fin 1))]

/-- a step of it of 3 seconds under full thrust -/
example : ∃ e0 : Entity Demo.ratPow, initIntegrator (exactScipy 20) Demo.sampledArgs 1 = .ok e0 ∧
    e0.state = toFl (Fin.append ![1] ![0]) ∧ Asks (exactScipy 20) e0 (.ndarray .f64 [.fin 1]) ![1] ∧
    (e0.step (exactScipy 20) (.fin 3) (.ndarray .f64 [.fin 1])).outcome = .ok () ∧
    (e0.step (exactScipy 20) (.fin 3) (.ndarray .f64 [.fin 1])).entity.dynamics.trajectoryT = some [.fin 1, .fin 2, .fin 3] ∧
    (e0.step (exactScipy 20) (.fin 3) (.ndarray .f64 [.fin 1])).entity.dynamics.trajectory
      = some [[.fin (5/4), .fin (1/2)], [.fin 2, .fin 1], [.fin (13/4), .fin (3/2)]] :=
  ⟨_, rfl, by decide +kernel, asks_iff.2 ⟨.f64, rfl⟩, by decide +kernel, by decide +kernel, by decide +kernel⟩

/-! ## C91 steps return -/

/-- **An RK45 step returns.** If the derivative of the model under the applied control is finite in every finite state and grows at most linearly, a step of any
finite duration (not 0 if samples are asked for) from any finite state ends after finitely many turns of the solver's loops, without an exception, in a finite
state; the result is the same however many more turns are allowed. -/
theorem C91_returns {n : Nat} (hn : 0 < n) (e : Entity realFmt) (hc : e.dynamics.custom = none) (hm : e.dynamics.integrationMethod = "RK45")
    (ac : Action realFmt) (v : Vec realFmt) (hv : Applied (exactScipy 0) e ac v) (F : ℝ → (Fin n → ℝ) → (Fin n → ℝ))
    (hF : ∀ t y, e.dynamics.computeStateDot (.fin t) (toFl y) v = .ok (toFl (F t y))) (a b : ℝ) (hg : ∀ t y i, |F t y i| ≤ a * (∑ j, |y j|) + b)
    (hlim : ∀ z : Fin n → ℝ, ∃ c w : Fin n → ℝ, ClippedTo e.dynamics.stateMin e.dynamics.stateMax (toFl z) (toFl c) ∧
      e.dynamics.wrapAngles (toFl c) = .ok (toFl w))
    (T : ℝ) (hT : T = 0 → e.dynamics.trajectorySamples ≤ 0) (y : Fin n → ℝ) (he : e.state = toFl y) :
    ∃ N r, (∃ w : Fin n → ℝ, r.entity.state = toFl w) ∧ (∃ w : Fin n → ℝ, r.entity.stateDot = toFl w) ∧ r.outcome = .ok () ∧
      ∀ fuel, N ≤ fuel → e.step (exactScipy fuel) (.fin T) ac = r := by
  have hgr : Growth F (fun _ => True) (|a| * n) |b| := by
    refine ⟨by positivity, by positivity, fun t z _ => ?_⟩
    have hz := norm_nonneg z
    rw [pi_norm_le_iff_of_nonneg (by positivity)]
    intro i
    rw [Real.norm_eq_abs]
    have h1 : ∑ j, |z j| ≤ n * ‖z‖ := by
      have : ∑ j : Fin n, |z j| ≤ ∑ _j : Fin n, ‖z‖ := Finset.sum_le_sum fun j _ => norm_le_pi_norm z j
      simpa using this
    have h0 : 0 ≤ ∑ j, |z j| := Finset.sum_nonneg fun j _ => abs_nonneg _
    calc |F t z i| ≤ a * (∑ j, |z j|) + b := hg t z i
      _ ≤ |a| * (∑ j, |z j|) + |b| := add_le_add (mul_le_mul_of_nonneg_right (le_abs_self a) h0) (le_abs_self b)
      _ ≤ |a| * (n * ‖z‖) + |b| := by gcongr
      _ = |a| * n * ‖z‖ + |b| := by ring
  obtain ⟨G, P, hcf, hP⟩ := hgr.confined (Stable.univ _) |T| (abs_nonneg T) (y := y) trivial
  refine step_returns hn hc hm hv (S := fun _ => True) (fun t y _ => hF t y) (Stable.univ F) ?_ T hT he trivial hcf hP
  intro z
  obtain ⟨c, w, h1, h2⟩ := hlim z
  exact ⟨c, w, npClip_iff.2 h1, h2⟩

/-- Every step of a point mass returns, from every finite state and for every requested thrust. -/
theorem C91_point_mass (k : Nat) (env : Env realFmt) (args : IntegratorArgs realFmt) (m c : ℝ) (hm : args.m = .fin m) (hc : args.damping = .fin c)
    (hr : args.integrationMethod = "RK45") (e0 : Entity realFmt) (h0 : initIntegrator env args k = .ok e0) (env' : Env realFmt) (ops : List (Op realFmt))
    (T : ℝ) (hT : T ≠ 0) (ac : Action realFmt) (u : Fin k → ℝ) (y : Fin (k + k) → ℝ) (hs : (e0.run env' ops).state = toFl y)
    (ha : Asks (exactScipy 0) (e0.run env' ops) ac u) :
    ∃ N r, (∃ w : Fin (k + k) → ℝ, r.entity.state = toFl w) ∧ (∃ w : Fin (k + k) → ℝ, r.entity.stateDot = toFl w) ∧ r.outcome = .ok () ∧
      ∀ fuel, N ≤ fuel → (e0.run env' ops).step (exactScipy fuel) (.fin T) ac = r := by
  have hk : 0 < k + k := by
    rcases k with _ | k
    · simp [initIntegrator] at h0
    · omega
  obtain ⟨r, r2, -⟩ := integratorEntity_realised hm hc h0
  have hcfg := run_sameConfig env' ops e0
  refine (r.congr hcfg).step_returns hk (by rw [(sameConfig_method hcfg).1, r2, hr]) (fun _ => trivial) ha (a := 1 + |c|)
    (b := ∑ i, |(pointModel k m c).sat u i / m|) (by positivity) (Finset.sum_nonneg fun i _ => abs_nonneg _) ?_ T (fun h => absurd h hT) hs
  intro t z j
  have hb : ∀ i, |(pointModel k m c).sat u i / m| ≤ ∑ i, |(pointModel k m c).sat u i / m| := fun i =>
    Finset.single_le_sum (f := fun i => |(pointModel k m c).sat u i / m|) (fun i _ => abs_nonneg _) (Finset.mem_univ i)
  have hz : ∀ i, |z i| ≤ ‖z‖ := fun i => norm_le_pi_norm z i
  have hc0 := abs_nonneg c
  have hz0 := norm_nonneg z
  refine Fin.addCases (fun i => ?_) (fun i => ?_) j
  · simp only [pointModel, Fin.append_left]
    have h1 := hz (Fin.natAdd k i)
    have h2 := (abs_nonneg _).trans (hb i)
    simp only [pointModel] at h2
    nlinarith
  · simp only [pointModel, Fin.append_right]
    have h1 := hz (Fin.natAdd k i)
    have h2 := hb i
    simp only [pointModel] at h2
    refine (abs_add_le _ _).trans ?_
    rw [abs_mul, abs_neg]
    nlinarith

/-- the hypotheses of the theorems about the reals are met, and the step succeeds for a suitable number of turns -/
example : ∃ (e0 : Entity realFmt) (fuel : Nat) (F : ℝ → (Fin (1 + 1) → ℝ) → (Fin (1 + 1) → ℝ)), initIntegrator (exactScipy 0) Demo.sampledArgs 1 = .ok e0 ∧
    (e0.run (exactScipy 0) [.setState (toFl (Fin.append ![1] ![0]))]).state = toFl (Fin.append ![1] ![0]) ∧
    Asks (exactScipy 0) (e0.run (exactScipy 0) [.setState (toFl (Fin.append ![1] ![0]))]) (.ndarray .f64 [.fin 1]) ![1] ∧
    (e0.run (exactScipy 0) [.setState (toFl (Fin.append ![1] ![0]))]).dynamics.custom = none ∧
    (e0.run (exactScipy 0) [.setState (toFl (Fin.append ![1] ![0]))]).dynamics.integrationMethod = "RK45" ∧
    (∀ t y v, Applied (exactScipy fuel) (e0.run (exactScipy 0) [.setState (toFl (Fin.append ![1] ![0]))]) (.ndarray .f64 [.fin 1]) v →
      (e0.run (exactScipy 0) [.setState (toFl (Fin.append ![1] ![0]))]).dynamics.computeStateDot (.fin t) (toFl y) v = .ok (toFl (F t y))) ∧
    ((e0.run (exactScipy 0) [.setState (toFl (Fin.append ![1] ![0]))]).step (exactScipy fuel) (.fin 3) (.ndarray .f64 [.fin 1])).outcome = .ok () := by
  obtain ⟨e0, h0⟩ : ∃ e0 : Entity realFmt, initIntegrator (exactScipy 0) Demo.sampledArgs 1 = .ok e0 := by
    have hd : pyDiv (1 : Fl realFmt) (.fin 2) = .ok (1 / .fin 2) := by simp [pyDiv, Fl.eqb]
    simp only [initIntegrator, initIntegrator1d, mkIntegratorDynamics, generateDynamicsMatrices, Demo.sampledArgs, if_true, hd, bind, Except.bind, pure,
      Except.pure]
    exact ⟨_, rfl⟩
  obtain ⟨r, r2, -⟩ := integratorEntity_realised (m := 2) (c := 0) (a := Demo.sampledArgs) rfl Fl.zero_fin h0
  have ha : Asks (exactScipy 0) (e0.run (exactScipy 0) [.setState (toFl (Fin.append ![1] ![0]))]) (.ndarray .f64 [.fin 1]) ![1] :=
    asks_iff.2 ⟨.f64, rfl⟩
  obtain ⟨N, res, -, -, h1, h2⟩ := C91_point_mass 1 (exactScipy 0) Demo.sampledArgs 2 0 rfl Fl.zero_fin rfl e0 h0 (exactScipy 0)
    [.setState (toFl (Fin.append ![1] ![0]))] 3 (by norm_num) (.ndarray .f64 [.fin 1]) ![1] (Fin.append ![1] ![0]) rfl ha
  have r' := r.congr (run_sameConfig (exactScipy 0) [.setState (toFl (Fin.append ![1] ![0]))] e0)
  refine ⟨e0, N, (pointModel 1 2 0).field ((pointModel 1 2 0).sat ![1]), h0, rfl, ha, r'.dyn.custom, r2.trans rfl, ?_, by rw [h2 N le_rfl]; exact h1⟩
  intro t y v hv
  have hv' := r'.applied (u := ![1]) (asks_iff.2 ⟨.f64, rfl⟩) hv
  rw [hv']
  exact r'.dyn.liftsOn _ (S := fun _ => True) (fun _ _ => trivial) t y trivial

/-- Every step of a translating spacecraft returns. -/
theorem C91_spacecraft (env : Env realFmt) (args : CwhArgs realFmt) (m n : ℝ) (hm : args.m = .fin m) (hn : args.n = .fin n)
    (hr : args.integrationMethod = "RK45") (e0 : Entity realFmt) (h0 : newCwhSpacecraft env args = .ok e0) (env' : Env realFmt) (ops : List (Op realFmt))
    (T : ℝ) (hT : T ≠ 0) (ac : Action realFmt) (u : Fin 3 → ℝ) (y : Fin 6 → ℝ) (hs : (e0.run env' ops).state = toFl y)
    (ha : Asks (exactScipy 0) (e0.run env' ops) ac u) :
    ∃ N r, (∃ w : Fin 6 → ℝ, r.entity.state = toFl w) ∧ (∃ w : Fin 6 → ℝ, r.entity.stateDot = toFl w) ∧ r.outcome = .ok () ∧
      ∀ fuel, N ≤ fuel → (e0.run env' ops).step (exactScipy fuel) (.fin T) ac = r := by
  obtain ⟨r, -, r2, -⟩ := cwhSpacecraft_realised hm hn h0
  have hcfg := run_sameConfig env' ops e0
  refine (r.congr hcfg).step_returns (by omega) (by rw [(sameConfig_method hcfg).1, r2, hr]) (fun _ => trivial) ha (a := 1 + 3 * n ^ 2 + 2 * |n|)
    (b := ∑ i, |(cwModel m n).sat u i / m|) (by positivity) (Finset.sum_nonneg fun i _ => abs_nonneg _) ?_ T (fun h => absurd h hT) hs
  intro t z j
  have hb : ∀ i, |(cwModel m n).sat u i / m| ≤ ∑ i, |(cwModel m n).sat u i / m| := fun i =>
    Finset.single_le_sum (f := fun i => |(cwModel m n).sat u i / m|) (fun i _ => abs_nonneg _) (Finset.mem_univ i)
  generalize ∑ i, |(cwModel m n).sat u i / m| = B at *
  generalize (cwModel m n).sat u = w at *
  have hz : ∀ i, |z i| ≤ ‖z‖ := fun i => norm_le_pi_norm z i
  have hz0 := norm_nonneg z
  have hn0 := abs_nonneg n
  have hB : 0 ≤ B := (abs_nonneg _).trans (hb 0)
  have p1 := mul_nonneg hn0 hz0
  have p2 : 0 ≤ n ^ 2 * ‖z‖ := by positivity
  have m1 : ∀ i, |3 * n ^ 2 * z i| ≤ 3 * n ^ 2 * ‖z‖ := fun i => by
    rw [abs_mul, abs_of_nonneg (by positivity : (0 : ℝ) ≤ 3 * n ^ 2)]; exact mul_le_mul_of_nonneg_left (hz i) (by positivity)
  have m2 : ∀ i, |2 * n * z i| ≤ 2 * |n| * ‖z‖ := fun i => by
    rw [abs_mul, abs_mul, abs_of_pos (by norm_num : (0 : ℝ) < 2)]; exact mul_le_mul_of_nonneg_left (hz i) (by positivity)
  have m3 : ∀ i, |n ^ 2 * z i| ≤ n ^ 2 * ‖z‖ := fun i => by
    rw [abs_mul, abs_of_nonneg (by positivity : (0 : ℝ) ≤ n ^ 2)]; exact mul_le_mul_of_nonneg_left (hz i) (by positivity)
  fin_cases j <;> simp only [cwModel, Matrix.cons_val, Fin.zero_eta, Fin.mk_one, Fin.reduceFinMk, Matrix.cons_val_zero, Matrix.cons_val_one]
  · linarith [hz 3]
  · linarith [hz 4]
  · linarith [hz 5]
  · refine (abs_add_le _ _).trans ?_
    have := abs_add_le (3 * n ^ 2 * z 0) (2 * n * z 4)
    linarith [m1 0, m2 4, hb 0]
  · refine (abs_add_le _ _).trans ?_
    rw [show -2 * n * z 3 = -(2 * n * z 3) by ring, abs_neg]
    linarith [m2 3, hb 1]
  · refine (abs_add_le _ _).trans ?_
    rw [show -n ^ 2 * z 2 = -(n ^ 2 * z 2) by ring, abs_neg]
    linarith [m3 2, hb 2]

/-- Every step of a planar Dubins aircraft returns. -/
theorem C91_dubins2d (env : Env realFmt) (args : Dubins2dArgs realFmt) (p : Dubins2dParams ℝ) (hp : p.Of args)
    (hr : args.integrationMethod = "RK45") (e0 : Entity realFmt) (h0 : newDubins2d env args = .ok e0) (env' : Env realFmt) (ops : List (Op realFmt))
    (T : ℝ) (hT : T ≠ 0) (ac : Action realFmt) (u : Fin 2 → ℝ) (y : Fin 4 → ℝ) (hs : (e0.run env' ops).state = toFl y)
    (ha : Asks (exactScipy 0) (e0.run env' ops) ac u) :
    ∃ N r, (∃ w : Fin 4 → ℝ, r.entity.state = toFl w) ∧ (∃ w : Fin 4 → ℝ, r.entity.stateDot = toFl w) ∧ r.outcome = .ok () ∧
      ∀ fuel, N ≤ fuel → (e0.run env' ops).step (exactScipy fuel) (.fin T) ac = r := by
  have r := dubins2d_realised hp h0
  obtain ⟨-, -, -, -, -, -, -, -, r2, -⟩ := dubins2d_config h0
  have hcfg := run_sameConfig env' ops e0
  refine (r.congr hcfg).step_returns (by omega) (by rw [(sameConfig_method hcfg).1, r2, hr]) (fun _ => trivial) ha (a := 1)
    (b := ∑ i, |(dubins2dModel realFmt p).sat u i|) (by positivity) (Finset.sum_nonneg fun i _ => abs_nonneg _) ?_ T (fun h => absurd h hT) hs
  intro t z j
  have hb : ∀ i, |(dubins2dModel realFmt p).sat u i| ≤ ∑ i, |(dubins2dModel realFmt p).sat u i| := fun i =>
    Finset.single_le_sum (f := fun i => |(dubins2dModel realFmt p).sat u i|) (fun i _ => abs_nonneg _) (Finset.mem_univ i)
  generalize ∑ i, |(dubins2dModel realFmt p).sat u i| = B at *
  generalize (dubins2dModel realFmt p).sat u = w at *
  have hz : ∀ i, |z i| ≤ ‖z‖ := fun i => norm_le_pi_norm z i
  have hz0 := norm_nonneg z
  have hB : 0 ≤ B := (abs_nonneg _).trans (hb 0)
  have ht : ∀ (x : ℝ) i, |x| ≤ 1 → |z i * x| ≤ ‖z‖ := fun x i hx => by
    rw [abs_mul]; exact (mul_le_mul (hz i) hx (abs_nonneg _) hz0).trans (by simp)
  fin_cases j <;> simp only [dubins2dModel, Matrix.cons_val, Fin.zero_eta, Fin.mk_one, Fin.reduceFinMk, Matrix.cons_val_zero, Matrix.cons_val_one]
  · linarith [ht (Real.cos (z 2)) 3 (Real.abs_cos_le_one _), show |z 3 * realFmt.cos (z 2)| = |z 3 * Real.cos (z 2)| from rfl]
  · linarith [ht (Real.sin (z 2)) 3 (Real.abs_sin_le_one _), show |z 3 * realFmt.sin (z 2)| = |z 3 * Real.sin (z 2)| from rfl]
  · linarith [hb 0]
  · linarith [hb 1]

/-- Every step of a spacecraft that also rotates in the plane returns. -/
theorem C91_rotational (env : Env realFmt) (args : Rot2dArgs realFmt) (p : Rot2dParams ℝ) (hp : p.Of args)
    (hr : args.integrationMethod = "RK45") (e0 : Entity realFmt) (h0 : newRot2d env args = .ok e0) (env' : Env realFmt) (ops : List (Op realFmt))
    (T : ℝ) (hT : T ≠ 0) (ac : Action realFmt) (u : Fin 3 → ℝ) (y : Fin 6 → ℝ) (hs : (e0.run env' ops).state = toFl y)
    (ha : Asks (exactScipy 0) (e0.run env' ops) ac u) :
    ∃ N r, (∃ w : Fin 6 → ℝ, r.entity.state = toFl w) ∧ (∃ w : Fin 6 → ℝ, r.entity.stateDot = toFl w) ∧ r.outcome = .ok () ∧
      ∀ fuel, N ≤ fuel → (e0.run env' ops).step (exactScipy fuel) (.fin T) ac = r := by
  obtain ⟨r, -, -, r2, -⟩ := rot2d_realised hp h0
  have hcfg := run_sameConfig env' ops e0
  refine (r.congr hcfg).step_returns (by omega) (by rw [(sameConfig_method hcfg).1, r2, hr]) (fun _ => trivial) ha (a := 1 + 3 * p.n ^ 2 + 2 * |p.n|)
    (b := (∑ i, |(rot2dModel realFmt p.m p.inertia p.n p.accLimit p.velLimit).sat u i|) * (2 * |p.m⁻¹| + |p.inertia⁻¹|)) (by positivity)
    (mul_nonneg (Finset.sum_nonneg fun i _ => abs_nonneg _) (by positivity)) ?_ T (fun h => absurd h hT) hs
  intro t z j
  have hb : ∀ i, |(rot2dModel realFmt p.m p.inertia p.n p.accLimit p.velLimit).sat u i|
      ≤ ∑ i, |(rot2dModel realFmt p.m p.inertia p.n p.accLimit p.velLimit).sat u i| := fun i =>
    Finset.single_le_sum (f := fun i => |(rot2dModel realFmt p.m p.inertia p.n p.accLimit p.velLimit).sat u i|) (fun i _ => abs_nonneg _)
      (Finset.mem_univ i)
  generalize ∑ i, |(rot2dModel realFmt p.m p.inertia p.n p.accLimit p.velLimit).sat u i| = B at *
  generalize (rot2dModel realFmt p.m p.inertia p.n p.accLimit p.velLimit).sat u = w at *
  generalize p.n = n
  have hz : ∀ i, |z i| ≤ ‖z‖ := fun i => norm_le_pi_norm z i
  have hz0 := norm_nonneg z
  have hn0 := abs_nonneg n
  have hB : 0 ≤ B := (abs_nonneg _).trans (hb 0)
  have q1 := mul_nonneg hB (abs_nonneg p.m⁻¹)
  have q2 := mul_nonneg hB (abs_nonneg p.inertia⁻¹)
  have p1 := mul_nonneg hn0 hz0
  have p2 : 0 ≤ n ^ 2 * ‖z‖ := by positivity
  have m1 : ∀ i, |3 * n ^ 2 * z i| ≤ 3 * n ^ 2 * ‖z‖ := fun i => by
    rw [abs_mul, abs_of_nonneg (by positivity : (0 : ℝ) ≤ 3 * n ^ 2)]; exact mul_le_mul_of_nonneg_left (hz i) (by positivity)
  have m2 : ∀ i, |2 * n * z i| ≤ 2 * |n| * ‖z‖ := fun i => by
    rw [abs_mul, abs_mul, abs_of_pos (by norm_num : (0 : ℝ) < 2)]; exact mul_le_mul_of_nonneg_left (hz i) (by positivity)
  have tr : ∀ (x : ℝ) i, |x| ≤ 1 → |x * w i| ≤ B := fun x i hx => by
    rw [abs_mul]; exact (mul_le_mul hx (hb i) (abs_nonneg _) (by norm_num)).trans (by simp)
  have tm : ∀ c s : ℝ, |c| ≤ 1 → |s| ≤ 1 → |(c * w 0 + s * w 1) / p.m| ≤ 2 * (B * |p.m⁻¹|) := fun c s hc hs => by
    rw [div_eq_mul_inv, abs_mul]
    have := (abs_add_le (c * w 0) (s * w 1)).trans (add_le_add (tr c 0 hc) (tr s 1 hs))
    nlinarith [abs_nonneg p.m⁻¹]
  have cs := fun x => Real.abs_cos_le_one x
  have sn := fun x => Real.abs_sin_le_one x
  fin_cases j <;> simp only [rot2dModel, Matrix.cons_val, Fin.zero_eta, Fin.mk_one, Fin.reduceFinMk, Matrix.cons_val_zero, Matrix.cons_val_one]
  · linarith [hz 3]
  · linarith [hz 4]
  · linarith [hz 5]
  · refine (abs_add_le _ _).trans ?_
    have h1 := abs_add_le (3 * n ^ 2 * z 0) (2 * n * z 4)
    have h2 := tm (Real.cos (z 2)) (-Real.sin (z 2)) (cs _) (by rw [abs_neg]; exact sn _)
    have h3 : |(realFmt.cos (z 2) * w 0 - realFmt.sin (z 2) * w 1) / p.m| = |(Real.cos (z 2) * w 0 + -Real.sin (z 2) * w 1) / p.m| := by
      show |(Real.cos (z 2) * w 0 - Real.sin (z 2) * w 1) / p.m| = _
      congr 2; ring
    rw [h3]
    linarith [m1 0, m2 4]
  · refine (abs_add_le _ _).trans ?_
    rw [show -2 * n * z 3 = -(2 * n * z 3) by ring, abs_neg]
    have h2 := tm (Real.sin (z 2)) (Real.cos (z 2)) (sn _) (cs _)
    have h3 : |(realFmt.sin (z 2) * w 0 + realFmt.cos (z 2) * w 1) / p.m| = |(Real.sin (z 2) * w 0 + Real.cos (z 2) * w 1) / p.m| := rfl
    rw [h3]
    linarith [m2 3]
  · rw [div_eq_mul_inv, abs_mul]
    have := mul_le_mul_of_nonneg_right (hb 2) (abs_nonneg p.inertia⁻¹)
    linarith

end SAD
