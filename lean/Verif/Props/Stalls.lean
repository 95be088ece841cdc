import Verif.Lemmas.SciPyNan
import Verif.Props.SciPy

/-!
# C92: RK45 steps that raise or never return

`scipyEnv gap fuel` is SciPy's `solve_ivp` (`Model/SciPy.lean`) whose loops may turn `fuel` times: a call that answers `diverges` for every `fuel` is
one that does not return. `gap t dir` is the distance from `t` to the next number of the format.
-/

set_option linter.unusedSectionVars false

namespace SAD
open Spec

/-! ## what the point masses have in common -/

section
variable {K : Type} {R : Fmt K} [Field K] [LinearOrder K]

theorem cwhSpacecraft_nan {env : Env R} {a : CwhArgs R} {e : Entity R} (h : newCwhSpacecraft env a = .ok e) : LinearNan e 6 3 ∧
    e.dynamics.integrationMethod = a.integrationMethod ∧ some e.dynamics.trajectorySamples = a.trajectorySamples := by
  have h := instantiate_ok h
  unfold initCwhSpacecraft at h
  obtain ⟨d, hd, h⟩ := Except.bind_ok.1 h
  obtain ⟨h1, -, h3, h4, -⟩ := baseInit_ok h
  unfold mkCwhDynamics at hd
  obtain ⟨⟨A, B⟩, hAB, hd⟩ := Except.bind_ok.1 hd
  have hu := unlimited_of_mk (mkLinearDyn_ok hd) rfl rfl rfl rfl rfl
  obtain ⟨k, hk, -, hd2⟩ := mkOdeDyn_ok (mkLinearDyn_ok hd)
  have hdot : NanDot d 6 3 := by
    unfold generateCwhMatrices at hAB
    simp only [show ("3d" = "2d") = False from by simp, if_true, if_false] at hAB
    obtain ⟨k, -, hAB⟩ := Except.bind_ok.1 hAB
    cases hAB
    exact linear_nanDot hd hu ⟨rfl, rfl, by simp⟩ ⟨rfl, rfl, by simp⟩
  refine ⟨⟨?_, ?_, ?_, _, _, h3, h4⟩, ?_, ?_⟩
  · rw [h1]; exact hu.custom
  · rw [h1]; exact ⟨hu.stateMin, hu.stateMax, hu.wrap⟩
  · rw [h1]; exact hdot
  · rw [h1, hd2]
  · rw [h1, hd2]; exact hk.symm

theorem integrator_nan {env : Env R} {a : IntegratorArgs R} {k : Nat} {e : Entity R} (h : initIntegrator env a k = .ok e) :
    LinearNan e (2 * k) k ∧ (k = 1 ∨ k = 2 ∨ k = 3) ∧
    e.dynamics.integrationMethod = a.integrationMethod ∧ some e.dynamics.trajectorySamples = a.trajectorySamples := by
  have key : ∀ (k : Nat) (mode : String) (fields : List (CfgField R)) (layout : List String) (cd : Vec R)
      (cm : Option (List (String × Nat))), ((mode, k) = ("1d", 1) ∨ (mode, k) = ("2d", 2) ∨ (mode, k) = ("3d", 3)) →
      (do let d ← mkIntegratorDynamics env a.m a.damping mode a.dyn
          baseInit fields layout d cd (.scalar (-1)) (.scalar 1) cm a.kwargs) = .ok e →
      LinearNan e (2 * k) k ∧ (k = 1 ∨ k = 2 ∨ k = 3) ∧
      e.dynamics.integrationMethod = a.integrationMethod ∧ some e.dynamics.trajectorySamples = a.trajectorySamples := by
    intro k mode fields layout cd cm hk h
    obtain ⟨d, hd, h⟩ := Except.bind_ok.1 h
    obtain ⟨h1, -, h3, h4, -⟩ := baseInit_ok h
    unfold mkIntegratorDynamics at hd
    obtain ⟨⟨A, B⟩, hAB, hd⟩ := Except.bind_ok.1 hd
    have hu := unlimited_of_mk (mkLinearDyn_ok hd) rfl rfl rfl rfl rfl
    obtain ⟨j, hj, -, hd2⟩ := mkOdeDyn_ok (mkLinearDyn_ok hd)
    have hdot : NanDot d (2 * k) k := by
      unfold generateDynamicsMatrices at hAB
      rcases hk with hk | hk | hk <;> cases hk <;>
        simp only [show ("2d" = "1d") = False from by simp, show ("3d" = "1d") = False from by simp, show ("3d" = "2d") = False from by simp,
          if_true, if_false] at hAB <;> obtain ⟨k, -, hAB⟩ := Except.bind_ok.1 hAB <;> cases hAB <;>
        exact linear_nanDot hd hu ⟨rfl, rfl, by simp⟩ ⟨rfl, rfl, by simp⟩
    refine ⟨⟨?_, ?_, ?_, _, _, h3, h4⟩, ?_, ?_, ?_⟩
    · rw [h1]; exact hu.custom
    · rw [h1]; exact ⟨hu.stateMin, hu.stateMax, hu.wrap⟩
    · rw [h1]; exact hdot
    · rcases hk with hk | hk | hk <;> cases hk <;> simp
    · rw [h1, hd2]; rfl
    · rw [h1, hd2]; exact hj.symm
  match k, h with
  | 1, h => exact key 1 "1d" _ _ _ _ (.inl rfl) h
  | 2, h => exact key 2 "2d" _ _ _ _ (.inr (.inl rfl)) h
  | 3, h => exact key 3 "3d" _ _ _ _ (.inr (.inr rfl)) h
  | 0, h => cases h
  | n + 4, h => cases h

end

/-! ## NaN controls -/

/-- A step of a point mass with linear dynamics under a NaN control does not return, unless the state is tiny. -/
theorem LinearNan.hangs {n m : Nat} (hn0 : 0 < n) (hn1 : n ≤ 8100) {e : Entity realFmt} (h : LinearNan e n m)
    (hm : e.dynamics.integrationMethod = "RK45") (gap : Fl realFmt → Fl realFmt → Fl realFmt) (fuel : Nat) {T : ℝ} (hT : T ≠ 0)
    {a : Action realFmt} {ty : DType} {u : Vec realFmt} (hr : Requests (scipyEnv gap fuel) e a ty u) (hl : u.length = m) (hu : .nan ∈ u)
    {y : Fin n → ℝ} (hs : e.state = toFl y) (hy : ∃ i, 1 / 1000000000 ≤ |y i|) :
    (e.step (scipyEnv gap fuel) (.fin T) a).outcome = .error .diverges := by
  obtain ⟨v, v1, v2, v3⟩ := h.applied (resolve_iff.2 hr) hl hu
  have h1 := fun t y hy => h.dot t y v hy v2 v3
  refine ((h.step hm (resolve_iff.2 hr) v1 v2 v3 (.fin T)).1 _ ?_).1
  rw [hs]
  obtain ⟨i, hi⟩ := hy
  have hne : (toFl y : Vec realFmt) ≠ [] := by
    intro h
    have := congrArg List.length h
    simp at this
    omega
  have hall : (toFl y : Vec realFmt).all Fl.isFin = true := by
    rw [List.all_eq_true]
    intro a ha
    obtain ⟨i, rfl⟩ := (List.mem_ofFn' _ _).1 ha
    rfl
  have hte : (e.dynamics.tEval (.fin T)).all (tEvalOk (.fin T)) = true := by
    by_cases hp : 0 < e.dynamics.trajectorySamples
    · rw [tEval_ktimes _ _ hp]
      exact tEvalOk_ktimes hT _
    · simp [Dyn.tEval, hp]
  exact scipySolve_nan (f0 := List.replicate n .nan) hte hall hne (by simp [Fl.eqb, hT]) (fun t z hz => ⟨_, h1 t z (by simpa using hz), by simp⟩)
    (h1 0 _ (by simp)) (by rw [List.mem_replicate]; exact ⟨by omega, rfl⟩) (startNorm_big hn0 hn1 i hi)

/-- After every history: an RK45 step of a `CWHSpacecraft` under an action with a NaN does not return if any position or velocity is at
least 1e-9 in size. -/
theorem C92_spacecraft_nan (env env' : Env realFmt) (args : CwhArgs realFmt) (hr : args.integrationMethod = "RK45") (e0 : Entity realFmt)
    (h0 : newCwhSpacecraft env args = .ok e0) (ops : List (Op realFmt)) (gap : Fl realFmt → Fl realFmt → Fl realFmt) (T : ℝ) (hT : T ≠ 0)
    (a : Action realFmt) (ty : DType) (u : Vec realFmt) (hu : .nan ∈ u) (hl : u.length = 3)
    (ha : ∀ fuel, Requests (scipyEnv gap fuel) (e0.run env' ops) a ty u)
    (y : Fin 6 → ℝ) (hs : (e0.run env' ops).state = toFl y) (hy : ∃ i, 1 / 1000000000 ≤ |y i|) :
    ∀ fuel, ((e0.run env' ops).step (scipyEnv gap fuel) (.fin T) a).outcome = .error .diverges := by
  obtain ⟨r, r2, -⟩ := cwhSpacecraft_nan h0
  have hcfg := run_sameConfig env' ops e0
  intro fuel
  exact (r.congr hcfg).hangs (by omega) (by omega) (by rw [(sameConfig_method hcfg).1, r2, hr]) gap fuel hT (ha fuel) hl hu hs hy

/-- The same for the integrators with one, two or three axes. -/
theorem C92_point_mass_nan (env env' : Env realFmt) (k : Nat) (args : IntegratorArgs realFmt) (hr : args.integrationMethod = "RK45")
    (e0 : Entity realFmt) (h0 : initIntegrator env args k = .ok e0) (ops : List (Op realFmt)) (gap : Fl realFmt → Fl realFmt → Fl realFmt)
    (T : ℝ) (hT : T ≠ 0) (a : Action realFmt) (ty : DType) (u : Vec realFmt) (hu : .nan ∈ u) (hl : u.length = k)
    (ha : ∀ fuel, Requests (scipyEnv gap fuel) (e0.run env' ops) a ty u)
    (y : Fin (2 * k) → ℝ) (hs : (e0.run env' ops).state = toFl y) (hy : ∃ i, 1 / 1000000000 ≤ |y i|) :
    ∀ fuel, ((e0.run env' ops).step (scipyEnv gap fuel) (.fin T) a).outcome = .error .diverges := by
  obtain ⟨r, rk, r2, -⟩ := integrator_nan h0
  have hcfg := run_sameConfig env' ops e0
  intro fuel
  exact (r.congr hcfg).hangs (by omega) (by omega) (by rw [(sameConfig_method hcfg).1, r2, hr]) gap fuel hT (ha fuel) hl hu hs hy

/-- At rest in the origin the same step returns: SciPy gives up, which the code does not look at. In a format whose numbers have neighbours
the step reports success and leaves the spacecraft where it is, with a derivative of NaNs; with trajectory samples it raises
`AttributeError` and changes nothing. -/
theorem C92_spacecraft_nan_at_rest (env env' : Env realFmt) (args : CwhArgs realFmt) (hr : args.integrationMethod = "RK45") (N : Int)
    (hsam : args.trajectorySamples = some N) (e0 : Entity realFmt)
    (h0 : newCwhSpacecraft env args = .ok e0) (ops : List (Op realFmt)) (gap : Fl realFmt → Fl realFmt → Fl realFmt)
    (hg : ∀ t d, ∃ g : ℝ, 0 < g ∧ gap t d = .fin g) (T : ℝ) (hT : T ≠ 0)
    (a : Action realFmt) (ty : DType) (u : Vec realFmt) (hu : .nan ∈ u) (hl : u.length = 3)
    (ha : ∀ fuel, Requests (scipyEnv gap fuel) (e0.run env' ops) a ty u)
    (hs : (e0.run env' ops).state = [0, 0, 0, 0, 0, 0]) :
    ∃ M, ∀ fuel, M ≤ fuel →
      (N ≤ 0 → ((e0.run env' ops).step (scipyEnv gap fuel) (.fin T) a).outcome = .ok () ∧
        ((e0.run env' ops).step (scipyEnv gap fuel) (.fin T) a).entity.state = [0, 0, 0, 0, 0, 0] ∧
        ((e0.run env' ops).step (scipyEnv gap fuel) (.fin T) a).entity.stateDot = [.nan, .nan, .nan, .nan, .nan, .nan]) ∧
      (0 < N → ((e0.run env' ops).step (scipyEnv gap fuel) (.fin T) a).outcome = .error .attributeError ∧
        ((e0.run env' ops).step (scipyEnv gap fuel) (.fin T) a).entity = e0.run env' ops) := by
  obtain ⟨r, r2, r3⟩ := cwhSpacecraft_nan h0
  have hcfg := run_sameConfig env' ops e0
  have r' := r.congr hcfg
  have hm : (e0.run env' ops).dynamics.integrationMethod = "RK45" := by rw [(sameConfig_method hcfg).1, r2, hr]
  have hN : (e0.run env' ops).dynamics.trajectorySamples = N := by
    rw [(sameConfig_method hcfg).2]
    rw [hsam] at r3
    exact Option.some.inj r3
  generalize e0.run env' ops = e at *
  have hz : (toFl (0 : Fin 6 → ℝ) : Vec realFmt) = [0, 0, 0, 0, 0, 0] := by rw [toFl6, Fl.zero_fin]; rfl
  rw [← hz] at hs ⊢
  obtain ⟨v, h1, h2, h3⟩ := r'.applied (env := scipyEnv gap 0) (resolve_iff.2 (ha 0)) hl hu
  have hf : NanRhs (fun t y => e.dynamics.computeStateDot t y v) 6 := fun t y hy => r'.dot t y v hy h2 h3
  obtain ⟨M, hM⟩ := hf.scipySolve_zero (by omega) hT hg
  refine ⟨M, fun fuel hfuel => ?_⟩
  obtain ⟨g1, g2⟩ := hM fuel hfuel
  have hall : ∀ x ∈ (toFl (0 : Fin 6 → ℝ) : Vec realFmt), x.isFin = true := by
    intro x hx
    obtain ⟨i, rfl⟩ := (List.mem_ofFn' _ _).1 hx
    rfl
  obtain ⟨k2, k3⟩ := r'.step hm (resolve_iff.2 (ha fuel)) h1 h2 h3 (.fin T)
  rw [hs] at k2 k3
  constructor
  · intro hN0
    rw [show e.dynamics.tEval (.fin T) = none by simp [Dyn.tEval, hN, hN0]] at k3
    exact k3 _ _ g1 rfl (by simp) hall
  · intro hN0
    rw [tEval_ktimes _ _ (by omega)] at k2
    exact k2 _ (g2 _ (tEvalOk_ktimes hT _))

/-! ## non-finite states and samples of steps of duration zero -/

section
variable {K : Type} {R : Fmt K} [Field K] [LinearOrder K] [FloorRing K]

/-- In any arithmetic: an RK45 step from a state with a NaN or an infinity raises `ValueError` and changes nothing. -/
theorem C92_nonfinite_state (gap : Fl R → Fl R → Fl R) (fuel : Nat) (e : Entity R) (hc : e.dynamics.custom = none)
    (hm : e.dynamics.integrationMethod = "RK45") (T : Fl R) (a : Action R) (v : Vec R) (hv : Applied (scipyEnv gap fuel) e a v)
    (hs : .nan ∈ e.state ∨ .pinf ∈ e.state ∨ .ninf ∈ e.state) :
    (e.step (scipyEnv gap fuel) T a).outcome = .error .valueError ∧ (e.step (scipyEnv gap fuel) T a).entity = e := by
  have hall : e.state.all Fl.isFin = false := by
    rw [Bool.eq_false_iff]
    intro h
    rw [List.all_eq_true] at h
    rcases hs with hs | hs | hs <;> cases h _ hs
  obtain ⟨ty, u, hr, h1⟩ := applied_iff.1 hv
  obtain ⟨w, h4⟩ := exceeds_of_npClip h1
  have hsol : (scipyEnv gap fuel).solveIvp (fun t y => e.dynamics.computeStateDot t y v) T e.state (e.dynamics.tEval T) = .error .valueError := by
    show scipySolve gap fuel (fun t y => e.dynamics.computeStateDot t y v) T e.state (e.dynamics.tEval T) = _
    unfold scipySolve
    split
    · rfl
    · simp
  have hd : e.dynamics.step (scipyEnv gap fuel) T e.state v = (e.dynamics, .error .valueError) := by
    unfold Dyn.step Dyn.rawStep
    rw [hc]
    simp only [Dyn.odeStep, hm, if_true, hsol, bind, Except.bind]
  unfold Entity.step
  simp only [hr, h4, h1, hd, and_self]

end

section
variable {K : Type} {R : Fmt K} [Field K] [LinearOrder K] [IsStrictOrderedRing K] [FloorRing K] [Exact R]

/-- An RK45 step of duration zero from a finite state raises `AttributeError` if `trajectory_samples > 0`, and changes nothing. -/
theorem C92_zero_duration_samples (gap : Fl R → Fl R → Fl R) (fuel : Nat) (e : Entity R) (hc : e.dynamics.custom = none)
    (hm : e.dynamics.integrationMethod = "RK45") (hN : 0 < e.dynamics.trajectorySamples) (a : Action R) (v : Vec R)
    (hv : Applied (scipyEnv gap fuel) e a v) {n : Nat} (hn : 0 < n) (y : Fin n → K) (hs : e.state = toFl y) (k : Vec R)
    (hk : e.dynamics.computeStateDot 0 e.state v = .ok k) (hkn : k.length = n) :
    (e.step (scipyEnv gap fuel) 0 a).outcome = .error .attributeError ∧ (e.step (scipyEnv gap fuel) 0 a).entity = e := by
  obtain ⟨ty, u, hr, h1⟩ := applied_iff.1 hv
  obtain ⟨w, h4⟩ := exceeds_of_npClip h1
  have hne : (toFl y : Vec R) ≠ [] := by
    intro h
    have := congrArg List.length h
    simp at this
    omega
  have hall : (toFl y : Vec R).all Fl.isFin = true := by
    rw [List.all_eq_true]
    intro a ha
    obtain ⟨i, rfl⟩ := (List.mem_ofFn' _ _).1 ha
    rfl
  have hte : tEvalOk (.fin 0 : Fl R) ((ktimes (0 : K) e.dynamics.trajectorySamples.toNat).map .fin) = true := by
    unfold tEvalOk
    rw [Bool.and_eq_true]
    constructor
    · rw [List.all_eq_true]
      intro x hx
      obtain ⟨t, ht, rfl⟩ := List.mem_map.1 hx
      obtain ⟨j, -, rfl⟩ := List.mem_map.1 ht
      simp [Fl.zero_fin, Fl.pyMin, Fl.pyMax]
    · simp [Fl.zero_fin]
  have hsol : (scipyEnv gap fuel).solveIvp (fun t y => e.dynamics.computeStateDot t y v) 0 e.state (e.dynamics.tEval 0) = .error .attributeError := by
    show scipySolve gap fuel (fun t y => e.dynamics.computeStateDot t y v) 0 e.state (e.dynamics.tEval 0) = _
    rw [Fl.zero_fin, tEval_ktimes _ _ hN, hs] at *
    unfold scipySolve
    rw [if_neg (by simp [hte]), if_neg (by simp [hall]), if_neg hne]
    simp only [Fl.zero_fin, hk, toFl_length, fitRow_self hkn, bind, Except.bind]
    rw [if_pos (by simp [Fl.eqb])]
  have hd : e.dynamics.step (scipyEnv gap fuel) 0 e.state v = (e.dynamics, .error .attributeError) := by
    unfold Dyn.step Dyn.rawStep
    rw [hc]
    simp only [Dyn.odeStep, hm, if_true, hsol, bind, Except.bind]
  unfold Entity.step
  simp only [hr, h4, h1, hd, and_self]

end
end SAD

namespace SAD
open Spec

/-- a deputy of mass 2 started from the default state, RK45 without samples -/
def Demo.craftArgs : CwhArgs realFmt where
  m := .fin 2
  n := .fin 1
  kwargs := [("name", .str "deputy")]

theorem Demo.craft_new : ∃ e0 : Entity realFmt, newCwhSpacecraft (exactScipy 0) Demo.craftArgs = .ok e0 := by
  have hd : pyDiv (1 : Fl realFmt) (.fin 2) = .ok (1 / .fin 2) := by simp [pyDiv, Fl.eqb]
  simp only [newCwhSpacecraft, initCwhSpacecraft, mkCwhDynamics, generateCwhMatrices, Demo.craftArgs, show ("3d" = "2d") = False from by simp,
    if_true, if_false, hd, bind, Except.bind, pure, Except.pure]
  exact ⟨_, rfl⟩

/-- a spacecraft at (1, 0, 0) commanded [NaN, 0, 0] meets the hypotheses of `C92_spacecraft_nan`, and so hangs -/
example : ∃ e0 : Entity realFmt, newCwhSpacecraft (exactScipy 0) Demo.craftArgs = .ok e0 ∧
    (e0.run (exactScipy 0) [.setState (toFl ![1, 0, 0, 0, 0, 0])]).state = toFl ![1, 0, 0, 0, 0, 0] ∧
    ∀ fuel, ((e0.run (exactScipy 0) [.setState (toFl ![1, 0, 0, 0, 0, 0])]).step (scipyEnv (fun _ _ => .fin 1) fuel) (.fin 1)
      (.ndarray .f64 [.nan, .fin 0, .fin 0])).outcome = .error .diverges := by
  obtain ⟨e0, h0⟩ := Demo.craft_new
  exact ⟨e0, h0, rfl, C92_spacecraft_nan (exactScipy 0) (exactScipy 0) _ rfl e0 h0 [.setState (toFl ![1, 0, 0, 0, 0, 0])] _ 1 one_ne_zero _ .f64
    [.nan, .fin 0, .fin 0] (by simp) rfl (fun _ => .array _ _) _ rfl ⟨0, by norm_num⟩⟩

/-- the same spacecraft at rest in the origin -/
example : ∃ e0 : Entity realFmt, newCwhSpacecraft (exactScipy 0) Demo.craftArgs = .ok e0 ∧
    (e0.run (exactScipy 0) [.setState [0, 0, 0, 0, 0, 0]]).state = [0, 0, 0, 0, 0, 0] ∧
    ∃ M, ∀ fuel, M ≤ fuel → ((e0.run (exactScipy 0) [.setState [0, 0, 0, 0, 0, 0]]).step (scipyEnv (fun _ _ => .fin 1) fuel) (.fin 1)
      (.ndarray .f64 [.nan, .fin 0, .fin 0])).outcome = .ok () := by
  obtain ⟨e0, h0⟩ := Demo.craft_new
  obtain ⟨M, hM⟩ := C92_spacecraft_nan_at_rest (exactScipy 0) (exactScipy 0) _ rfl 0 rfl e0 h0 [.setState [0, 0, 0, 0, 0, 0]] (fun _ _ => .fin 1)
    (fun _ _ => ⟨1, one_pos, rfl⟩) 1 one_ne_zero (.ndarray .f64 [.nan, .fin 0, .fin 0]) .f64 [.nan, .fin 0, .fin 0] (by simp) rfl
    (fun _ => .array _ _) rfl
  exact ⟨e0, h0, rfl, M, fun fuel hfuel => ((hM fuel hfuel).1 le_rfl).1⟩

/-- a point mass at 1 commanded NaN -/
example : ∃ e0 : Entity realFmt, initIntegrator (exactScipy 0) Demo.sampledArgs 1 = .ok e0 ∧
    ∀ fuel, ((e0.run (exactScipy 0) [.setState (toFl ![1, 0])]).step (scipyEnv (fun _ _ => .fin 1) fuel) (.fin 1)
      (.ndarray .f64 [.nan])).outcome = .error .diverges := by
  obtain ⟨e0, h0⟩ : ∃ e0 : Entity realFmt, initIntegrator (exactScipy 0) Demo.sampledArgs 1 = .ok e0 := by
    have hd : pyDiv (1 : Fl realFmt) (.fin 2) = .ok (1 / .fin 2) := by simp [pyDiv, Fl.eqb]
    simp only [initIntegrator, initIntegrator1d, mkIntegratorDynamics, generateDynamicsMatrices, Demo.sampledArgs, if_true, hd, bind, Except.bind, pure,
      Except.pure]
    exact ⟨_, rfl⟩
  exact ⟨e0, h0, C92_point_mass_nan (exactScipy 0) (exactScipy 0) 1 _ rfl e0 h0 [.setState (toFl ![1, 0])] _ 1 one_ne_zero _ .f64
    [.nan] (by simp) rfl (fun _ => .array _ _) ![1, 0] rfl ⟨0, by norm_num⟩⟩

/-- a state with a NaN -/
example : ∃ e0 : Entity Demo.ratPow, initIntegrator (exactScipy 20) Demo.sampledArgs 1 = .ok e0 ∧
    Applied (exactScipy 20) (e0.run (exactScipy 20) [.setState [.nan, 0]]) (.ndarray .f64 [.fin 1]) [.fin 1] ∧
    ((e0.run (exactScipy 20) [.setState [.nan, 0]]).step (exactScipy 20) (.fin 3) (.ndarray .f64 [.fin 1])).outcome = .error .valueError :=
  ⟨_, rfl, applied_of (u := [.fin 1]) (ty := .f64) rfl (by decide +kernel), by decide +kernel⟩

/-- a step of duration zero with samples -/
example : ∃ e0 : Entity Demo.ratPow, initIntegrator (exactScipy 20) Demo.sampledArgs 1 = .ok e0 ∧ 0 < e0.dynamics.trajectorySamples ∧
    Applied (exactScipy 20) e0 (.ndarray .f64 [.fin 1]) [.fin 1] ∧ e0.state = toFl ![1, 0] ∧
    e0.dynamics.computeStateDot 0 e0.state [.fin 1] = .ok [.fin 0, .fin (1/2)] ∧
    (e0.step (exactScipy 20) 0 (.ndarray .f64 [.fin 1])).outcome = .error .attributeError :=
  ⟨_, rfl, by decide +kernel, applied_of (u := [.fin 1]) (ty := .f64) rfl (by decide +kernel), by decide +kernel, by decide +kernel, by decide +kernel⟩

end SAD
