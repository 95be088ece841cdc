import Verif.Lemmas.Point
import Verif.Lemmas.History
import Verif.Model.Formats
import Mathlib.Analysis.SpecialFunctions.Trigonometric.Deriv
import Mathlib.Analysis.Calculus.Deriv.Prod

/-!
# C29 - C34: Clohessy-Wiltshire point mass
-/

set_option linter.unusedSectionVars false

namespace SAD
open Spec

section
variable {K : Type} {R : Fmt K} [Field K] [LinearOrder K] [IsStrictOrderedRing K] [FloorRing K] [Exact R]

/-! ## C29 the equations -/

/-- The Clohessy-Wiltshire equations for a state `x, y, z, x', y', z'`, thrust `F`, mass `m`, mean motion `n`. -/
def Spec.cw (m n : K) (s : Fin 6 → K) (F : Fin 3 → K) : Fin 6 → K :=
  ![s 3, s 4, s 5,
    3 * n ^ 2 * s 0 + 2 * n * s 4 + F 0 / m,
    -2 * n * s 3 + F 1 / m,
    -n ^ 2 * s 2 + F 2 / m]

/-- The derivative computed by any constructed spacecraft, at any point of its life, is the one of the Clohessy-Wiltshire
equations. -/
theorem C29_equations (env : Env R) (args : CwhArgs R) (m n : K) (hm : args.m = .fin m) (hn : args.n = .fin n) (e0 : Entity R)
    (h0 : newCwhSpacecraft env args = .ok e0) (ops : List (Op R)) (t : K) (s : Fin 6 → K) (F : Fin 3 → K) :
    (e0.run env ops).dynamics.computeStateDot (.fin t) (toFl s) (toFl F) = .ok (toFl (cw m n s F)) := by
  have hr := ((cwhSpacecraft_realised hm hn h0).1.run env ops).dyn
  rw [computeStateDot_lift hr.lo hr.hi hr.dlo hr.dhi (hr.rhs t s F trivial)]
  exact congrArg (fun v => Except.ok (toFl v)) (cwModel_field m n F t s)

/-- A spacecraft of mass 0 cannot be constructed (`ZeroDivisionError`). -/
theorem C29_zero_mass (env : Env R) (args : CwhArgs R) (hm : args.m = 0) : newCwhSpacecraft env args = .error .zeroDivisionError := by
  have : instantiate mroCWHSpacecraft (initCwhSpacecraft env args) = initCwhSpacecraft env args := by
    unfold instantiate; rw [if_pos (by decide)]
  rw [newCwhSpacecraft, this]
  simp [initCwhSpacecraft, mkCwhDynamics, generateCwhMatrices, hm, pyDiv, Fl.eqb, bind, Except.bind]

end

section closed
open Real

/-- The textbook closed-form solution of the unforced Clohessy-Wiltshire equations. -/
noncomputable def Spec.cwSolution (n : ℝ) (s : Fin 6 → ℝ) (t : ℝ) : Fin 6 → ℝ :=
  ![(4 - 3 * cos (n * t)) * s 0 + sin (n * t) / n * s 3 + 2 / n * (1 - cos (n * t)) * s 4,
    6 * (sin (n * t) - n * t) * s 0 + s 1 - 2 / n * (1 - cos (n * t)) * s 3 + (4 * sin (n * t) - 3 * n * t) / n * s 4,
    cos (n * t) * s 2 + sin (n * t) / n * s 5,
    3 * n * sin (n * t) * s 0 + cos (n * t) * s 3 + 2 * sin (n * t) * s 4,
    -6 * n * (1 - cos (n * t)) * s 0 - 2 * sin (n * t) * s 3 + (4 * cos (n * t) - 3) * s 4,
    -n * sin (n * t) * s 2 + cos (n * t) * s 5]

theorem cwSolution_zero (n : ℝ) (s : Fin 6 → ℝ) : cwSolution n s 0 = s := by
  funext i; fin_cases i <;> simp [cwSolution] <;> ring

theorem cwSolution_deriv (n : ℝ) (hn : n ≠ 0) (m : ℝ) (s : Fin 6 → ℝ) (t : ℝ) :
    HasDerivAt (cwSolution n s) (cw m n (cwSolution n s t) 0) t := by
  have hl : HasDerivAt (fun t => n * t) n t := by simpa using (hasDerivAt_id t).const_mul n
  have hs : HasDerivAt (fun t => sin (n * t)) (cos (n * t) * n) t := (hasDerivAt_sin _).comp t hl
  have hc : HasDerivAt (fun t => cos (n * t)) (-sin (n * t) * n) t := (hasDerivAt_cos _).comp t hl
  rw [hasDerivAt_pi]
  intro i
  fin_cases i
  · have := (((hc.const_mul 3).const_sub 4).mul_const (s 0)).add (((hs.div_const n).mul_const (s 3)).add
      (((hc.const_sub 1).const_mul (2 / n)).mul_const (s 4)))
    refine HasDerivAt.congr_deriv (HasDerivAt.congr_of_eventuallyEq this (.of_forall fun t => ?_)) ?_
    · simp [cwSolution]; ring
    · simp [cw, cwSolution]; field_simp; ring
  · have := ((((hs.sub hl).const_mul 6).mul_const (s 0)).add_const (s 1)).add
      ((((hc.const_sub 1).const_mul (-(2 / n))).mul_const (s 3)).add ((((hs.const_mul 4).sub (hl.const_mul 3)).div_const n).mul_const (s 4)))
    refine HasDerivAt.congr_deriv (HasDerivAt.congr_of_eventuallyEq this (.of_forall fun t => ?_)) ?_
    · simp [cwSolution]; ring
    · simp [cw, cwSolution]; field_simp; ring
  · have := (hc.mul_const (s 2)).add ((hs.div_const n).mul_const (s 5))
    refine HasDerivAt.congr_deriv (HasDerivAt.congr_of_eventuallyEq this (.of_forall fun t => ?_)) ?_
    · simp [cwSolution]
    · simp [cw, cwSolution]; field_simp
  · have := ((hs.const_mul (3 * n)).mul_const (s 0)).add ((hc.mul_const (s 3)).add ((hs.const_mul 2).mul_const (s 4)))
    refine HasDerivAt.congr_deriv (HasDerivAt.congr_of_eventuallyEq this (.of_forall fun t => ?_)) ?_
    · simp [cwSolution]; ring
    · simp [cw, cwSolution]; field_simp; ring
  · have := (((hc.const_sub 1).const_mul (-6 * n)).mul_const (s 0)).add (((hs.const_mul (-2)).mul_const (s 3)).add
      (((hc.const_mul 4).sub_const 3).mul_const (s 4)))
    refine HasDerivAt.congr_deriv (HasDerivAt.congr_of_eventuallyEq this (.of_forall fun t => ?_)) ?_
    · simp [cwSolution]; ring
    · simp [cw, cwSolution]; field_simp; ring
  · have := ((hs.const_mul (-n)).mul_const (s 2)).add (hc.mul_const (s 5))
    refine HasDerivAt.congr_deriv (HasDerivAt.congr_of_eventuallyEq this (.of_forall fun t => ?_)) ?_
    · simp [cwSolution]
    · simp [cw, cwSolution]; field_simp; ring

/-- The textbook solution starts at the initial state and, at every time, its derivative is exactly what the coded model
returns for its value with zero thrust: for every spacecraft, initial state, `n ≠ 0` and time. -/
theorem C29_closed_form (env : Env realFmt) (args : CwhArgs realFmt) (m n : ℝ) (hm : args.m = .fin m) (hn : args.n = .fin n) (hn0 : n ≠ 0)
    (e0 : Entity realFmt) (h0 : newCwhSpacecraft env args = .ok e0) (s : Fin 6 → ℝ) :
    cwSolution n s 0 = s ∧ ∀ t, ∃ v : Fin 6 → ℝ,
      e0.dynamics.computeStateDot (.fin t) (toFl (cwSolution n s t)) [0, 0, 0] = .ok (toFl v) ∧ HasDerivAt (cwSolution n s) v t := by
  refine ⟨cwSolution_zero n s, fun t => ⟨_, ?_, cwSolution_deriv n hn0 m s t⟩⟩
  have := C29_equations env args m n hm hn e0 h0 [] t (cwSolution n s t) 0
  simpa [toFl3, Entity.run] using this

/-- the default spacecraft exists -/
example (env : Env realFmt) : ∃ e0 : Entity realFmt,
    newCwhSpacecraft env { m := .fin 12, n := .fin 0.001027, kwargs := [("name", .str "chief")] } = .ok e0 := by
  have h : abstractMethods mroCWHSpacecraft = [] := by decide
  · simp only [newCwhSpacecraft, instantiate, h, if_true, initCwhSpacecraft, mkCwhDynamics, generateCwhMatrices]
    simp [pyDiv, Fl.eqb, bind, Except.bind, mkLinearDyn, mkOdeDyn, linearShapeCheck, pure, Except.pure, baseInit, validate, lookup, fieldValues,
      cwhFields, buildState, Config.get]

end closed

section
variable {K : Type} {R : Fmt K} [Field K] [LinearOrder K] [IsStrictOrderedRing K] [FloorRing K] [Exact R]

/-! ## C30 cross-track decoupling -/

/-- components of the state and thrust belonging to the cross-track motion, and to the in-plane motion -/
def Spec.crossState : List (Fin 6) := [2, 5]
def Spec.crossThrust : List (Fin 3) := [2]
def Spec.planeState : List (Fin 6) := [0, 1, 3, 4]
def Spec.planeThrust : List (Fin 3) := [0, 1]

/-- the two vectors agree on the listed components -/
def Spec.AgreeOn {k : Nat} (l : List (Fin k)) (a b : Fin k → K) : Prop := ∀ i ∈ l, a i = b i

theorem cwModel_cross (tab : KTab K) (m n : K) (u1 u2 : Fin 3 → K) (hu : u1 2 = u2 2) (y1 y2 : Fin 6 → K)
    (hy : AgreeOn crossState y1 y2) (hs : List K) :
    AgreeOn crossState (rkChain tab ((cwModel m n).field u1) 0 y1 hs) (rkChain tab ((cwModel m n).field u2) 0 y2 hs) := by
  let L : (Fin 6 → K) →ₗ[K] K × K := (LinearMap.proj 2).prod (LinearMap.proj 5)
  have key : ∀ (u : Fin 3 → K) (y : Fin 6 → K), L (rkChain tab ((cwModel m n).field u) 0 y hs)
      = rkChain tab (fun _ p => (p.2, -n ^ 2 * p.1 + u 2 / m)) 0 (L y) hs := by
    intro u y
    apply rkChain_map
    intro t y
    simp [L, cwModel_field]
  have e : L y1 = L y2 := by simp [L, hy 2 (by simp [crossState]), hy 5 (by simp [crossState])]
  have := (key u1 y1).trans ((by rw [hu, e] : _ = _).trans (key u2 y2).symm)
  simp only [L, LinearMap.prod_apply, Function.prod, LinearMap.proj_apply, Prod.mk.injEq] at this
  intro i hi
  simp only [crossState, List.mem_cons, List.not_mem_nil, or_false] at hi
  rcases hi with rfl | rfl
  · exact this.1
  · exact this.2

theorem cwModel_plane (tab : KTab K) (m n : K) (u1 u2 : Fin 3 → K) (h0 : u1 0 = u2 0) (h1 : u1 1 = u2 1) (y1 y2 : Fin 6 → K)
    (hy : AgreeOn planeState y1 y2) (hs : List K) :
    AgreeOn planeState (rkChain tab ((cwModel m n).field u1) 0 y1 hs) (rkChain tab ((cwModel m n).field u2) 0 y2 hs) := by
  let L : (Fin 6 → K) →ₗ[K] (K × K) × (K × K) :=
    ((LinearMap.proj 0).prod (LinearMap.proj 1)).prod ((LinearMap.proj 3).prod (LinearMap.proj 4))
  have key : ∀ (u : Fin 3 → K) (y : Fin 6 → K), L (rkChain tab ((cwModel m n).field u) 0 y hs)
      = rkChain tab (fun _ p => (p.2, (3 * n ^ 2 * p.1.1 + 2 * n * p.2.2 + u 0 / m, -2 * n * p.2.1 + u 1 / m))) 0 (L y) hs := by
    intro u y
    apply rkChain_map
    intro t y
    simp [L, cwModel_field]
  have e : L y1 = L y2 := by
    simp [L, hy 0 (by simp [planeState]), hy 1 (by simp [planeState]), hy 3 (by simp [planeState]), hy 4 (by simp [planeState])]
  have := (key u1 y1).trans ((by rw [h0, h1, e] : _ = _).trans (key u2 y2).symm)
  simp only [L, LinearMap.prod_apply, Function.prod, LinearMap.proj_apply, Prod.mk.injEq] at this
  intro i hi
  simp only [planeState, List.mem_cons, List.not_mem_nil, or_false] at hi
  rcases hi with rfl | rfl | rfl | rfl
  · exact this.1.1
  · exact this.1.2
  · exact this.2.1
  · exact this.2.2

/-- Two spacecraft with the same parameters driven through the same sequence of step sizes with any actions, by Euler or with
any Runge-Kutta schedule for each step (the same for both). If their cross-track states and all their requested cross-track thrusts agree, their cross-track
states stay equal; if their in-plane states and thrusts agree, their in-plane states stay equal. -/
theorem C30_decoupled (hpi : 0 < R.pi) (env : Env R) (args1 args2 : CwhArgs R) (m n : K) (hm1 : args1.m = .fin m) (hn1 : args1.n = .fin n)
    (hm2 : args2.m = .fin m) (hn2 : args2.n = .fin n) (e1 e2 : Entity R)
    (h1 : newCwhSpacecraft env args1 = .ok e1)
    (h2 : newCwhSpacecraft env args2 = .ok e2)
    (hp1 : PlainMethod e1.dynamics) (hp2 : PlainMethod e2.dynamics)
    (hmeth : e2.dynamics.integrationMethod = e1.dynamics.integrationMethod)
    (s1 s2 : Fin 6 → K) (hist : List (List K × K × Action R × Action R)) (lS : List (Fin 6)) (lF : List (Fin 3))
    (hl : (lS, lF) = (crossState, crossThrust) ∨ (lS, lF) = (planeState, planeThrust)) (hs : AgreeOn lS s1 s2)
    (hreq : ∀ h ∈ hist, ∃ u1 u2 : Fin 3 → K, Asks (scheduled h.1) e1 h.2.2.1 u1 ∧
      Asks (scheduled h.1) e2 h.2.2.2 u2 ∧ AgreeOn lF u1 u2) :
    ∃ s1' s2' : Fin 6 → K,
      (runScheduled { e1 with state := (toFl s1) } (hist.map (fun h => (h.1, h.2.1, h.2.2.1)))).state = toFl s1' ∧
      (runScheduled { e2 with state := (toFl s2) } (hist.map (fun h => (h.1, h.2.1, h.2.2.2)))).state = toFl s2' ∧
      AgreeOn lS s1' s2' := by
  have r1 := (cwhSpacecraft_realised hm1 hn1 h1).1
  have r2 := (cwhSpacecraft_realised hm2 hn2 h2).1
  have c1 : SameConfig e1 { e1 with state := toFl s1 } := ⟨rfl, rfl, rfl, rfl, rfl, rfl⟩
  have c2 : SameConfig e2 { e2 with state := toFl s2 } := ⟨rfl, rfl, rfl, rfl, rfl, rfl⟩
  exact Realises.run_pair hpi (M := cwModel m n) (d := e1.dynamics) hp1 (AgreeOn lS) (AgreeOn lF) (S := fun _ => True) (D := ⊤)
    (fun _ _ => trivial) (fun _ => Stable.univ _) (fun _ _ _ => ⟨trivial, trivial⟩)
    (by
      intro u1 u2 hu ws T y1 y2 hy
      rw [cwModel_post, cwModel_post]
      rcases hl with hl | hl <;> cases hl
      · exact cwModel_cross _ m n _ _ (by simp only [cwModel_sat, hu 2 (by simp [crossThrust])]) y1 y2 hy _
      · exact cwModel_plane _ m n _ _ (by simp only [cwModel_sat, hu 0 (by simp [planeThrust])])
          (by simp only [cwModel_sat, hu 1 (by simp [planeThrust])]) y1 y2 hy _)
    hist (r1.congr c1) (r2.congr c2) hp1 hp2 rfl hmeth
    (fun h hh => by
      obtain ⟨u1, u2, a1, a2, a⟩ := hreq h hh
      exact ⟨u1, u2, requests_congr c1 a1, requests_congr c2 a2, a⟩) rfl rfl hs

/-! ## C31 along-track first integral -/

/-- `y' + 2 n x` -/
def Spec.alongTrack (n : K) (s : Fin 6 → K) : K := s 4 + 2 * n * s 0

theorem cwModel_alongTrack (tab : KTab K) (hb : tab.b.sum = 1) (hl : tab.b.length = tab.stages.length + 1) (m n : K) (u : Fin 3 → K)
    (y : Fin 6 → K) (hs : List K) :
    alongTrack n (rkChain tab ((cwModel m n).field u) 0 y hs) = alongTrack n y + u 1 / m * hs.sum := by
  let L : (Fin 6 → K) →ₗ[K] K := LinearMap.proj 4 + (2 * n) • LinearMap.proj 0
  have := rkChain_const_rate tab hb hl ((cwModel m n).field u) L (u 1 / m) (by
    intro t y
    simp [L, cwModel_field]) 0 y hs
  simpa [L, alongTrack] using this

/-- One step of duration `T` changes `y' + 2 n x` by exactly `T / m` times the (saturated) along-track thrust, for Euler and
every Dormand-Prince schedule, from any state and configuration. -/
theorem C31_step (hpi : 0 < R.pi) (env : Env R) (henv : IsRk dopri env) (args : CwhArgs R) (m n : K) (hm : args.m = .fin m)
    (hn : args.n = .fin n) (e0 : Entity R) (h0 : newCwhSpacecraft env args = .ok e0) (hp : PlainMethod e0.dynamics)
    (ops : List (Op R)) (T : K) (a : Action R) (s : Fin 6 → K) (u : Fin 3 → K) (hs : (e0.run env ops).state = toFl s)
    (ha : Asks env (e0.run env ops) a u) (hok : ((e0.run env ops).step env (.fin T) a).outcome = .ok ()) :
    ∃ s' : Fin 6 → K, ((e0.run env ops).step env (.fin T) a).entity.state = toFl s' ∧
      alongTrack n s' = alongTrack n s + min (max (u 1) (-1)) 1 / m * T := by
  have r := (cwhSpacecraft_realised hm hn h0).1
  have hc := run_sameConfig env ops e0
  obtain ⟨tab, hs', h1, h2, -⟩ := (r.congr hc).step henv hpi (plain_congr hc hp) ha (S := fun _ => True) (fun _ _ => trivial)
    (Stable.univ _) hs trivial hok
  rw [cwModel_post] at h2
  refine ⟨_, h2, ?_⟩
  rw [cwModel_alongTrack tab h1.b.1 h1.b.2, h1.sum, cwModel_sat]

/-- Over any history of steps without along-track thrust, whichever of them raise, `y' + 2 n x` is conserved. -/
theorem C31_conserved (hpi : 0 < R.pi) (env : Env R) (henv : IsRk dopri env) (args : CwhArgs R) (m n : K) (hm : args.m = .fin m)
    (hn : args.n = .fin n) (e0 : Entity R) (h0 : newCwhSpacecraft env args = .ok e0) (hp : PlainMethod e0.dynamics)
    (ops : List (Op R)) (s : Fin 6 → K) (hs : (e0.run env ops).state = toFl s) (hist : List (K × Action R))
    (hreq : ∀ h ∈ hist, ∃ u : Fin 3 → K, Asks env (e0.run env ops) h.2 u ∧ u 1 = 0) :
    ∃ s' : Fin 6 → K, ((e0.run env ops).run env (stepsOf hist)).state = toFl s' ∧ alongTrack n s' = alongTrack n s := by
  have r := (cwhSpacecraft_realised hm hn h0).1
  have hc := run_sameConfig env ops e0
  exact Realises.run_inv henv hpi (M := cwModel m n) (fun y => alongTrack n y = alongTrack n s) (fun u => u 1 = 0)
    (S := fun _ => True) (D := ⊤) (fun _ _ => trivial) (fun _ _ => Stable.univ _) (fun _ _ => trivial) (d := (e0.run env ops).dynamics)
    (by
      intro u hu T tab hs y hr hy
      rw [cwModel_post, cwModel_alongTrack tab hr.b.1 hr.b.2, hy, cwModel_sat]
      simp [hu])
    hist (r.congr hc) (plain_congr hc hp) rfl hreq hs rfl

/-! ## C32 relative orbital energy -/

/-- relative orbital energy per unit mass -/
def Spec.cwEnergy (n : K) (s : Fin 6 → K) : K :=
  (s 3 ^ 2 + s 4 ^ 2 + s 5 ^ 2) / 2 - 3 / 2 * n ^ 2 * s 0 ^ 2 + 1 / 2 * n ^ 2 * s 2 ^ 2

/-- Moving along the derivative the spacecraft computes changes the energy at the rate `F · v / m`: to first order in the
time, for every state and thrust, over any exact field. -/
theorem C32_energy_rate (env : Env R) (args : CwhArgs R) (m n : K) (hm : args.m = .fin m) (hn : args.n = .fin n) (e0 : Entity R)
    (h0 : newCwhSpacecraft env args = .ok e0) (t : K) (s : Fin 6 → K) (F : Fin 3 → K) :
    ∃ v : Fin 6 → K, e0.dynamics.computeStateDot (.fin t) (toFl s) (toFl F) = .ok (toFl v) ∧
      ∃ c, ∀ h : K, cwEnergy n (s + h • v) = cwEnergy n s + h * ((F 0 * s 3 + F 1 * s 4 + F 2 * s 5) / m) + h ^ 2 * c := by
  refine ⟨_, C29_equations env args m n hm hn e0 h0 [] t s F, ?_⟩
  refine ⟨((cw m n s F 3) ^ 2 + (cw m n s F 4) ^ 2 + (cw m n s F 5) ^ 2) / 2 - 3 / 2 * n ^ 2 * (s 3) ^ 2 + 1 / 2 * n ^ 2 * (s 5) ^ 2, fun h => ?_⟩
  simp only [cwEnergy, Pi.add_apply, Pi.smul_apply, smul_eq_mul, cw]
  simp [Matrix.cons_val]
  ring

end

/-- Along every exact solution of the computed differential equation (any thrust history `F`), the energy has derivative
`F · v / m`; without thrust it is constant. -/
theorem C32_energy_along_solutions (env : Env realFmt) (args : CwhArgs realFmt) (m n : ℝ) (hm : args.m = .fin m) (hn : args.n = .fin n)
    (e0 : Entity realFmt) (h0 : newCwhSpacecraft env args = .ok e0) (s : ℝ → Fin 6 → ℝ) (F : ℝ → Fin 3 → ℝ)
    (hsol : ∀ t, ∃ v : Fin 6 → ℝ, e0.dynamics.computeStateDot (.fin t) (toFl (s t)) (toFl (F t)) = .ok (toFl v) ∧ HasDerivAt s v t) :
    (∀ t, HasDerivAt (fun t => cwEnergy n (s t)) ((F t 0 * s t 3 + F t 1 * s t 4 + F t 2 * s t 5) / m) t) ∧
    ((∀ t, F t = 0) → ∀ t t', cwEnergy n (s t) = cwEnergy n (s t')) := by
  have hd : ∀ t, HasDerivAt (fun t => cwEnergy n (s t)) ((F t 0 * s t 3 + F t 1 * s t 4 + F t 2 * s t 5) / m) t := by
    intro t
    obtain ⟨v, hv, hs⟩ := hsol t
    have e : v = cw m n (s t) (F t) := by
      have := C29_equations env args m n hm hn e0 h0 [] t (s t) (F t)
      simp only [Entity.run, List.foldl_nil] at this
      rw [hv, Except.ok.injEq] at this
      exact toFl_inj this
    subst e
    rw [hasDerivAt_pi] at hs
    have := (((((hs 3).pow 2).add ((hs 4).pow 2)).add ((hs 5).pow 2)).div_const 2).sub (((hs 0).pow 2).const_mul (3 / 2 * n ^ 2))
      |>.add (((hs 2).pow 2).const_mul (1 / 2 * n ^ 2))
    refine HasDerivAt.congr_deriv (HasDerivAt.congr_of_eventuallyEq this (.of_forall fun t => ?_)) ?_
    · simp [cwEnergy]
    · simp [cw]; ring
  refine ⟨hd, fun h0 t t' => ?_⟩
  apply is_const_of_deriv_eq_zero (fun t => (hd t).differentiableAt)
  intro t
  rw [(hd t).deriv, h0 t]
  simp

section
variable {K : Type} {R : Fmt K} [Field K] [LinearOrder K] [IsStrictOrderedRing K] [FloorRing K] [Exact R]

/-! ## C33 along-track translation and equilibria -/

/-- the state shifted along track by `c` -/
def Spec.shiftY (c : K) (s : Fin 6 → K) : Fin 6 → K := fun i => if i = 1 then s i + c else s i

theorem shiftY_eq (c : K) (s : Fin 6 → K) : shiftY c s = s + c • (Pi.single 1 1 : Fin 6 → K) := by
  funext i
  by_cases h : i = 1
  · subst h; simp [shiftY]
  · simp [shiftY, h]

theorem rkChain_translate {V : Type} [AddCommGroup V] [Module K V] (tab : KTab K) (F : K → V → V) (c : V)
    (hF : ∀ t y, F t (y + c) = F t y) (t : K) (y : V) (hs : List K) : rkChain tab F t (y + c) hs = rkChain tab F t y hs + c := by
  have st : ∀ (st : List (K × List K)) (t h : K) (y : V) (ks : List V), rkStages F t h (y + c) st ks = rkStages F t h y st ks := by
    intro st
    induction st with
    | nil => intros; rfl
    | cons p st ih =>
      intro t h y ks
      obtain ⟨a, row⟩ := p
      simp only [rkStages]
      rw [ih, add_right_comm, hF]
  induction hs generalizing t y with
  | nil => rfl
  | cons h hs ih =>
    simp only [rkChain]
    rw [← ih]
    congr 1
    simp only [rkStep]
    rw [hF, st, add_right_comm]

theorem cwModel_shift (m n c : K) (u : Fin 3 → K) (t : K) (y : Fin 6 → K) :
    (cwModel m n).field u t (y + c • (Pi.single 1 1 : Fin 6 → K)) = (cwModel m n).field u t y := by
  rw [cwModel_field, cwModel_field]
  simp [Pi.single_apply]

/-- Shifting the initial state along track shifts the whole trajectory by the same amount: two spacecraft with the same
parameters given the same thrusts, through any number of steps, by Euler or with any Runge-Kutta schedule for each step (the same for
both). -/
theorem C33_translation (hpi : 0 < R.pi) (env : Env R) (args1 args2 : CwhArgs R) (m n : K) (hm1 : args1.m = .fin m) (hn1 : args1.n = .fin n)
    (hm2 : args2.m = .fin m) (hn2 : args2.n = .fin n) (e1 e2 : Entity R)
    (h1 : newCwhSpacecraft env args1 = .ok e1)
    (h2 : newCwhSpacecraft env args2 = .ok e2)
    (hp1 : PlainMethod e1.dynamics) (hp2 : PlainMethod e2.dynamics)
    (hmeth : e2.dynamics.integrationMethod = e1.dynamics.integrationMethod)
    (s : Fin 6 → K) (c : K) (hist : List (List K × K × Action R × Action R))
    (hreq : ∀ h ∈ hist, ∃ u1 u2 : Fin 3 → K, Asks (scheduled h.1) e1 h.2.2.1 u1 ∧
      Asks (scheduled h.1) e2 h.2.2.2 u2 ∧ u1 = u2) :
    ∃ s' : Fin 6 → K,
      (runScheduled { e1 with state := (toFl s) } (hist.map (fun h => (h.1, h.2.1, h.2.2.1)))).state = toFl s' ∧
      (runScheduled { e2 with state := (toFl (shiftY c s)) } (hist.map (fun h => (h.1, h.2.1, h.2.2.2)))).state
        = toFl (shiftY c s') := by
  have r1 := (cwhSpacecraft_realised hm1 hn1 h1).1
  have r2 := (cwhSpacecraft_realised hm2 hn2 h2).1
  have c1 : SameConfig e1 { e1 with state := toFl s } := ⟨rfl, rfl, rfl, rfl, rfl, rfl⟩
  have c2 : SameConfig e2 { e2 with state := toFl (shiftY c s) } := ⟨rfl, rfl, rfl, rfl, rfl, rfl⟩
  obtain ⟨z1, z2, g1, g2, g3⟩ := Realises.run_pair hpi (M := cwModel m n) (d := e1.dynamics) hp1 (fun a b => b = shiftY c a) (fun a b => a = b)
    (S := fun _ => True) (D := ⊤) (fun _ _ => trivial) (fun _ => Stable.univ _) (fun _ _ _ => ⟨trivial, trivial⟩)
    (by
      rintro u1 u2 rfl ws T y1 y2 rfl
      rw [cwModel_post, cwModel_post, shiftY_eq, shiftY_eq]
      exact rkChain_translate _ _ _ (cwModel_shift m n c _) 0 y1 _)
    hist (r1.congr c1) (r2.congr c2) hp1 hp2 rfl hmeth
    (fun h hh => by
      obtain ⟨u1, u2, a1, a2, a⟩ := hreq h hh
      exact ⟨u1, u2, requests_congr c1 a1, requests_congr c2 a2, a⟩) (y1 := s) (y2 := shiftY c s) rfl rfl rfl
  exact ⟨z1, g1, g3 ▸ g2⟩

/-- Every state `(0, y, 0, 0, 0, 0)` is a fixed point of every zero-thrust step: Euler and every Dormand-Prince schedule. -/
theorem C33_equilibrium (hpi : 0 < R.pi) (env : Env R) (henv : IsRk dopri env) (args : CwhArgs R) (m n : K) (hm : args.m = .fin m)
    (hn : args.n = .fin n) (e0 : Entity R) (h0 : newCwhSpacecraft env args = .ok e0) (hp : PlainMethod e0.dynamics)
    (ops : List (Op R)) (y : K) (hs : (e0.run env ops).state = toFl ![0, y, 0, 0, 0, 0]) (hist : List (K × Action R))
    (hreq : ∀ h ∈ hist, Asks env (e0.run env ops) h.2 (0 : Fin 3 → K)) :
    ((e0.run env ops).run env (stepsOf hist)).state = toFl ![0, y, 0, 0, 0, 0] := by
  have r := (cwhSpacecraft_realised hm hn h0).1
  have hc := run_sameConfig env ops e0
  obtain ⟨z, g1, g2⟩ := Realises.run_inv henv hpi (M := cwModel m n) (fun s => s = ![0, y, 0, 0, 0, 0]) (fun u => u = 0)
    (S := fun _ => True) (D := ⊤) (fun _ _ => trivial) (fun _ _ => Stable.univ _) (fun _ _ => trivial) (d := (e0.run env ops).dynamics)
    (by
      rintro u rfl T tab hs s hr rfl
      rw [cwModel_post]
      refine rkChain_inv tab _ (fun s => s = ![0, y, 0, 0, 0, 0]) ⊥ ?_ ?_ 0 _ hs rfl
      · rintro t z rfl
        rw [Submodule.mem_bot, cwModel_field, cwModel_sat]
        funext i
        fin_cases i <;> simp
      · rintro s d rfl hd
        rw [Submodule.mem_bot] at hd
        simp [hd])
    hist (r.congr hc) (plain_congr hc hp) rfl (fun h hh => ⟨0, hreq h hh, rfl⟩) hs rfl
  rw [g1, g2]

/-- the default action and an empty dict request zero thrust; the hypotheses of C30 - C33 are met by the default spacecraft -/
example : ∃ e1 e2 : Entity ratFmt,
    newCwhSpacecraft (R := ratFmt) (rkEnv dopri (fun _ _ _ => [1, 2])) { m := .fin 12, n := .fin (1027/1000000), kwargs := [("name", .str "a"), ("y", .num (.fin 4))] } = .ok e1 ∧
    newCwhSpacecraft (R := ratFmt) (rkEnv dopri (fun _ _ _ => [1, 2])) { m := .fin 12, n := .fin (1027/1000000), kwargs := [("name", .str "b"), ("z", .num (.fin 7))] } = .ok e2 ∧
    PlainMethod e1.dynamics ∧ Asks (rkEnv dopri (fun _ _ _ => [1, 2])) e1 .none (0 : Fin 3 → ℚ) ∧
    e1.state = toFl ![0, 4, 0, 0, 0, 0] ∧
    Asks (rkEnv dopri (fun _ _ _ => [1, 2])) e2 (.dict [("thrust_z", .fin 5)]) ![0, 0, 5] ∧
    AgreeOn crossState ![1, 2, 3, 4, 5, (6 : ℚ)] ![0, 0, 3, 0, 0, 6] := by
  refine ⟨_, _, rfl, rfl, .inl rfl, asks_iff.2 ⟨.f64, ?_⟩, ?_, asks_iff.2 ⟨.f64, ?_⟩, ?_⟩
  · decide +kernel
  · decide +kernel
  · decide +kernel
  · intro i hi; simp [crossState] at hi; rcases hi with rfl | rfl <;> rfl

/-! ## C34 relative metrics -/

/-- Position of `b` relative to `a`: for entities whose 3-d positions are finite, `b - a`; hence antisymmetric, zero for the
entity itself, and additive along chains. The same for velocities. -/
theorem C34_relative (sim : List (String × (Vec R × Vec R))) (a b c : String) (pa pb pc va vb vc : Fin 3 → K)
    (ha : lookup sim a = some (toFl pa, toFl va)) (hb : lookup sim b = some (toFl pb, toFl vb)) (hc : lookup sim c = some (toFl pc, toFl vc)) :
    (∃ ab ba aa bc ac : Fin 3 → K,
      relativePosition (some sim) (toFl pa) b = .ok (toFl ab) ∧ relativePosition (some sim) (toFl pb) a = .ok (toFl ba) ∧
      relativePosition (some sim) (toFl pa) a = .ok (toFl aa) ∧ relativePosition (some sim) (toFl pb) c = .ok (toFl bc) ∧
      relativePosition (some sim) (toFl pa) c = .ok (toFl ac) ∧ ab = -ba ∧ aa = 0 ∧ ab + bc = ac ∧ ab = pb - pa) ∧
    (∃ ab ba aa bc ac : Fin 3 → K,
      relativeVelocity (some sim) (toFl va) b = .ok (toFl ab) ∧ relativeVelocity (some sim) (toFl vb) a = .ok (toFl ba) ∧
      relativeVelocity (some sim) (toFl va) a = .ok (toFl aa) ∧ relativeVelocity (some sim) (toFl vb) c = .ok (toFl bc) ∧
      relativeVelocity (some sim) (toFl va) c = .ok (toFl ac) ∧ ab = -ba ∧ aa = 0 ∧ ab + bc = ac ∧ ab = vb - va) := by
  have key : ∀ p q : Fin 3 → K, vsub (toFl p : Vec R) (toFl q) = .ok (toFl (p - q)) := by
    intro p q
    unfold vsub
    rw [bcast2_same (by simp)]
    simp [toFl, zipWith_ofFn]
  simp only [relativePosition, relativeVelocity, ha, hb, hc, key]
  exact ⟨⟨_, _, _, _, _, rfl, rfl, rfl, rfl, rfl, by abel, by simp, by abel, rfl⟩,
    ⟨_, _, _, _, _, rfl, rfl, rfl, rfl, rfl, by abel, by simp, by abel, rfl⟩⟩

end

section
variable {K : Type} {R : Fmt K} [Field K] [LinearOrder K]

/-- An unknown name raises `KeyError`, a missing simulator `AttributeError`; a known one never raises for equal lengths. -/
theorem C34_errors (sim : List (String × (Vec R × Vec R))) (name : String) (x : Vec R) :
    ((∀ p, (name, p) ∉ sim) → relativePosition (some sim) x name = .error .keyError ∧ relativeVelocity (some sim) x name = .error .keyError) ∧
    relativePosition none x name = .error .attributeError ∧ relativeVelocity none x name = .error .attributeError := by
  refine ⟨fun h => ?_, rfl, rfl⟩
  have := lookup_none.2 h
  simp [relativePosition, relativeVelocity, this]

end

example : relativePosition (R := ratFmt) (some [("a", ([1, 2, 3], [0, 0, 0])), ("b", ([5, 5, 5], [1, 1, 1]))]) [1, 2, 3] "b" = .ok [4, 3, 2] := by
  decide +kernel

end SAD
