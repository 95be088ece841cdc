import Verif.Props.Integrators
import Verif.Props.Cwh
import Verif.Props.Sun
import Verif.Props.Damped
import Verif.Props.Dubins

/-!
# C116: steps of negative duration

`step` does not check its duration. A negative one runs the model backwards in time: this is exact for point masses under RK45 and for the
sun, off by a known amount for Euler's method, and wrong at a limit of the state.
-/

set_option linter.unusedSectionVars false

namespace SAD
open Spec

section
variable {K : Type} {R : Fmt K} [Field K] [LinearOrder K] [IsStrictOrderedRing K] [FloorRing K] [Exact R]

/-- a history of calls, each with the schedule the solver follows in it; and the schedule it will follow when the call is undone -/
abbrev Spec.TwoWay (K : Type) (R : Fmt K) := List (List K × List K × K × Action R)

/-- the calls in their order -/
def Spec.forwards (hist : TwoWay K R) : List (List K × K × Action R) := hist.map fun h => (h.1, h.2.2.1, h.2.2.2)

/-- the calls in the opposite order, each with its duration negated and the same action -/
def Spec.backwards (hist : TwoWay K R) : List (List K × K × Action R) := (hist.map fun h => (h.2.1, -h.2.2.1, h.2.2.2)).reverse

theorem uniform_back {k : Nat} (x v a : Fin k → K) (T : K) :
    uniform (fun i => x i + v i * T + a i * T ^ 2 / 2) (fun i => v i + a i * T) a (-T) = Fin.append x v := by
  unfold uniform
  congr 1
  · funext i; ring
  · funext i; ring

theorem SameConfig.scheduled_step {e0 e : Entity R} (h : SameConfig e0 e) (ws : List K) (T : K) (a : Action R) :
    SameConfig e0 (e.step (scheduled ws) (.fin T) a).entity := SameConfig.trans h (step_sameConfig _ e (.fin T) a)

/-- C116: a history of an undamped point mass under RK45 is undone exactly by making the same calls in the opposite order with negated
durations, whatever the durations, the thrusts asked for and the steps the solver takes on the way there and on the way back. -/
theorem C116_undone (hpi : 0 < R.pi) (env : Env R) (k : Nat) (args : IntegratorArgs R) (m : K) (hm : args.m = .fin m)
    (hc : args.damping = 0) (hr : args.integrationMethod = "RK45") (e0 : Entity R) (h0 : initIntegrator env args k = .ok e0)
    (x v : Fin k → K) (hist : TwoWay K R)
    (hreq : ∀ h ∈ hist, ∃ u : Fin k → K, Asks (scheduled h.1) e0 h.2.2.2 u ∧ Asks (scheduled h.2.1) e0 h.2.2.2 u) :
    (runScheduled { e0 with state := toFl (Fin.append x v) } (forwards hist ++ backwards hist)).state = toFl (Fin.append x v) := by
  obtain ⟨r, r2, -⟩ := integratorEntity_realised hm (hc.trans Fl.zero_fin) h0
  have one : ∀ (e : Entity R), SameConfig e0 e → ∀ (ws : List K) (a : Action R) (u x v : Fin k → K) (T : K), Asks (scheduled ws) e0 a u →
      e.state = toFl (Fin.append x v) →
      (e.step (scheduled ws) (.fin T) a).entity.state = toFl (uniform x v (fun i => min (max (u i) (-1)) 1 / m) T) := by
    intro e hcfg ws a u x v T ha hs
    have h45 : e.dynamics.integrationMethod = "RK45" := by rw [(sameConfig_method hcfg).1, r2, hr]
    have hok := ((r.congr hcfg).step_fixed ws hpi (.inl h45) (requests_congr hcfg ha) (S := fun _ => True) (fun _ _ => trivial)
      (Stable.univ _) hs trivial T).1
    obtain ⟨tab, hs', h1, h2, -⟩ := (r.congr hcfg).step (env := scheduled ws) (rkEnv_isRk _) hpi (.inl h45) (requests_congr hcfg ha) (S := fun _ => True) (fun _ _ => trivial)
      (Stable.univ _) hs trivial hok
    rcases h1.kind with ⟨-, rfl⟩ | ⟨hE, -⟩
    · rw [h2, pointModel_post, pointModel_chain, h1.sum, pointModel_sat]
    · rw [h45] at hE; simp at hE
  have main : ∀ (hist : TwoWay K R), (∀ h ∈ hist, ∃ u : Fin k → K, Asks (scheduled h.1) e0 h.2.2.2 u ∧ Asks (scheduled h.2.1) e0 h.2.2.2 u) →
      ∀ (e : Entity R), SameConfig e0 e → ∀ x v : Fin k → K, e.state = toFl (Fin.append x v) →
        SameConfig e0 (runScheduled e (forwards hist ++ backwards hist)) ∧
        (runScheduled e (forwards hist ++ backwards hist)).state = toFl (Fin.append x v) := by
    intro hist
    induction hist with
    | nil => intro _ e hcfg x v hs; exact ⟨hcfg, hs⟩
    | cons h hist ih =>
      intro hreq e hcfg x v hs
      obtain ⟨u, ha, hb⟩ := hreq h (by simp)
      have g1 := one e hcfg h.1 h.2.2.2 u x v h.2.2.1 ha hs
      obtain ⟨c2, g2⟩ := ih (fun h hh => hreq h (by simp [hh])) _ (SameConfig.scheduled_step hcfg h.1 h.2.2.1 h.2.2.2) _ _ g1
      have g3 := one _ c2 h.2.1 h.2.2.2 u _ _ (-h.2.2.1) hb g2
      rw [uniform_back] at g3
      have hrun : runScheduled e (forwards (h :: hist) ++ backwards (h :: hist))
          = ((runScheduled (e.step (scheduled h.1) (.fin h.2.2.1) h.2.2.2).entity (forwards hist ++ backwards hist)).step (scheduled h.2.1)
            (.fin (-h.2.2.1)) h.2.2.2).entity := by
        simp [forwards, backwards, runScheduled, List.foldl_append]
      rw [hrun]
      exact ⟨SameConfig.scheduled_step c2 _ _ _, g3⟩
  exact (main hist hreq { e0 with state := toFl (Fin.append x v) } ⟨rfl, rfl, rfl, rfl, rfl, rfl⟩ x v rfl).2

/-- C116: with Euler's method a call and the same call with the duration negated restore the velocity of the undamped point mass but leave
the position displaced by the acceleration times the duration squared, against the thrust. -/
theorem C116_euler (hpi : 0 < R.pi) (env : Env R) (k : Nat) (args : IntegratorArgs R) (m : K) (hm : args.m = .fin m)
    (hc : args.damping = 0) (e0 : Entity R) (h0 : initIntegrator env args k = .ok e0) (he : e0.dynamics.integrationMethod = "Euler")
    (hsm : e0.dynamics.trajectorySamples ≤ 0) (x v u : Fin k → K) (hs : e0.state = toFl (Fin.append x v)) (T : K) (a : Action R) (ha : Asks env e0 a u) :
    (e0.run env (stepsOf [(T, a), (-T, a)])).state = toFl (Fin.append (fun i => x i - min (max (u i) (-1)) 1 / m * T ^ 2) v) := by
  obtain ⟨r, -, -⟩ := integratorEntity_realised hm (hc.trans Fl.zero_fin) h0
  have hst := (r.step_euler env hpi he hsm ha (fun _ => trivial) hs T).2
  have hcfg := step_sameConfig env e0 (.fin T) a
  obtain ⟨h6, h7⟩ := sameConfig_method hcfg
  have hst2 := ((r.congr hcfg).step_euler env hpi (h6.trans he) (h7 ▸ hsm) (requests_congr hcfg ha) (fun _ => trivial) hst (-T)).2
  change ((e0.step env (.fin T) a).entity.step env (.fin (-T)) a).entity.state = _
  rw [hst2]
  congr 1
  simp only [pointModel_post, pointModel_field, pointModel_sat]
  funext j
  refine Fin.addCases (fun i => ?_) (fun i => ?_) j
  · simp [-Fin.natAdd_eq_addNat]; ring
  · simp [-Fin.natAdd_eq_addNat]

/-- C116: with Euler's method a coasting spacecraft with the Clohessy-Wiltshire dynamics is left, by a call and the same call with the
duration negated, off its former state by minus the duration squared times the second derivative of the state. -/
theorem C116_cwh (hpi : 0 < R.pi) (env : Env R) (args : CwhArgs R) (m n : K) (hm : args.m = .fin m) (hn : args.n = .fin n) (e0 : Entity R)
    (h0 : newCwhSpacecraft env args = .ok e0) (he : e0.dynamics.integrationMethod = "Euler") (hsm : e0.dynamics.trajectorySamples ≤ 0)
    (s : Fin 6 → K) (hs : e0.state = toFl s) (T : K) (a : Action R) (ha : Asks env e0 a (0 : Fin 3 → K)) :
    (e0.run env (stepsOf [(T, a), (-T, a)])).state = toFl (s - T ^ 2 • cw m n (cw m n s 0) 0) := by
  have r := (cwhSpacecraft_realised hm hn h0).1
  have hst := (r.step_euler env hpi he hsm ha (fun _ => trivial) hs T).2
  have hcfg := step_sameConfig env e0 (.fin T) a
  obtain ⟨h6, h7⟩ := sameConfig_method hcfg
  have hst2 := ((r.congr hcfg).step_euler env hpi (h6.trans he) (h7 ▸ hsm) (requests_congr hcfg ha) (fun _ => trivial) hst (-T)).2
  change ((e0.step env (.fin T) a).entity.step env (.fin (-T)) a).entity.state = _
  rw [hst2]
  congr 1
  have hz : (fun i : Fin 3 => min (max ((0 : Fin 3 → K) i) (-1)) 1) = 0 := by funext i; simp
  simp only [cwModel_post, cwModel_field, cwModel_sat, hz]
  funext j
  simp only [cw, Pi.add_apply, Pi.sub_apply, Pi.smul_apply, smul_eq_mul]
  fin_cases j <;> simp <;> ring

/-- C116: the sun goes back exactly, with either method. -/
theorem C116_sun (hpi : 0 < R.pi) (env : Env R) (henv : IsRk dopri env) (args : SunArgs R) (n : K) (hn : args.n = .fin n)
    (hm : args.integrationMethod = "RK45" ∨ args.integrationMethod = "Euler") (e0 : Entity R) (h0 : newSun env args = .ok e0)
    (θ : K) (hs : e0.state = [.fin θ]) (hist : List (K × Action R)) (hz : elapsed env e0 hist = 0) :
    (e0.run env (stepsOf hist)).state = [.fin θ] := by
  have := C45_motion hpi env henv args n hn hm e0 h0 [] θ hist e0 rfl hs
  rw [this, hz]; simp

/-- C116: at a limit the way back is closed. A level aircraft at its maximal speed whose control does not slow it down stays at that speed
in every call, of positive or negative duration, with either method, although it may have reached the limit by that control. -/
theorem C116_limit (hpi : 0 < R.pi) (env : Env R) (henv : IsRk dopri env) (args : Dubins2dArgs R) (p : Dubins2dParams K) (hp : p.Of args)
    (hv : p.vMin ≤ p.vMax) (e0 : Entity R) (h0 : newDubins2d env args = .ok e0) (hm : PlainMethod e0.dynamics)
    (s : Fin 4 → K) (hs : e0.state = toFl s) (hs3 : s 3 = p.vMax) (hist : List (K × Action R))
    (hreq : ∀ h ∈ hist, ∃ u : Fin 2 → K, Asks env e0 h.2 u ∧ 0 ≤ min (max (u 1) p.accMin) p.accMax) :
    ∃ s' : Fin 4 → K, (e0.run env (stepsOf hist)).state = toFl s' ∧ s' 3 = p.vMax := by
  have r := dubins2d_realised hp h0
  refine Realises.run_inv henv hpi (M := dubins2dModel R p) (fun s => s 3 = p.vMax) (fun u => 0 ≤ min (max (u 1) p.accMin) p.accMax)
    (S := fun _ => True) (D := ⊤) (fun _ _ => trivial) (fun _ _ => Stable.univ _) (fun _ _ => trivial) (d := e0.dynamics) ?_
    hist r hm rfl hreq hs hs3
  intro u hu T tab hs y hr hy
  have key : rkChain tab ((dubins2dModel R p).field ((dubins2dModel R p).sat u)) 0 y hs 3 = p.vMax := by
    refine rkChain_inv tab _ (fun s => s 3 = p.vMax) (LinearMap.ker (LinearMap.proj (R := K) (φ := fun _ : Fin 4 => K) 3)) ?_ ?_ 0 _ hs hy
    · intro t z hz
      rw [LinearMap.mem_ker, LinearMap.proj_apply]
      simp [KModel.field, dubins2dModel, klimit, hz, KModel.sat, kclip]
      simpa using hu
    · intro y d hy hd
      rw [LinearMap.mem_ker, LinearMap.proj_apply] at hd
      rw [Pi.add_apply, hd, hy, add_zero]
  simp [KModel.post, dubins2dModel, kclip, key, hv] at key ⊢

end

/-- A two-dimensional integrator thrusts for three seconds beyond its limit, then for two the other way on one axis: it is somewhere else
by then, and back where it was after the way back, which the solver takes in other steps. -/
example : ∃ e0 : Entity ratFmt,
    initIntegrator (R := ratFmt) Demo.env { m := 2, damping := 0, kwargs := [("name", .str "a"), ("x", .num 1), ("ydot", .num 5)] } 2 = .ok e0 ∧
    e0.state = toFl (Fin.append ![1, 0] ![0, 5]) ∧
    (∀ ws : List ℚ, Asks (scheduled ws) e0 (.ndarray .f64 [.fin 3, .fin (1/2)]) ![3, 1/2] ∧ Asks (scheduled ws) e0 (.ndarray .f64 [.fin (-1), .fin 0]) ![-1, 0]) ∧
    (runScheduled e0 (forwards [([1, 2], [], 3, .ndarray .f64 [.fin 3, .fin (1/2)]), ([], [4], 2, .ndarray .f64 [.fin (-1), .fin 0])])).state
      = [.fin (21/4), .fin (221/8), .fin (1/2), .fin (23/4)] ∧
    (runScheduled e0 (forwards [([1, 2], [], 3, .ndarray .f64 [.fin 3, .fin (1/2)]), ([], [4], 2, .ndarray .f64 [.fin (-1), .fin 0])] ++
      backwards [([1, 2], [], 3, .ndarray .f64 [.fin 3, .fin (1/2)]), ([], [4], 2, .ndarray .f64 [.fin (-1), .fin 0])])).state = e0.state :=
  ⟨_, rfl, by decide +kernel, fun _ => ⟨asks_iff.2 ⟨.f64, rfl⟩, asks_iff.2 ⟨.f64, rfl⟩⟩, by decide +kernel, by decide +kernel⟩

/-- by Euler's method the same integrator comes back 9/2 away from where it was, and a coasting spacecraft elsewhere too -/
example : ∃ e0 : Entity ratFmt,
    initIntegrator (R := ratFmt) Demo.env { m := 2, damping := 0, integrationMethod := "Euler", trajectorySamples := some 0, kwargs := [("name", .str "a"), ("x", .num 1)] } 1 = .ok e0 ∧
    e0.dynamics.integrationMethod = "Euler" ∧ e0.dynamics.trajectorySamples ≤ 0 ∧ e0.state = toFl (Fin.append ![1] ![0]) ∧
    Asks Demo.env e0 (.ndarray .f64 [.fin 3]) ![3] ∧
    (e0.run Demo.env (stepsOf [(3, .ndarray .f64 [.fin 3]), (-3, .ndarray .f64 [.fin 3])])).state = [.fin (-7/2), .fin 0] :=
  ⟨_, rfl, rfl, by decide, by decide +kernel, asks_iff.2 ⟨.f64, rfl⟩, by decide +kernel⟩

example : ∃ e0 : Entity ratFmt,
    newCwhSpacecraft (R := ratFmt) Demo.env { m := 12, n := .fin (1/2), integrationMethod := "Euler", trajectorySamples := some 0, kwargs := [("name", .str "a"), ("x", .num 1)] } = .ok e0 ∧
    e0.dynamics.integrationMethod = "Euler" ∧ e0.dynamics.trajectorySamples ≤ 0 ∧ e0.state = toFl ![1, 0, 0, 0, 0, 0] ∧
    Asks Demo.env e0 .none (0 : Fin 3 → ℚ) ∧
    (e0.run Demo.env (stepsOf [(2, .none), (-2, .none)])).state = [.fin (-2), .fin 0, .fin 0, .fin 0, .fin 3, .fin 0] :=
  ⟨_, rfl, rfl, by decide, by decide +kernel, asks_iff.2 ⟨.f64, by decide +kernel⟩, by decide +kernel⟩

/-- the sun, five seconds on and five seconds back -/
example : ∃ e0 : Entity ratFmt, newSun (rkEnv dopri (fun _ _ _ => [3])) { n := 2, kwargs := [("name", .str "sun"), ("theta", .num 1)] } = .ok e0 ∧
    e0.state = [.fin 1] ∧ elapsed (rkEnv dopri (fun _ _ _ => [3])) e0 [((5 : ℚ), .none), (-5, .none)] = 0 ∧
    (e0.run (rkEnv dopri (fun _ _ _ => [3])) (stepsOf [((5 : ℚ), .none)])).state = [.fin 11] :=
  ⟨_, rfl, by decide +kernel, by decide +kernel, by decide +kernel⟩

/-- An aircraft at 390 accelerates for a second and reaches its maximal speed of 400; going back a second leaves it at 400. -/
example : ∃ e0 : Entity ratFmt, newDubins2d (rkEnv dopri (fun _ _ _ => []))
      { headingRateMin := -1, headingRateMax := 1, accMin := -96, accMax := 96, kwargs := [("name", .str "a"), ("v", .num 390)] } = .ok e0 ∧
    PlainMethod e0.dynamics ∧ Asks (rkEnv dopri (fun _ _ _ => [])) e0 (.ndarray .f64 [.fin 0, .fin 50]) ![0, 50] ∧
    Dubins2dParams.Of (R := ratFmt) ⟨200, 400, -1, 1, -96, 96⟩
      { headingRateMin := -1, headingRateMax := 1, accMin := -96, accMax := 96, kwargs := [("name", .str "a"), ("v", .num 390)] } ∧
    (0 : ℚ) ≤ min (max 50 (-96)) 96 ∧
    (e0.run (rkEnv dopri (fun _ _ _ => [])) (stepsOf [((1 : ℚ), .ndarray .f64 [.fin 0, .fin 50])])).state[3]? = some (.fin 400) ∧
    (e0.run (rkEnv dopri (fun _ _ _ => [])) (stepsOf [((1 : ℚ), .ndarray .f64 [.fin 0, .fin 50]), (-1, .ndarray .f64 [.fin 0, .fin 50])])).state[3]? = some (.fin 400) :=
  ⟨_, rfl, .inl rfl, asks_iff.2 ⟨.f64, rfl⟩, ⟨rfl, rfl, rfl, rfl, rfl, rfl⟩, by decide +kernel, by decide +kernel, by decide +kernel⟩

end SAD
