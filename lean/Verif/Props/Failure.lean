import Verif.Lemmas.Base
import Verif.Props.Demo

/-!
# C83: an integration that fails is accepted silently

`solve_ivp` reports failure in `success` and by stopping before the requested time; it does not raise.
-/

set_option linter.unusedSectionVars false

namespace SAD
open Spec
variable {K : Type} {R : Fmt K} [Field K] [LinearOrder K] [FloorRing K]

/-- The two solvers fail alike with an exception, or both answer with the same rows of states; the times and the success flag may
differ. -/
def Spec.SameRows (env env' : Env R) : Prop :=
  env.jaxInstalled = env'.jaxInstalled ∧ env.odeint = env'.odeint ∧
    ∀ f t1 y0 te, (∃ x, env.solveIvp f t1 y0 te = .error x ∧ env'.solveIvp f t1 y0 te = .error x) ∨
      ∃ s s', env.solveIvp f t1 y0 te = .ok s ∧ env'.solveIvp f t1 y0 te = .ok s' ∧ s.y = s'.y

/-- two entities that agree on everything but the stored sample times -/
def Spec.SameButTimes (e e' : Entity R) : Prop :=
  ∃ ts, e' = { e with dynamics := { e.dynamics with trajectoryT := ts } }

theorem rawStep_sameRows {env env' : Env R} (h : SameRows env env') (d : Dyn R) (ts : Option (Vec R)) (dt : Fl R) (x u : Vec R) :
    (∃ ts', ({ d with trajectoryT := ts }.rawStep env' dt x u).1 = { (d.rawStep env dt x u).1 with trajectoryT := ts' }) ∧
      ({ d with trajectoryT := ts }.rawStep env' dt x u).2 = (d.rawStep env dt x u).2 := by
  obtain ⟨-, h2, h3⟩ := h
  obtain ⟨d', hd⟩ : ∃ d', d' = ({ d with trajectoryT := ts } : Dyn R) := ⟨_, rfl⟩
  rw [← hd]
  have g1 : d'.computeStateDot = d.computeStateDot := by subst hd; rfl
  have g2 : d'.computeStateDotJax = d.computeStateDotJax := by subst hd; rfl
  have g3 : d'.tEval = d.tEval := by subst hd; rfl
  have g4 : d'.custom = d.custom := by subst hd; rfl
  have g5 : d'.integrationMethod = d.integrationMethod := by subst hd; rfl
  have g6 : d'.useJax = d.useJax := by subst hd; rfl
  have g7 : d'.trajectorySamples = d.trajectorySamples := by subst hd; rfl
  unfold Dyn.rawStep
  rw [g4]
  cases d.custom with
  | some f => exact ⟨⟨ts, hd⟩, rfl⟩
  | none =>
    simp only [Dyn.odeStep, g1, g2, g3, g5, g6, g7, ← h2]
    split
    · rcases h3 (fun t y => d.computeStateDot t y u) dt x (d.tEval dt) with ⟨x', e1, e2⟩ | ⟨s, s', e1, e2, e3⟩
      · simp only [e1, e2]; exact ⟨⟨ts, hd⟩, trivial⟩
      · simp only [e1, e2, e3]; exact ⟨⟨some s'.t, by subst hd; rfl⟩, trivial⟩
    · split
      · split
        · exact ⟨⟨ts, hd⟩, rfl⟩
        · split <;> exact ⟨⟨ts, hd⟩, rfl⟩
      · split
        · split <;> exact ⟨⟨ts, hd⟩, rfl⟩
        · exact ⟨⟨ts, hd⟩, rfl⟩

theorem dynStep_sameRows {env env' : Env R} (h : SameRows env env') (d : Dyn R) (ts : Option (Vec R)) (dt : Fl R) (x u : Vec R) :
    (∃ ts', ({ d with trajectoryT := ts }.step env' dt x u).1 = { (d.step env dt x u).1 with trajectoryT := ts' }) ∧
      ({ d with trajectoryT := ts }.step env' dt x u).2 = (d.step env dt x u).2 := by
  obtain ⟨⟨ts', h1⟩, h2⟩ := rawStep_sameRows h d ts dt x u
  generalize hr : d.rawStep env dt x u = r at h1 h2
  generalize hr' : ({ d with trajectoryT := ts } : Dyn R).rawStep env' dt x u = r' at h1 h2
  obtain ⟨r1, r2⟩ := r
  obtain ⟨r1', r2'⟩ := r'
  cases h2
  simp only at h1
  subst h1
  unfold Dyn.step
  rw [hr, hr']
  cases r2 <;> exact ⟨⟨ts', rfl⟩, rfl⟩

theorem step_sameRows {env env' : Env R} (h : SameRows env env') {e e' : Entity R} (he : SameButTimes e e') (dt : Fl R) (a : Action R) :
    SameButTimes (e.step env dt a).entity (e'.step env' dt a).entity ∧ (e.step env dt a).outcome = (e'.step env' dt a).outcome ∧
      (e.step env dt a).warned = (e'.step env' dt a).warned := by
  obtain ⟨ts, rfl⟩ := he
  have hres : ({ e with dynamics := { e.dynamics with trajectoryT := ts } } : Entity R).resolve env' a = e.resolve env a := by
    unfold Entity.resolve
    rw [h.1]
  unfold Entity.step
  rw [hres]
  cases e.resolve env a with
  | error x => exact ⟨⟨ts, rfl⟩, rfl, rfl⟩
  | ok r =>
    obtain ⟨ty, u⟩ := r
    simp only
    cases exceeds u (e.controlMin.forDType ty) (e.controlMax.forDType ty) with
    | error x => exact ⟨⟨ts, rfl⟩, rfl, rfl⟩
    | ok w =>
      simp only
      cases npClip u (e.controlMin.forDType ty) (e.controlMax.forDType ty) with
      | error x => exact ⟨⟨ts, rfl⟩, rfl, rfl⟩
      | ok v =>
        simp only
        obtain ⟨⟨ts', h1⟩, h2⟩ := dynStep_sameRows h e.dynamics ts dt e.state v
        generalize e.dynamics.step env dt e.state v = r at h1 h2
        generalize Dyn.step env' { e.dynamics with trajectoryT := ts } dt e.state v = r' at h1 h2
        obtain ⟨r1, r2⟩ := r
        obtain ⟨r1', r2'⟩ := r'
        simp only at h1 h2
        subst h1 h2
        cases r2' <;> exact ⟨⟨ts', rfl⟩, rfl, rfl⟩

/-- The success flag and the times of the solver's answer are never looked at: with two solvers that answer with the same rows,
every history of operations followed by a step gives the same state, derivative, trajectory, configuration, outcome and warning.
Only the stored sample times can differ. -/
theorem C83_failure_ignored (env env' : Env R) (h : SameRows env env') (e : Entity R) (ops : List (Op R)) (dt : Fl R) (a : Action R) :
    SameButTimes (e.run env ops) (e.run env' ops) ∧
      SameButTimes ((e.run env ops).step env dt a).entity ((e.run env' ops).step env' dt a).entity ∧
      ((e.run env ops).step env dt a).outcome = ((e.run env' ops).step env' dt a).outcome ∧
      ((e.run env ops).step env dt a).warned = ((e.run env' ops).step env' dt a).warned := by
  have key : ∀ (ops : List (Op R)) (e e' : Entity R), SameButTimes e e' → SameButTimes (e.run env ops) (e'.run env' ops) := by
    intro ops
    induction ops with
    | nil => intro e e' he; exact he
    | cons o os ih =>
      intro e e' he
      refine ih _ _ ?_
      cases o with
      | step dt a => exact (step_sameRows h he dt a).1
      | setState v => obtain ⟨ts, rfl⟩ := he; exact ⟨ts, rfl⟩
      | setElem i v => obtain ⟨ts, rfl⟩ := he; exact ⟨ts, rfl⟩
  have h0 := key ops e e ⟨e.dynamics.trajectoryT, rfl⟩
  exact ⟨h0, step_sameRows h h0 dt a⟩

/-- a solver that gives up half way -/
def Demo.givesUp {K : Type} {R : Fmt K} [Field K] [LinearOrder K] : Env R where
  jaxInstalled := false
  solveIvp := fun f t1 y0 _ => do
    let k ← f 0 y0
    let y ← vadd y0 (vscale (t1 / 2) k)
    pure ⟨[0, t1 / 2], [y0, y], false⟩
  odeint := Demo.env.odeint

/-- Consequently a step of length 2 whose integration fails at time 1 completes without exception or warning, and reports the state at
time 1 as the state after the step; only the stored times show it. -/
theorem C83_short_step :
    let r := (Demo.entity "RK45" (R := ratFmt)).step Demo.givesUp 2 (.ndarray .f64 [.fin 1, .fin (-1)])
    r.outcome = .ok () ∧ r.warned = false ∧ r.entity.state = [.fin 4, .fin 3] ∧ r.entity.dynamics.trajectoryT = some [.fin 0, .fin 1] ∧
      ((Demo.entity "RK45" (R := ratFmt)).step Demo.env 2 (.ndarray .f64 [.fin 1, .fin (-1)])).entity.state = [.fin 5, .fin 2] := by
  decide +kernel

/-- the hypothesis of `C83_failure_ignored`: the solver that gives up, and one claiming it finished -/
example : SameRows (R := ratFmt) Demo.givesUp
    { Demo.givesUp with solveIvp := fun f t1 y0 te => (Demo.givesUp.solveIvp f t1 y0 te).map (fun s => { s with t := [0, t1], success := true }) } := by
  refine ⟨rfl, rfl, fun f t1 y0 te => ?_⟩
  cases h : Demo.givesUp.solveIvp f t1 y0 te with
  | error x => exact .inl ⟨x, rfl, by simp [h, Except.map]⟩
  | ok s => exact .inr ⟨s, { s with t := [0, t1], success := true }, rfl, by simp [h, Except.map], rfl⟩

end SAD
