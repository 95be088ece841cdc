import Verif.Lemmas.Base

/-! # Anatomy of successful ODE steps, for every format and solver -/

set_option linter.unusedSectionVars false

namespace SAD
open Spec

variable {K : Type} {R : Fmt K} [Field K] [LinearOrder K]

theorem rawStep_ode {env : Env R} {d : Dyn R} (hc : d.custom = none) (dt : Fl R) (s u : Vec R) :
    d.rawStep env dt s u = d.odeStep env dt s u := by simp [Dyn.rawStep, hc]

theorem odeStep_euler_ok {env : Env R} {d : Dyn R} (hm : d.integrationMethod = "Euler") {dt : Fl R} {s u next sd : Vec R}
    (h : (d.odeStep env dt s u).2 = .ok (next, sd)) :
    d.trajectorySamples ≤ 0 ∧ d.computeStateDot 0 s u = .ok sd ∧ vadd s (vscale dt sd) = .ok next := by
  unfold Dyn.odeStep at h
  simp only [hm, show ("Euler" = "RK45") = False from by simp, show ("Euler" = "RK45_JAX") = False from by simp,
    if_false, if_true] at h
  split at h
  · cases h
  · rename_i hs
    obtain ⟨sd', h1, h⟩ := Except.bind_ok.1 h
    obtain ⟨next', h2, h⟩ := Except.bind_ok.1 h
    cases h
    exact ⟨by omega, h1, h2⟩

theorem odeStep_rk45_ok {env : Env R} {d : Dyn R} (hm : d.integrationMethod = "RK45") {dt : Fl R} {s u next sd : Vec R}
    (h : (d.odeStep env dt s u).2 = .ok (next, sd)) :
    ∃ sol, env.solveIvp (fun t y => d.computeStateDot t y u) dt s (d.tEval dt) = .ok sol ∧
      sol.y.getLast? = some next ∧ d.computeStateDot dt next u = .ok sd ∧
      (d.odeStep env dt s u).1.trajectory = some sol.y ∧ (d.odeStep env dt s u).1.trajectoryT = some sol.t := by
  unfold Dyn.odeStep at h ⊢
  simp only [hm, if_true] at h ⊢
  split at h
  · cases h
  · rename_i sol hsol
    obtain ⟨next', h1, h⟩ := Except.bind_ok.1 h
    obtain ⟨sd', h2, h⟩ := Except.bind_ok.1 h
    cases h
    refine ⟨sol, hsol, ?_, h2, ?_, ?_⟩
    · unfold lastRow at h1
      split at h1
      · rename_i r hr; cases h1; exact hr
      · cases h1
    · simp [hsol]
    · simp [hsol]

theorem odeStep_jax_ok {env : Env R} {d : Dyn R} (hm : d.integrationMethod = "RK45_JAX") {dt : Fl R}
    {s u next sd : Vec R} (h : (d.odeStep env dt s u).2 = .ok (next, sd)) :
    d.useJax = true ∧ d.trajectorySamples ≤ 0 ∧ ∃ rows, env.odeint (fun t y => d.rhs t y u) s dt = .ok rows ∧
      rows.getLast? = some next ∧ d.computeStateDot dt next u = .ok sd := by
  unfold Dyn.odeStep at h
  simp only [hm, show ("RK45_JAX" = "RK45") = False from by simp, if_false, if_true] at h
  split at h
  · cases h
  · rename_i hj
    split at h
    · cases h
    · rename_i hs
      obtain ⟨rows, h0, h⟩ := Except.bind_ok.1 h
      obtain ⟨next', h1, h⟩ := Except.bind_ok.1 h
      obtain ⟨sd', h2, h⟩ := Except.bind_ok.1 h
      cases h
      refine ⟨by simpa using hj, by omega, rows, h0, ?_, h2⟩
      unfold lastRow at h1
      split at h1
      · rename_i r hr; cases h1; exact hr
      · cases h1

variable [FloorRing K]

theorem dynStep_parts {env : Env R} {d : Dyn R} {dt : Fl R} {s u s' sd : Vec R}
    (h : (d.step env dt s u).2 = .ok (s', sd)) :
    ∃ next c, (d.rawStep env dt s u).2 = .ok (next, sd) ∧ npClip next d.stateMin d.stateMax = .ok c ∧
      d.wrapAngles c = .ok s' := by
  unfold Dyn.step at h
  simp only at h
  obtain ⟨⟨next, sd0⟩, h1, h2⟩ := Except.bind_ok.1 h
  obtain ⟨nc, h3, h4⟩ := Except.bind_ok.1 h2
  obtain ⟨nw, h5, h6⟩ := Except.bind_ok.1 h4
  cases h6
  exact ⟨next, nc, h1, h3, h5⟩

theorem dynStep_of_error {env : Env R} {d : Dyn R} {dt : Fl R} {s u : Vec R} {x : PyErr}
    (h : (d.rawStep env dt s u).2 = .error x) : (d.step env dt s u).2 = .error x := by
  unfold Dyn.step
  simp only
  rw [h]; rfl

/-- the applied control of a step whose action resolves and has fitting limits -/
theorem step_of_dynError {env : Env R} {e : Entity R} {dt : Fl R} {a : Action R} {ty : DType} {u : Vec R} {w : Bool}
    {v : Vec R} {x : PyErr} (h1 : e.resolve env a = .ok (ty, u))
    (h2 : exceeds u (e.controlMin.forDType ty) (e.controlMax.forDType ty) = .ok w)
    (h3 : npClip u (e.controlMin.forDType ty) (e.controlMax.forDType ty) = .ok v)
    (h4 : (e.dynamics.step env dt e.state v).2 = .error x) : (e.step env dt a).outcome = .error x := by
  unfold Entity.step
  simp only [h1, h2, h3]
  cases hd : e.dynamics.step env dt e.state v with
  | mk d r =>
    rw [hd] at h4
    simp only at h4
    subst h4
    rfl

end SAD
