import Verif.Lemmas.Solver
import Verif.Lemmas.Flow
import Verif.Lemmas.Wrap
import Verif.Lemmas.Applied
import Verif.Model.Binary
import Verif.Props.Demo

/-!
# C15 - C20: integration methods, trajectories, zero steps, JAX
-/

set_option linter.unusedSectionVars false

namespace SAD
open Spec

section anyFormat
variable {K : Type} {R : Fmt K} [Field K] [LinearOrder K] [FloorRing K]

/-! ## C15 Euler -/

/-- A successful Euler step with applied control `v`: the reported derivative is the model's at the start state, and every
unwrapped element of the new state is `state + dt * state_dot` saturated to the state limits. -/
theorem C15_euler_step (env : Env R) (e : Entity R) (dt : Fl R) (a : Action R) (hc : e.dynamics.custom = none)
    (hm : e.dynamics.integrationMethod = "Euler") (hok : (e.step env dt a).outcome = .ok ()) :
    ∃ v, Applied env e a v ∧
      e.dynamics.computeStateDot 0 e.state v = .ok (e.step env dt a).entity.stateDot ∧
      ∀ i x', (e.step env dt a).entity.state[i]? = some x' → NotWrapped e.dynamics i →
        ∃ x sd lo hi, bget e.state i = some x ∧ bget (e.step env dt a).entity.stateDot i = some sd ∧
          e.dynamics.stateMin.at i = some lo ∧ e.dynamics.stateMax.at i = some hi ∧
          (lo ≤ x + dt * sd → x + dt * sd ≤ hi → x' = x + dt * sd) ∧
          (lo ≤ hi → x + dt * sd ≠ .nan → Saturated lo hi (x + dt * sd) x') := by
  obtain ⟨ty, u, v, d, s, sd, h1, h2, h3, h4⟩ := step_ok hok
  have h5 : (e.dynamics.step env dt e.state v).2 = .ok (s, sd) := by rw [h3]
  obtain ⟨next, h6, hel⟩ := dynStep_ok h5
  rw [rawStep_ode hc] at h6
  obtain ⟨-, h7, h8⟩ := odeStep_euler_ok hm h6
  refine ⟨v, applied_of h1 h2, by rw [h4]; exact h7, ?_⟩
  intro i x' hx' hw
  rw [h4] at hx' ⊢
  obtain ⟨y, lo, hi, g1, g2, g3, g4, -⟩ := hel i x' (bget_of_get hx')
  obtain ⟨x, k, k1, k2, rfl⟩ := bcast2_bget h8 g1
  rw [vscale, bget_map] at k2
  cases hsd : bget sd i with
  | none => simp [hsd] at k2
  | some z =>
    simp [hsd] at k2
    subst k2
    refine ⟨x, z, lo, hi, k1, rfl, g2, g3, fun a b => by rw [g4 hw]; exact Fl.clip_mem a b, fun hle hx => ?_⟩
    rw [g4 hw]
    exact clip_saturated hle

/-- a growing system `x' = x` -/
def Demo.growth (method : String) : Entity b64 :=
  let d : Dyn b64 := { Demo.dyn method with stateMax := .scalar (.fin 100), rhs := fun _ s _ => .ok s }
  { Demo.entity method with dynamics := d, state := [.fin 1] }

/-- The documentation promises the derivative at the end of the step; with Euler it is the one at the start. -/
theorem C15_not_end_derivative :
    ((Demo.growth "Euler").step Demo.env 1 .none).entity.state = [.fin 2] ∧
    ((Demo.growth "Euler").step Demo.env 1 .none).entity.stateDot = [.fin 1] ∧
    (Demo.growth "Euler").dynamics.computeStateDot 1 [.fin 2] [.fin 0, .fin 0] = .ok [.fin 2] := by
  decide +kernel

/-! ## C16 RK45 -/

/-- A successful RK45 step with applied control `v`, for every solver: with `yf` the last row of the solver's answer, the
reported derivative is `compute_state_dot(dt, yf, v)`; the new state is `yf` clipped to the limits and wrapped. -/
theorem C16_rk45_step (env : Env R) (e : Entity R) (dt : Fl R) (a : Action R) (hc : e.dynamics.custom = none)
    (hm : e.dynamics.integrationMethod = "RK45") (hok : (e.step env dt a).outcome = .ok ()) :
    ∃ v sol yf, Applied env e a v ∧
      env.solveIvp (fun t y => e.dynamics.computeStateDot t y v) dt e.state (e.dynamics.tEval dt) = .ok sol ∧
      sol.y.getLast? = some yf ∧
      e.dynamics.computeStateDot dt yf v = .ok (e.step env dt a).entity.stateDot ∧
      (∃ c, ClippedTo e.dynamics.stateMin e.dynamics.stateMax yf c ∧
        e.dynamics.wrapAngles c = .ok (e.step env dt a).entity.state) ∧
      (∀ i x', (e.step env dt a).entity.state[i]? = some x' → NotWrapped e.dynamics i →
        ∃ x lo hi, bget yf i = some x ∧ e.dynamics.stateMin.at i = some lo ∧ e.dynamics.stateMax.at i = some hi ∧
          (lo ≤ hi → x ≠ .nan → Saturated lo hi x x')) := by
  obtain ⟨ty, u, v, d, s, sd, h1, h2, h3, h4⟩ := step_ok hok
  have h5 : (e.dynamics.step env dt e.state v).2 = .ok (s, sd) := by rw [h3]
  obtain ⟨next, c, h6, h7, h8⟩ := dynStep_parts h5
  obtain ⟨next', h6', hel⟩ := dynStep_ok h5
  rw [h6] at h6'
  cases h6'
  rw [rawStep_ode hc] at h6
  obtain ⟨sol, g1, g2, g3, -, -⟩ := odeStep_rk45_ok hm h6
  refine ⟨v, sol, next, applied_of h1 h2, g1, g2, by rw [h4]; exact g3, ⟨c, npClip_iff.1 h7, by rw [h4]; exact h8⟩, ?_⟩
  intro i x' hx' hw
  rw [h4] at hx'
  obtain ⟨x, lo, hi, k1, k2, k3, k4, -⟩ := hel i x' (bget_of_get hx')
  refine ⟨x, lo, hi, k1, k2, k3, fun hle hx => ?_⟩
  rw [k4 hw]
  exact clip_saturated hle

/-- a system `x' = 1, z' = x` with `x` limited to 10 -/
def Demo.limited (method : String) : Entity b64 :=
  let d : Dyn b64 := { Demo.dyn method with
    stateMax := .vec [.fin 10, .fin 100]
    rhs := fun _ s _ => match s with | [x, _] => .ok [.fin 1, x] | _ => .error .valueError }
  { Demo.entity method with dynamics := d, state := [.fin (19 / 2), .fin 0] }

/-- So when the final state is outside its limits, the reported derivative is not the one of the reported state: here the
reported state is (10, 9.5) and the reported derivative (0, 10.5), while the derivative at the reported state is (0, 10). -/
theorem C16_not_derivative_of_reported_state :
    ((Demo.limited "RK45").step Demo.env 1 .none).entity.state = [.fin 10, .fin (19 / 2)] ∧
    ((Demo.limited "RK45").step Demo.env 1 .none).entity.stateDot = [.fin 0, .fin (21 / 2)] ∧
    (Demo.limited "RK45").dynamics.computeStateDot 1 [.fin 10, .fin (19 / 2)] [.fin 0, .fin 0] = .ok [.fin 0, .fin 10] := by
  decide +kernel

/-! ## C17 dispatch -/

/-- A step of ODE dynamics can succeed only with one of the three methods, under their conditions. -/
theorem C17_supported_methods (env : Env R) (e : Entity R) (dt : Fl R) (a : Action R) (hc : e.dynamics.custom = none)
    (hok : (e.step env dt a).outcome = .ok ()) :
    e.dynamics.integrationMethod = "RK45" ∨
    (e.dynamics.integrationMethod = "RK45_JAX" ∧ e.dynamics.useJax = true ∧ e.dynamics.trajectorySamples ≤ 0) ∨
    (e.dynamics.integrationMethod = "Euler" ∧ e.dynamics.trajectorySamples ≤ 0) := by
  obtain ⟨ty, u, v, d, s, sd, h1, h2, h3, h4⟩ := step_ok hok
  have h5 : (e.dynamics.step env dt e.state v).2 = .ok (s, sd) := by rw [h3]
  obtain ⟨next, h6, -⟩ := dynStep_ok h5
  rw [rawStep_ode hc] at h6
  by_cases m1 : e.dynamics.integrationMethod = "RK45"
  · exact .inl m1
  · by_cases m2 : e.dynamics.integrationMethod = "RK45_JAX"
    · obtain ⟨g1, g2, -⟩ := odeStep_jax_ok m2 h6
      exact .inr (.inl ⟨m2, g1, g2⟩)
    · by_cases m3 : e.dynamics.integrationMethod = "Euler"
      · exact .inr (.inr ⟨m3, (odeStep_euler_ok m3 h6).1⟩)
      · unfold Dyn.odeStep at h6
        simp [m1, m2, m3] at h6

/-- With any other method string a step raises, and leaves the entity exactly as it was; if the action is acceptable the
exception is `ValueError`. Likewise `RK45_JAX` without `use_jax`, and (with `AssertionError`) trajectory sampling with
`Euler` or `RK45_JAX`. -/
theorem C17_unsupported_method (env : Env R) (e : Entity R) (dt : Fl R) (a : Action R) (hc : e.dynamics.custom = none)
    (x : PyErr)
    (hbad : (e.dynamics.integrationMethod ≠ "RK45" ∧ e.dynamics.integrationMethod ≠ "RK45_JAX" ∧
        e.dynamics.integrationMethod ≠ "Euler" ∧ x = .valueError) ∨
      (e.dynamics.integrationMethod = "RK45_JAX" ∧ e.dynamics.useJax = false ∧ x = .valueError) ∨
      (e.dynamics.integrationMethod = "RK45_JAX" ∧ e.dynamics.useJax = true ∧ 0 < e.dynamics.trajectorySamples ∧
        x = .assertionError) ∨
      (e.dynamics.integrationMethod = "Euler" ∧ 0 < e.dynamics.trajectorySamples ∧ x = .assertionError)) :
    (e.step env dt a).entity = e ∧ (∃ y, (e.step env dt a).outcome = .error y) ∧
    (∀ v, Applied env e a v → (e.step env dt a).outcome = .error x) := by
  have key : ∀ s v, e.dynamics.odeStep env dt s v = (e.dynamics, .error x) := by
    intro s v
    unfold Dyn.odeStep
    rcases hbad with ⟨m1, m2, m3, rfl⟩ | ⟨m1, m2, rfl⟩ | ⟨m1, m2, m3, rfl⟩ | ⟨m1, m2, rfl⟩
    · simp [m1, m2, m3]
    · simp [m1, m2]
    · simp [m1, m2, m3]
    · simp [m1, m2]
  have key2 : ∀ s v, e.dynamics.step env dt s v = (e.dynamics, .error x) := by
    intro s v
    unfold Dyn.step
    rw [rawStep_ode hc, key]
    rfl
  refine ⟨?_, ?_, ?_⟩
  · unfold Entity.step
    split
    · rfl
    · simp only [key2]
      split
      · rfl
      · split <;> rfl
  · unfold Entity.step
    split
    · exact ⟨_, rfl⟩
    · simp only [key2]
      split
      · exact ⟨_, rfl⟩
      · split
        · exact ⟨_, rfl⟩
        · exact ⟨_, rfl⟩
  · intro v hv'
    obtain ⟨ty, u, hr, hv⟩ := applied_iff.1 hv'
    obtain ⟨w, hw⟩ := exceeds_of_npClip hv
    exact step_of_dynError hr hw hv (by rw [key2])

/-- Construction with `use_jax` and no jax raises `ImportError`, whatever the other arguments (given an `int` sample count,
which is checked first); otherwise it succeeds, for every method string. -/
theorem C17_construction (env : Env R) (args : DynArgs R) (rhs : Fl R → Vec R → Vec R → Py (Vec R)) :
    (args.trajectorySamples = none → mkOdeDyn env args rhs = .error .assertionError) ∧
    (args.trajectorySamples ≠ none → args.useJax = true → env.jaxInstalled = false →
      mkOdeDyn env args rhs = .error .importError) ∧
    (args.trajectorySamples ≠ none → (args.useJax = true → env.jaxInstalled = true) →
      ∃ d, mkOdeDyn env args rhs = .ok d ∧ d.integrationMethod = args.integrationMethod ∧ d.trajectory = none) := by
  refine ⟨fun h => by simp [mkOdeDyn, h], ?_, ?_⟩
  · intro h h1 h2
    cases hs : args.trajectorySamples with
    | none => exact absurd hs h
    | some n => simp [mkOdeDyn, hs, h1, h2]
  · intro h h1
    cases hs : args.trajectorySamples with
    | none => exact absurd hs h
    | some n =>
      have : ¬ (args.useJax = true ∧ env.jaxInstalled = false) := by
        rintro ⟨a, b⟩; rw [h1 a] at b; cases b
      simp only [mkOdeDyn, hs, this, if_false]
      exact ⟨_, rfl, rfl, rfl⟩

example : ((Demo.entity (R := b64) "rk45").step Demo.env 1 (.list [1, 1])).outcome = .error .valueError ∧
    ((Demo.entity (R := b64) "RK45_JAX").step Demo.env 1 (.list [1, 1])).outcome = .error .valueError ∧
    ((Demo.entity (R := b64) "RK45").step Demo.env 1 (.list [1, 1])).outcome = .ok () := by decide +kernel

/-! ## C18 trajectory sampling -/

/-- With `trajectory_samples = n > 0`, a successful RK45 step with applied control `v` asked the solver for `n` sample times, the
last being exactly `dt`, and stores the solver's answer, whose last row `yf` is the one the new state is computed from. -/
theorem C18_trajectory_stored (env : Env R) (e : Entity R) (dt : Fl R) (a : Action R) (hc : e.dynamics.custom = none)
    (hm : e.dynamics.integrationMethod = "RK45") (hn : 0 < e.dynamics.trajectorySamples)
    (hok : (e.step env dt a).outcome = .ok ()) :
    ∃ v ts sol yf c, Applied env e a v ∧
      env.solveIvp (fun t y => e.dynamics.computeStateDot t y v) dt e.state (some ts) = .ok sol ∧
      (∀ k, k < ts.length → ∀ x, ts[k]? = some x →
        x = if k + 1 = ts.length then dt else .fin ((k + 1 : Nat) : K) * (dt / .fin (ts.length : K))) ∧
      (ts.length : Int) = e.dynamics.trajectorySamples ∧ ts.getLast? = some dt ∧
      (e.step env dt a).entity.dynamics.trajectory = some sol.y ∧
      (e.step env dt a).entity.dynamics.trajectoryT = some sol.t ∧
      sol.y.getLast? = some yf ∧ ClippedTo e.dynamics.stateMin e.dynamics.stateMax yf c ∧
      e.dynamics.wrapAngles c = .ok (e.step env dt a).entity.state := by
  obtain ⟨ty, u, v, d, s, sd, h1, h2, h3, h4⟩ := step_ok hok
  have h5 : (e.dynamics.step env dt e.state v).2 = .ok (s, sd) := by rw [h3]
  obtain ⟨next, c, h6, h7, h8⟩ := dynStep_parts h5
  have h9 : d = (e.dynamics.odeStep env dt e.state v).1 := by
    have := dynStep_fst env e.dynamics dt e.state v
    rw [h3, rawStep_ode hc] at this
    exact this
  rw [rawStep_ode hc] at h6
  obtain ⟨sol, g1, g2, g3, g4, g5⟩ := odeStep_rk45_ok hm h6
  have hte : e.dynamics.tEval dt = some (linspaceTail dt e.dynamics.trajectorySamples.toNat) := by
    simp [Dyn.tEval, hn]
  rw [hte] at g1
  refine ⟨v, _, sol, next, c, applied_of h1 h2, g1, ?_, ?_, ?_, ?_, ?_, g2, npClip_iff.1 h7, by rw [h4]; exact h8⟩
  · intro k hk x hx
    have hl : (linspaceTail dt e.dynamics.trajectorySamples.toNat).length = e.dynamics.trajectorySamples.toNat := by simp [linspaceTail]
    rw [hl] at hk ⊢
    rw [linspaceTail, List.getElem?_map, List.getElem?_range hk] at hx
    exact (Option.some.inj hx).symm
  · simp [linspaceTail]; omega
  · obtain ⟨m, hm'⟩ : ∃ m, e.dynamics.trajectorySamples.toNat = m + 1 :=
      ⟨e.dynamics.trajectorySamples.toNat - 1, by omega⟩
    simp [linspaceTail, hm', List.range_succ]
  · rw [h4, ← g4, ← h9]
  · rw [h4, ← g5, ← h9]

/-- Euler and JAX steps leave a stored trajectory as it was (stale). -/
theorem C18_stale_trajectory (env : Env R) (e : Entity R) (dt : Fl R) (a : Action R) (hc : e.dynamics.custom = none)
    (hm : e.dynamics.integrationMethod ≠ "RK45") :
    (e.step env dt a).entity.dynamics = e.dynamics := by
  have key : ∀ v, (e.dynamics.step env dt e.state v).1 = e.dynamics := by
    intro v
    rw [dynStep_fst, rawStep_ode hc]
    unfold Dyn.odeStep
    simp only [hm, if_false]
    split
    · split
      · rfl
      · split <;> rfl
    · split
      · split <;> rfl
      · rfl
  unfold Entity.step
  split
  · rfl
  · simp only
    split
    · rfl
    · split
      · rfl
      · rename_i v _
        have := key v
        split
        · rename_i d x hd; rw [hd] at this; exact this
        · rename_i d s sd hd; rw [hd] at this; exact this

end anyFormat

section exact
variable {K : Type} {R : Fmt K} [Field K] [LinearOrder K] [IsStrictOrderedRing K] [FloorRing K] [Exact R]

/-- The `k`-th sample time (`k = 1..n`) is `k * dt / n`; so the times are strictly increasing when `dt > 0`. -/
theorem C18_sample_times (T : K) (n k : Nat) (hn : 0 < n) (hk : k < n) :
    (linspaceTail (.fin T : Fl R) n)[k]? = some (.fin ((k + 1 : Nat) * T / n)) := by
  have hn' : (n : K) ≠ 0 := by exact_mod_cast hn.ne'
  have hk' : (List.range n)[k]? = some k := by rw [List.getElem?_range hk]
  unfold linspaceTail
  rw [List.getElem?_map, hk']
  simp only [Option.map_some, Option.some.injEq]
  split
  · rename_i h
    rw [h]; congr 1; field_simp
  · rw [Fl.fin_div_fin _ _ hn', Fl.fin_mul_fin]; congr 1; ring

theorem C18_sample_times_increasing (T : K) (hT : 0 < T) (n k l : Nat) (hkl : k < l) (hl : l < n) :
    ∃ a b, (linspaceTail (.fin T : Fl R) n)[k]? = some a ∧ (linspaceTail (.fin T : Fl R) n)[l]? = some b ∧
      0 < a ∧ a < b ∧ b ≤ .fin T := by
  have hn : 0 < n := by omega
  have hn' : (0 : K) < n := by exact_mod_cast hn
  refine ⟨_, _, C18_sample_times T n k hn (by omega), C18_sample_times T n l hn hl, ?_, ?_, ?_⟩
  · rw [Fl.zero_fin, Fl.fin_lt_fin]; positivity
  · rw [Fl.fin_lt_fin]
    apply div_lt_div_of_pos_right _ hn'
    apply mul_lt_mul_of_pos_right _ hT
    exact_mod_cast (by omega : k + 1 < l + 1)
  · rw [Fl.fin_le_fin, div_le_iff₀ hn', mul_comm]
    apply mul_le_mul_of_nonneg_left _ hT.le
    exact_mod_cast (by omega : l + 1 ≤ n)

/-- In exact arithmetic the times a successful sampled RK45 step of duration `T` passes to the solver are `T/n, 2T/n, ..., T`, for the right-hand
side `compute_state_dot` with the applied control `v`. -/
theorem C18_sampled_step (env : Env R) (e : Entity R) (T : K) (a : Action R) (hc : e.dynamics.custom = none)
    (hm : e.dynamics.integrationMethod = "RK45") (n : Nat) (hn : 0 < n) (hs : e.dynamics.trajectorySamples = n)
    (hok : (e.step env (.fin T) a).outcome = .ok ()) :
    ∃ v sol, Applied env e a v ∧
      env.solveIvp (fun t y => e.dynamics.computeStateDot t y v) (.fin T) e.state
        (some ((List.range n).map (fun k => .fin ((k + 1 : Nat) * T / n)))) = .ok sol ∧
      (e.step env (.fin T) a).entity.dynamics.trajectory = some sol.y ∧ (e.step env (.fin T) a).entity.dynamics.trajectoryT = some sol.t := by
  obtain ⟨v, ts, sol, yf, c, h1, h3, h4, h5, -, h6, h7, -⟩ := C18_trajectory_stored env e (.fin T) a hc hm (by omega) hok
  refine ⟨v, sol, h1, ?_, h6, h7⟩
  rw [← h3]
  congr 2
  have hl : ts.length = n := by omega
  have hn' : (n : K) ≠ 0 := by exact_mod_cast hn.ne'
  apply List.ext_getElem?
  intro k
  by_cases hk : k < n
  · have hk' : k < ts.length := by omega
    have hv := h4 k hk' ts[k] (List.getElem?_eq_getElem hk')
    rw [List.getElem?_map, List.getElem?_range hk, List.getElem?_eq_getElem hk', hv, hl]
    simp only [Option.map_some, Option.some.injEq]
    split
    · rename_i h
      rw [h]; congr 1; field_simp
    · rw [Fl.fin_div_fin _ _ hn', Fl.fin_mul_fin]; congr 1; ring
  · rw [List.getElem?_eq_none (by simp; omega), List.getElem?_eq_none (by omega)]

/-- a sampled entity whose step succeeds -/
example : ({ Demo.entity (R := ratFmt) "RK45" with dynamics := { Demo.dyn "RK45" with trajectorySamples := 3 } }.step
    (rkEnv dopri (fun _ _ _ => [])) 1 (.list [1, 1])).outcome = .ok () := by decide +kernel

example : linspaceTail (.fin 1 : Fl ratFmt) 4 = [.fin (1 / 4), .fin (1 / 2), .fin (3 / 4), .fin 1] := by decide +kernel

/-! ## C19 zero-duration steps -/

/-- steps of size 0 change nothing -/
theorem rkChain_zero {V : Type} [AddCommGroup V] [Module K V] (tab : KTab K) (F : K → V → V) (t : K) (y : V) (hs : List K)
    (h : ∀ x ∈ hs, x = 0) : rkChain tab F t y hs = y := by
  induction hs generalizing t y with
  | nil => rfl
  | cons x hs ih =>
    have hx := h x (by simp)
    subst hx
    simp only [rkChain]
    rw [ih _ _ (fun z hz => h z (by simp [hz]))]
    simp [rkStep]

/-- The raw step of duration 0 returns the start state, for Euler and for every Dormand-Prince schedule, for every model
with finite derivatives. -/
theorem rawStep_zero {n : Nat} (env : Env R) (henv : IsRk dopri env) (d : Dyn R) (hc : d.custom = none)
    (hm : PlainMethod d) (u : Vec R) (F : K → (Fin n → K) → (Fin n → K))
    (hF : ∀ t y, d.computeStateDot (.fin t) (toFl y) u = .ok (toFl (F t y))) (y : Fin n → K) (next sd : Vec R)
    (h : (d.rawStep env (.fin 0) (toFl y) u).2 = .ok (next, sd)) : next = toFl y := by
  rcases hm with hm | ⟨hm, hs⟩
  · obtain ⟨hs, -, h1, h2, h3, -⟩ := rawStep_rk45 henv hc hm (F := F) (fun t y _ => hF t y) (Stable.univ F) trivial h
    rw [h3, rkChain_zero]
    intro x hx
    exact le_antisymm (h2 (le_refl _) x hx) (h1 (le_refl _) x hx)
  · rw [rawStep_euler (S := fun _ => True) env hc hm hs (F := F) (fun t y _ => hF t y) 0 y trivial] at h
    cases h
    simp

/-- A successful step of duration 0 leaves every element unchanged that is within its limits and, if wrapped, has centre 0
and lies in `[-pi, pi)`. -/
theorem C19_zero_step (hpi : 0 < R.pi) {n : Nat} (env : Env R) (henv : IsRk dopri env) (e : Entity R) (a : Action R)
    (hc : e.dynamics.custom = none) (hm : PlainMethod e.dynamics) (y : Fin n → K) (he : e.state = toFl y)
    (F : K → (Fin n → K) → (Fin n → K))
    (hF : ∀ t y v, Applied env e a v →
      e.dynamics.computeStateDot (.fin t) (toFl y) v = .ok (toFl (F t y)))
    (hok : (e.step env (.fin 0) a).outcome = .ok ()) (i : Nat) (x' : Fl R)
    (hx' : (e.step env (.fin 0) a).entity.state[i]? = some x')
    (hlim : ∀ x lo hi, bget e.state i = some x → e.dynamics.stateMin.at i = some lo → e.dynamics.stateMax.at i = some hi →
      Within lo hi x)
    (hwrap : NotWrapped e.dynamics i ∨
      (WrappedAt e.dynamics i (.fin 0) ∧ ∃ x, bget e.state i = some (.fin x) ∧ -R.pi ≤ x ∧ x < R.pi)) :
    bget e.state i = some x' := by
  obtain ⟨ty, u, v, d, s, sd, h1, h2, h3, h4⟩ := step_ok hok
  rw [h4] at hx'
  have h5 : (e.dynamics.step env (.fin 0) e.state v).2 = .ok (s, sd) := by rw [h3]
  obtain ⟨next, h6, hel⟩ := dynStep_ok h5
  have hn : next = e.state := by
    rw [he] at h6 ⊢
    exact rawStep_zero env henv e.dynamics hc hm v F (fun t y => hF t y v (applied_of h1 h2)) y next sd h6
  subst hn
  obtain ⟨x, lo, hi, g1, g2, g3, g4, g5⟩ := hel i x' (bget_of_get hx')
  have hwi := hlim x lo hi g1 g2 g3
  rcases hwrap with hw | ⟨hw, z, hz, hz1, hz2⟩
  · rw [g4 hw, Fl.clip_mem hwi.1 hwi.2, g1]
  · rw [g5 _ hw, Fl.clip_mem hwi.1 hwi.2, g1]
    rw [g1] at hz
    cases hz
    rw [wrapElem_exact hpi]
    have : ⌊(z + R.pi) / (2 * R.pi)⌋ = 0 := by
      rw [Int.floor_eq_zero_iff]
      constructor
      · apply div_nonneg <;> linarith
      · rw [div_lt_one (by linarith)]; linarith
    rw [this]; simp

/-- the hypotheses are met by the demo entity, for both methods -/
example : IsRk dopri (rkEnv (R := ratFmt) dopri (fun _ _ _ => [1, 2])) ∧
    ((Demo.entity (R := ratFmt) "RK45").step (rkEnv dopri (fun _ _ _ => [1, 2])) 0 (.list [1, 1])).outcome = .ok () ∧
    ((Demo.entity (R := ratFmt) "RK45").step (rkEnv dopri (fun _ _ _ => [1, 2])) 3 (.list [1, 1])).entity.state
      = [.fin 6, .fin 7] := by
  refine ⟨rkEnv_isRk _, by decide +kernel, by decide +kernel⟩

end exact

/-! ## C20 JAX -/

section jax
variable {K : Type} {R : Fmt K} [Field K] [LinearOrder K] [FloorRing K]

/-- A successful `RK45_JAX` step integrates the raw model derivative (no derivative limits, no suppression at state
limits); the reported derivative is the limited one, and the new state is still clipped and wrapped. -/
theorem C20_jax_step (env : Env R) (e : Entity R) (dt : Fl R) (a : Action R) (hc : e.dynamics.custom = none)
    (hm : e.dynamics.integrationMethod = "RK45_JAX") (hok : (e.step env dt a).outcome = .ok ()) :
    ∃ v rows yf c, Applied env e a v ∧
      env.odeint (fun t y => e.dynamics.rhs t y v) e.state dt = .ok rows ∧ rows.getLast? = some yf ∧
      e.dynamics.computeStateDot dt yf v = .ok (e.step env dt a).entity.stateDot ∧
      ClippedTo e.dynamics.stateMin e.dynamics.stateMax yf c ∧
      e.dynamics.wrapAngles c = .ok (e.step env dt a).entity.state := by
  obtain ⟨ty, u, v, d, s, sd, h1, h2, h3, h4⟩ := step_ok hok
  have h5 : (e.dynamics.step env dt e.state v).2 = .ok (s, sd) := by rw [h3]
  obtain ⟨next, c, h6, h7, h8⟩ := dynStep_parts h5
  rw [rawStep_ode hc] at h6
  obtain ⟨-, -, rows, g1, g2, g3⟩ := odeStep_jax_ok hm h6
  exact ⟨v, rows, next, c, applied_of h1 h2, g1, g2, by rw [h4]; exact g3, npClip_iff.1 h7, by rw [h4]; exact h8⟩

/-- `x' = 5` with derivative limit 1 -/
def Demo.rateLimited (method : String) : Entity b64 :=
  let d : Dyn b64 := { Demo.dyn method with
    useJax := true, stateMax := .scalar (.fin 10), stateDotMax := .scalar (.fin 1), rhs := fun _ _ _ => .ok [.fin 5] }
  { Demo.entity method with dynamics := d, state := [.fin 0] }

/-- The same model, state and action end in different states under the two "RK45" methods, and the JAX one violates the
derivative limit (even with a solver that is exact for this model). -/
theorem C20_jax_differs :
    ((Demo.rateLimited "RK45").step Demo.env 1 .none).entity.state = [.fin 1] ∧
    ((Demo.rateLimited "RK45_JAX").step Demo.env 1 .none).entity.state = [.fin 5] ∧
    ((Demo.rateLimited "RK45_JAX").step Demo.env 1 .none).entity.stateDot = [.fin 1] := by
  decide +kernel

end jax
end SAD
