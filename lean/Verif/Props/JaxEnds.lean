import Verif.Lemmas.JaxEnds
import Verif.Props.Jax

/-!
# C96: steps integrated with JAX return
-/

set_option linter.unusedSectionVars false

namespace SAD
open Spec Real

section returns
variable {n m : Nat}

theorem resolve_jax (e : Entity realFmt) (a : Action realFmt) (f g : Nat) : e.resolve (jaxEnv f) a = e.resolve (jaxEnv g) a := by
  cases a <;> rfl

/-- **A step with JAX returns.** If `use_jax` is set, no trajectory samples are asked for, and the raw derivative of the model under the applied control
is finite in every finite state and grows at most linearly, a step of any positive duration from any finite state ends after finitely many
turns of `odeint`'s loop, without an exception, in a finite state; the result is the same however many more turns are allowed. -/
theorem C96_returns (hn : 0 < n) (e : Entity realFmt) (hc : e.dynamics.custom = none) (hm : e.dynamics.integrationMethod = "RK45_JAX")
    (hj : e.dynamics.useJax = true) (hsam : e.dynamics.trajectorySamples ≤ 0)
    (ac : Action realFmt) (v : Vec realFmt) (hv : Applied (jaxEnv 0) e ac v) (F : ℝ → (Fin n → ℝ) → (Fin n → ℝ))
    (hF : ∀ t y, e.dynamics.rhs (.fin t) (toFl y) v = .ok (toFl (F t y))) (a b : ℝ) (hg : ∀ t y i, |F t y i| ≤ a * (∑ j, |y j|) + b)
    (hlim : ∀ (t : ℝ) (z : Fin n → ℝ), ∃ c w d : Fin n → ℝ, ClippedTo e.dynamics.stateMin e.dynamics.stateMax (toFl z) (toFl c) ∧
      e.dynamics.wrapAngles (toFl c) = .ok (toFl w) ∧ e.dynamics.computeStateDot (.fin t) (toFl z) v = .ok (toFl d))
    (T : ℝ) (hT : 0 < T) (y : Fin n → ℝ) (he : e.state = toFl y) :
    ∃ N r, (∃ w : Fin n → ℝ, r.entity.state = toFl w) ∧ (∃ w : Fin n → ℝ, r.entity.stateDot = toFl w) ∧ r.outcome = .ok () ∧
      ∀ fuel, N ≤ fuel → e.step (jaxEnv fuel) (.fin T) ac = r := by
  have hgr : Growth F (fun _ => True) (|a| * n) |b| := by
    refine ⟨by positivity, by positivity, fun t z _ => ?_⟩
    have hz := norm_nonneg z
    rw [pi_norm_le_iff_of_nonneg (by positivity)]
    intro i
    rw [Real.norm_eq_abs]
    have h1 : ∑ j, |z j| ≤ n * ‖z‖ := by
      have : ∑ j : Fin n, |z j| ≤ ∑ _j : Fin n, ‖z‖ := Finset.sum_le_sum fun j _ => norm_le_pi_norm z j
      simpa using this
    have h0 : 0 ≤ ∑ j, |z j| := Finset.sum_nonneg fun j _ => abs_nonneg _
    calc |F t z i| ≤ a * (∑ j, |z j|) + b := hg t z i
      _ ≤ |a| * (∑ j, |z j|) + |b| := add_le_add (mul_le_mul_of_nonneg_right (le_abs_self a) h0) (le_abs_self b)
      _ ≤ |a| * (n * ‖z‖) + |b| := by gcongr
      _ = |a| * n * ‖z‖ + |b| := by ring
  have hf : LiftsOn (fun _ => True) (fun t y => e.dynamics.rhs t y v) F := fun t y _ => hF t y
  obtain ⟨N, rows, hode⟩ := jaxOdeint_returns hn hf (Stable.univ F) hgr hT (y := y) trivial
  obtain ⟨z, hz, -⟩ := jaxOdeint_answer hn hf (Stable.univ F) (y := y) trivial hT (hode N le_rfl)
  obtain ⟨c, w, d, h1, h2, h3⟩ := hlim T z
  rw [← npClip_iff] at h1
  obtain ⟨ty, u, hr, hcl⟩ := applied_iff.1 hv
  obtain ⟨wn, hw⟩ := exceeds_of_npClip hcl
  refine ⟨N, ⟨{ e with state := toFl w, stateDot := toFl d }, wn, .ok ()⟩, ⟨w, rfl⟩, ⟨d, rfl⟩, rfl, fun fuel hfuel => ?_⟩
  have ho : (jaxEnv fuel).odeint (fun t y => e.dynamics.computeStateDotJax t y v) (toFl y) (.fin T) = .ok rows := hode fuel hfuel
  have hd : e.dynamics.step (jaxEnv fuel) (.fin T) e.state v = (e.dynamics, .ok (toFl w, toFl d)) := by
    unfold Dyn.step
    rw [rawStep_ode hc, he]
    unfold Dyn.odeStep
    rw [if_neg (by rw [hm]; decide), if_pos hm, if_neg (by simp [hj]), if_neg (by omega), ho]
    simp only [bind, Except.bind, lastRow, hz, h1, h2, h3, pure, Except.pure]
  unfold Entity.step
  rw [resolve_jax e ac fuel 0, hr]
  simp only [hw, hcl, hd]

/-- an entity that realises a model of linear growth -/
theorem Realises.jax_returns (hn : 0 < n) {e : Entity realFmt} {M : KModel ℝ n m} (h : Realises e M)
    (hm : e.dynamics.integrationMethod = "RK45_JAX") (hj : e.dynamics.useJax = true) (hsam : e.dynamics.trajectorySamples ≤ 0)
    (hdom : ∀ y, M.dom y) {ac : Action realFmt} {u : Fin m → ℝ} (ha : Asks (jaxEnv 0) e ac u)
    {a b : ℝ} (hg : ∀ t y i, |M.rate t y (M.sat u) i| ≤ a * (∑ j, |y j|) + b) (T : ℝ) (hT : 0 < T) {y : Fin n → ℝ} (he : e.state = toFl y) :
    ∃ N r, (∃ w : Fin n → ℝ, r.entity.state = toFl w) ∧ (∃ w : Fin n → ℝ, r.entity.stateDot = toFl w) ∧ r.outcome = .ok () ∧
      ∀ fuel, N ≤ fuel → e.step (jaxEnv fuel) (.fin T) ac = r := by
  obtain ⟨ty, hr⟩ := asks_iff.1 ha
  have hv : Applied (jaxEnv 0) e ac (toFl (M.sat u)) := by
    rw [applied_iff]
    refine ⟨ty, toFl u, hr, ?_⟩
    rw [forDType_exact, forDType_exact, npClip_toFl u h.ulo h.uhi]
    rfl
  refine C96_returns hn e h.dyn.custom hm hj hsam ac _ hv _ (fun t y => h.dyn.rhs t y _ (hdom y)) a b hg ?_ T hT y he
  intro t z
  exact ⟨_, _, _, npClip_iff.1 (npClip_toFl z h.dyn.lo h.dyn.hi), wrap_lift Real.pi_pos h.dyn z,
    h.dyn.liftsOn (S := fun _ => True) (M.sat u) (fun y _ => hdom y) t z trivial⟩

end returns

theorem rot2d_useJax {env : Env realFmt} {args : Rot2dArgs realFmt} {e : Entity realFmt} (h : newRot2d env args = .ok e) :
    e.dynamics.useJax = args.useJax := by
  have h := instantiate_ok h
  unfold initRot2d at h
  obtain ⟨⟨acc, vel⟩, -, h⟩ := Except.bind_ok.1 h
  obtain ⟨d, hd, h⟩ := Except.bind_ok.1 h
  obtain ⟨g1, -⟩ := baseInit_ok h
  unfold mkRot2dDynamics at hd
  obtain ⟨d', hd', hd⟩ := Except.bind_ok.1 hd
  obtain ⟨⟨A, B⟩, -, hd⟩ := Except.bind_ok.1 hd
  obtain ⟨k, -, -, rfl⟩ := mkOdeDyn_ok hd'
  cases hd
  rw [g1]

theorem sameConfig_useJax {K : Type} {R : Fmt K} [Field K] [LinearOrder K] {e e' : Entity R} (h : SameConfig e e') :
    e'.dynamics.useJax = e.dynamics.useJax := by
  obtain ⟨a, b, hd⟩ := SameConfig.dyn h
  rw [hd]

/-- Every JAX step (`use_jax`, no trajectory samples) of positive duration of a 2d rotating spacecraft returns, from every finite state and for every requested control. -/
theorem C96_rotation (args : Rot2dArgs realFmt) (p : Rot2dParams ℝ) (hp : p.Of args) (hm : args.integrationMethod = "RK45_JAX")
    (hj : args.useJax = true) (k : Int) (hsam : args.trajectorySamples = some k) (hk : k ≤ 0) (env : Env realFmt) (e0 : Entity realFmt) (h0 : newRot2d env args = .ok e0)
    (env' : Env realFmt) (ops : List (Op realFmt)) (T : ℝ) (hT : 0 < T) (ac : Action realFmt) (u : Fin 3 → ℝ) (y : Fin 6 → ℝ)
    (hs : (e0.run env' ops).state = toFl y) (ha : Asks (jaxEnv 0) (e0.run env' ops) ac u) :
    ∃ N r, (∃ w : Fin 6 → ℝ, r.entity.state = toFl w) ∧ (∃ w : Fin 6 → ℝ, r.entity.stateDot = toFl w) ∧ r.outcome = .ok () ∧
      ∀ fuel, N ≤ fuel → (e0.run env' ops).step (jaxEnv fuel) (.fin T) ac = r := by
  obtain ⟨hr, -, -, hmeth, hsm⟩ := rot2d_realised hp h0
  have hc := run_sameConfig env' ops e0
  rw [hsam, Option.some.injEq] at hsm
  obtain ⟨u', hu'⟩ : ∃ u', u' = (rot2dModel realFmt p.m p.inertia p.n p.accLimit p.velLimit).sat u := ⟨_, rfl⟩
  refine (hr.congr hc).jax_returns (by norm_num) (by rw [(sameConfig_method hc).1, hmeth, hm]) (by rw [sameConfig_useJax hc, rot2d_useJax h0, hj])
    (by rw [(sameConfig_method hc).2, hsm]; exact hk) (fun _ => trivial) ha (a := 1 + 3 * p.n ^ 2 + 2 * |p.n|)
    (b := (|u' 0| + |u' 1|) / |p.m| + |u' 2| / |p.inertia|) ?_ T hT hs
  rw [← hu']
  intro t z j
  have hz : ∀ i, |z i| ≤ ∑ j, |z j| := fun i => Finset.single_le_sum (f := fun j => |z j|) (fun _ _ => abs_nonneg _) (Finset.mem_univ i)
  have hz0 : 0 ≤ ∑ j, |z j| := (abs_nonneg _).trans (hz 0)
  generalize ∑ j, |z j| = Z at *
  have hn0 := abs_nonneg p.n
  have p1 := mul_nonneg hn0 hz0
  have p2 : 0 ≤ p.n ^ 2 * Z := by positivity
  have q1 : 0 ≤ (|u' 0| + |u' 1|) / |p.m| := by positivity
  have q2 : 0 ≤ |u' 2| / |p.inertia| := by positivity
  have m1 : ∀ i, |3 * p.n ^ 2 * z i| ≤ 3 * p.n ^ 2 * Z := fun i => by
    rw [abs_mul, abs_of_nonneg (by positivity : (0 : ℝ) ≤ 3 * p.n ^ 2)]; exact mul_le_mul_of_nonneg_left (hz i) (by positivity)
  have m2 : ∀ i, |2 * p.n * z i| ≤ 2 * |p.n| * Z := fun i => by
    rw [abs_mul, abs_mul, abs_of_pos (by norm_num : (0 : ℝ) < 2)]; exact mul_le_mul_of_nonneg_left (hz i) (by positivity)
  have hcs : ∀ c s x y : ℝ, |c| ≤ 1 → |s| ≤ 1 → |c * x + s * y| ≤ |x| + |y| := fun c s x y hc hs => by
    refine (abs_add_le _ _).trans ?_
    rw [abs_mul, abs_mul]
    exact add_le_add (mul_le_of_le_one_left (abs_nonneg _) hc) (mul_le_of_le_one_left (abs_nonneg _) hs)
  fin_cases j <;> simp only [rot2dModel, Matrix.cons_val, Fin.zero_eta, Fin.mk_one, Fin.reduceFinMk, Matrix.cons_val_zero, Matrix.cons_val_one]
  · linarith [hz 3]
  · linarith [hz 4]
  · linarith [hz 5]
  · refine (abs_add_le _ _).trans ?_
    have h1 := abs_add_le (3 * p.n ^ 2 * z 0) (2 * p.n * z 4)
    have h2 : |(realFmt.cos (z 2) * u' 0 - realFmt.sin (z 2) * u' 1) / p.m| ≤ (|u' 0| + |u' 1|) / |p.m| := by
      rw [abs_div]
      apply div_le_div_of_nonneg_right _ (abs_nonneg _)
      have := hcs (cos (z 2)) (-sin (z 2)) (u' 0) (u' 1) (abs_cos_le_one _) (by rw [abs_neg]; exact abs_sin_le_one _)
      refine le_trans (le_of_eq ?_) this
      congr 1
      show cos (z 2) * u' 0 - sin (z 2) * u' 1 = _
      ring
    linarith [m1 0, m2 4]
  · refine (abs_add_le _ _).trans ?_
    rw [show -2 * p.n * z 3 = -(2 * p.n * z 3) by ring, abs_neg]
    have h2 : |(realFmt.sin (z 2) * u' 0 + realFmt.cos (z 2) * u' 1) / p.m| ≤ (|u' 0| + |u' 1|) / |p.m| := by
      rw [abs_div]
      apply div_le_div_of_nonneg_right _ (abs_nonneg _)
      exact hcs (sin (z 2)) (cos (z 2)) (u' 0) (u' 1) (abs_sin_le_one _) (abs_cos_le_one _)
    linarith [m2 3]
  · rw [abs_div]
    have : 0 ≤ (1 + 3 * p.n ^ 2 + 2 * |p.n|) * Z := by positivity
    linarith

/-! ## the sun -/

theorem sun_useJax {env : Env realFmt} {args : SunArgs realFmt} {e : Entity realFmt} (h : newSun env args = .ok e) :
    e.dynamics.useJax = args.useJax ∧ e.dynamics.integrationMethod = args.integrationMethod := by
  refine ⟨?_, (newSun_ok h).2.2.2.2.2.2.1⟩
  have h := instantiate_ok h
  unfold initSun at h
  obtain ⟨d, hd, h⟩ := Except.bind_ok.1 h
  obtain ⟨g1, -⟩ := baseInit_ok h
  obtain ⟨k, -, -, rfl⟩ := mkOdeDyn_ok hd
  rw [g1]

/-- a component of constant rate -/
theorem jaxAnswer_const {n : Nat} {F : ℝ → (Fin n → ℝ) → (Fin n → ℝ)} {i : Fin n} {a : ℝ} (hi : ∀ t y, F t y i = a)
    {T : ℝ} {y z : Fin n → ℝ} (h : JaxAnswer F 0 y T z) : z i = y i + a * T := by
  have step : ∀ {t h : ℝ} {y y' e m : Fin n → ℝ}, JaxStep F t h y y' e m → y' i = y i + a * h ∧ m i = y i + a * (h / 2) := by
    rintro t h y y' e m ⟨k1, k2, k3, k4, k5, k6, k7, rfl, h2, h3, h4, h5, h6, hy, h7, -, rfl⟩
    have j3 : k3 i = a := by rw [h3, hi]
    have j4 : k4 i = a := by rw [h4, hi]
    have j5 : k5 i = a := by rw [h5, hi]
    have j6 : k6 i = a := by rw [h6, hi]
    have j7 : k7 i = a := by rw [h7, hi]
    constructor
    · rw [hy]; simp only [Pi.add_apply, Pi.smul_apply, smul_eq_mul, hi, j3, j4, j5, j6]; ring
    · simp only [Pi.add_apply, Pi.smul_apply, smul_eq_mul, hi, j3, j4, j5, j6, j7]; ring
  have steps : ∀ {t : ℝ} {y z : Fin n → ℝ} {hs : List ℝ}, JaxSteps F t y hs z → z i = y i + a * hs.sum := by
    intro t y z hs h
    induction h with
    | nil => simp
    | cons _ hs _ _ ih =>
      rw [ih, (step hs).1, List.sum_cons]
      ring
  obtain ⟨hs, l, h, p, q, e, m, h1, h2, h3, h4, h5, -, A, B, C, g1, g2, g3, g4⟩ := h
  have p1 := steps h1
  obtain ⟨s1, s2⟩ := step h5
  rw [zero_add] at h2
  subst h2
  have hh : h ≠ 0 := by intro hz; rw [hz] at h4; linarith
  have dat : ∀ k, (h • F hs.sum p) k = h * F hs.sum p k := fun k => rfl
  have dat' : ∀ k, (h • F (hs.sum + h) q) k = h * F (hs.sum + h) q k := fun k => rfl
  have a1 := g1 i; have a2 := g2 i; have a3 := g3 i
  rw [dat, hi] at a1 a2 a3
  rw [dat', hi] at a2
  rw [s1] at a1; rw [s2] at a3
  have hA : A i = 0 := by linarith
  have hB : B i = 0 := by linarith
  have hC : C i = 0 := by linarith
  rw [g4 i, hA, hB, hC, dat, hi, p1]
  field_simp
  ring

/-- Under JAX too the sun moves at its constant rate: every step of positive duration that returns adds `n * T` to the angle, exactly and without
wrapping, whatever the action. -/
theorem C95_sun (fuel : Nat) (env : Env realFmt) (args : SunArgs realFmt) (n : ℝ) (hn : args.n = .fin n) (hm : args.integrationMethod = "RK45_JAX")
    (e0 : Entity realFmt) (h0 : newSun env args = .ok e0) (ops : List (Op realFmt)) (θ : ℝ) (hs : (e0.run env ops).state = [.fin θ])
    (T : ℝ) (hT : 0 < T) (a : Action realFmt) (hok : ((e0.run env ops).step (jaxEnv fuel) (.fin T) a).outcome = .ok ()) :
    ((e0.run env ops).step (jaxEnv fuel) (.fin T) a).entity.state = [.fin (θ + n * T)] := by
  have hc := run_sameConfig env ops e0
  have hsun := (IsSun.of_new h0).congr hc
  rw [hn] at hsun
  have hr := sun_realised hsun
  have hmeth : (e0.run env ops).dynamics.integrationMethod = "RK45_JAX" := by rw [(sameConfig_method hc).1, (sun_useJax h0).2, hm]
  generalize e0.run env ops = e at *
  obtain ⟨v, z, c, h1, h2, h3, h4, -⟩ := C95_error_controlled (n := 1) (by norm_num) fuel e hsun.unl.custom hmeth ![θ] (by rw [hs, toFl1]; rfl) T hT a
    (fun _ _ => ![n]) (fun t y v _ => by rw [hsun.rhs, toFl1]; rfl) hok
  rw [← npClip_iff, npClip_toFl z hr.lo hr.hi] at h3
  cases h3
  rw [wrap_lift pi_pos hr z] at h4
  rw [← Except.ok.inj h4, toFl1]
  have := jaxAnswer_const (i := 0) (a := n) (fun _ _ => rfl) h2
  simp only [KModel.post, sunModel, kclip]
  exact congrArg (fun x => [Fl.fin x]) this

/-- Every JAX step of positive duration of a sun returns. -/
theorem C96_sun (env : Env realFmt) (args : SunArgs realFmt) (n : ℝ) (hn : args.n = .fin n) (hm : args.integrationMethod = "RK45_JAX")
    (hj : args.useJax = true) (e0 : Entity realFmt) (h0 : newSun env args = .ok e0) (ops : List (Op realFmt)) (θ : ℝ)
    (hs : (e0.run env ops).state = [.fin θ]) (T : ℝ) (hT : 0 < T) :
    ∃ N, ∀ fuel, N ≤ fuel → ((e0.run env ops).step (jaxEnv fuel) (.fin T) .none).outcome = .ok () ∧
      ((e0.run env ops).step (jaxEnv fuel) (.fin T) .none).entity.state = [.fin (θ + n * T)] := by
  have hc := run_sameConfig env ops e0
  have hsun := (IsSun.of_new h0).congr hc
  rw [hn] at hsun
  have hr : Realises (e0.run env ops) (sunModel n) := ⟨sun_realised hsun, .inr ⟨_, hsun.lo, fun i => i.elim0⟩, .inr ⟨_, hsun.hi, fun i => i.elim0⟩⟩
  obtain ⟨N, r, -, -, h3, h4⟩ := hr.jax_returns (by norm_num) (by rw [(sameConfig_method hc).1, (sun_useJax h0).2, hm])
    (by rw [sameConfig_useJax hc, (sun_useJax h0).1, hj]) hsun.samples.le (fun _ => trivial) (ac := .none) (u := fun i => i.elim0)
    (asks_iff.2 ⟨.f64, by simp [Entity.resolve, hsun.dflt, toFl]⟩) (a := 0) (b := |n|)
    (by intro t y i; rw [Subsingleton.elim i 0]; simp [sunModel]) T hT (y := ![θ]) (by rw [hs, toFl1]; rfl)
  refine ⟨N, fun fuel hf => ?_⟩
  have hok : ((e0.run env ops).step (jaxEnv fuel) (.fin T) .none).outcome = .ok () := by rw [h4 fuel hf]; exact h3
  exact ⟨hok, C95_sun fuel env args n hn hm e0 h0 ops θ hs T hT .none hok⟩

/-! ## examples -/

theorem newRot2d_jax (args : Rot2dArgs realFmt) (f g : Nat) : newRot2d (jaxEnv f) args = newRot2d (jaxEnv g) args := by
  have h : mkOdeDyn (R := realFmt) (jaxEnv f) = mkOdeDyn (jaxEnv g) := rfl
  simp only [newRot2d, initRot2d, mkRot2dDynamics, h]

/-- a spacecraft with all parameters 1, integrated with the given method -/
noncomputable def Demo.jaxArgs (method : String) (jax : Bool) : Rot2dArgs realFmt :=
  { m := .fin 1, inertia := .fin 1, angAccLimit := .fin 1, angVelLimit := .fin 1, inertiaWheel := .fin 1, accLimitWheel := .fin 1, velLimitWheel := .fin 1,
    n := .fin 1, integrationMethod := method, useJax := jax, kwargs := [("name", .str "a")] }

theorem Demo.jax_rot2d (env : Env realFmt) (jax : Bool) (henv : env.jaxInstalled = jax) (method : String) :
    ∃ e0 : Entity realFmt, newRot2d env (Demo.jaxArgs method jax) = .ok e0 := by
  have hd : pyDiv (.fin 1 * .fin 1 : Fl realFmt) (.fin 1) = .ok (.fin 1 * .fin 1 / .fin 1) := by simp [pyDiv, Fl.eqb]
  have hA : ∃ x, generateCwhMatrices (.fin 1 : Fl realFmt) (.fin 1) "2d" = .ok x := by
    have hd' : pyDiv (1 : Fl realFmt) (.fin 1) = .ok (1 / .fin 1) := by simp [pyDiv, Fl.eqb]
    simp only [generateCwhMatrices, hd', bind, Except.bind, pure, Except.pure]
    exact ⟨_, rfl⟩
  obtain ⟨x, hA⟩ := hA
  simp only [newRot2d, instantiate, initRot2d, rot2dLimits, mkRot2dDynamics, mkOdeDyn, Demo.jaxArgs, hd, hA, henv, bind, Except.bind, pure, Except.pure]
  cases jax <;> exact ⟨_, rfl⟩

def Demo.jaxParams : Rot2dParams ℝ := ⟨1, 1, 1, 1, 1, 1, 1, 1⟩

theorem Demo.jaxParams_of (method : String) (jax : Bool) : Demo.jaxParams.Of (Demo.jaxArgs method jax) := ⟨rfl, rfl, rfl, rfl, rfl, rfl, rfl, rfl⟩

/-- Turning at its limit of 1 and pushed further for 2 seconds: the hypotheses of `C95_rotation`, `C95_limits` and `C96_rotation` are met. The
step with JAX returns, and so does that of an equal spacecraft integrated with Euler's method. -/
example : ∃ (fuel : Nat) (e0 e1 : Entity realFmt), newRot2d (jaxEnv fuel) (Demo.jaxArgs "RK45_JAX" true) = .ok e0 ∧
    newRot2d (rkEnv dopri (fun _ _ _ => [1])) { Demo.jaxArgs "RK45_JAX" true with integrationMethod := "Euler", useJax := false } = .ok e1 ∧ PlainMethod e1.dynamics ∧
    0 < Demo.jaxParams.accLimit ∧ 0 < Demo.jaxParams.velLimit ∧
    (e0.run (jaxEnv fuel) [.setState (toFl (![0, 0, 0, 0, 0, 1] : Fin 6 → ℝ))]).state = toFl (![0, 0, 0, 0, 0, 1] : Fin 6 → ℝ) ∧
    (e1.run (rkEnv dopri (fun _ _ _ => [1])) [.setState (toFl (![0, 0, 0, 0, 0, 1] : Fin 6 → ℝ))]).state = toFl (![0, 0, 0, 0, 0, 1] : Fin 6 → ℝ) ∧
    (![0, 0, 0, 0, 0, 1] : Fin 6 → ℝ) 5 = Demo.jaxParams.velLimit ∧
    Asks (jaxEnv fuel) (e0.run (jaxEnv fuel) [.setState (toFl (![0, 0, 0, 0, 0, 1] : Fin 6 → ℝ))]) (.ndarray .f64 [.fin 0, .fin 0, .fin 1]) ![0, 0, 1] ∧
    Asks (rkEnv dopri (fun _ _ _ => [1])) (e1.run (rkEnv dopri (fun _ _ _ => [1])) [.setState (toFl (![0, 0, 0, 0, 0, 1] : Fin 6 → ℝ))])
      (.ndarray .f64 [.fin 0, .fin 0, .fin 1]) ![0, 0, 1] ∧
    ((e0.run (jaxEnv fuel) [.setState (toFl (![0, 0, 0, 0, 0, 1] : Fin 6 → ℝ))]).step (jaxEnv fuel) (.fin 2)
      (.ndarray .f64 [.fin 0, .fin 0, .fin 1])).outcome = .ok () ∧
    ((e1.run (rkEnv dopri (fun _ _ _ => [1])) [.setState (toFl (![0, 0, 0, 0, 0, 1] : Fin 6 → ℝ))]).step (rkEnv dopri (fun _ _ _ => [1])) (.fin 2)
      (.ndarray .f64 [.fin 0, .fin 0, .fin 1])).outcome = .ok () := by
  obtain ⟨e0, h0⟩ := Demo.jax_rot2d (jaxEnv 0) true rfl "RK45_JAX"
  obtain ⟨e1, h1⟩ := Demo.jax_rot2d (rkEnv dopri (fun _ _ _ => [1])) false rfl "Euler"
  have hv : Demo.jaxParams.velLimit = 1 := by simp [Demo.jaxParams, Rot2dParams.velLimit]
  have ha' : Demo.jaxParams.accLimit = 1 := by simp [Demo.jaxParams, Rot2dParams.accLimit]
  obtain ⟨N, r, -, -, g1, g2⟩ := C96_rotation (Demo.jaxArgs "RK45_JAX" true) Demo.jaxParams (Demo.jaxParams_of _ _) rfl rfl 0 rfl le_rfl (jaxEnv 0) e0 h0 (jaxEnv 0)
    [.setState (toFl (![0, 0, 0, 0, 0, 1] : Fin 6 → ℝ))] 2 (by norm_num) (.ndarray .f64 [.fin 0, .fin 0, .fin 1]) ![0, 0, 1] _ rfl (asks_iff.2 ⟨.f64, rfl⟩)
  obtain ⟨hr, -, -, hm, hsm⟩ := rot2d_realised (Demo.jaxParams_of _ _) h1
  have hpl : PlainMethod e1.dynamics := .inr ⟨hm, (Option.some.inj hsm).le⟩
  have hc := run_sameConfig (rkEnv dopri (fun _ _ _ => [1])) [.setState (toFl (![0, 0, 0, 0, 0, 1] : Fin 6 → ℝ))] e1
  have ask1 : Asks (rkEnv dopri (fun _ _ _ => [1])) (e1.run (rkEnv dopri (fun _ _ _ => [1])) [.setState (toFl (![0, 0, 0, 0, 0, 1] : Fin 6 → ℝ))])
      (.ndarray .f64 [.fin 0, .fin 0, .fin 1]) ![0, 0, 1] := asks_iff.2 ⟨.f64, rfl⟩
  have hrun : ∀ f, e0.run (jaxEnv f) [.setState (toFl (![0, 0, 0, 0, 0, 1] : Fin 6 → ℝ))] = { e0 with state := toFl (![0, 0, 0, 0, 0, 1] : Fin 6 → ℝ) } :=
    fun _ => rfl
  rw [hrun] at g2
  refine ⟨N, e0, e1, (newRot2d_jax _ _ _).trans h0, h1, hpl, by rw [ha']; norm_num, by rw [hv]; norm_num, rfl, rfl, by rw [hv]; rfl, asks_iff.2 ⟨.f64, rfl⟩, ask1,
    by rw [hrun, g2 N le_rfl]; exact g1,
    ((hr.congr hc).step_fixed [1] pi_pos (plain_congr hc hpl) ask1 (S := fun _ => True) (fun _ _ => trivial) (Stable.univ _) rfl trivial 2).1⟩

/-- a sun with JAX -/
example : ∃ e0 : Entity realFmt, newSun (R := realFmt) (jaxEnv 0) { n := .fin 2, integrationMethod := "RK45_JAX", useJax := true, kwargs := [("name", .str "sun")] } = .ok e0 ∧
    (e0.run (jaxEnv 0) [.setState [.fin 1]]).state = [.fin 1] ∧
    ∃ fuel, ((e0.run (jaxEnv 0) [.setState [.fin 1]]).step (jaxEnv fuel) (.fin 5) .none).outcome = .ok () := by
  obtain ⟨e0, h0⟩ : ∃ e0 : Entity realFmt, newSun (R := realFmt) (jaxEnv 0) { n := .fin 2, integrationMethod := "RK45_JAX", useJax := true, kwargs := [("name", .str "sun")] }
      = .ok e0 := ⟨_, rfl⟩
  obtain ⟨N, h⟩ := C96_sun (jaxEnv 0) _ 2 rfl rfl rfl e0 h0 [.setState [.fin 1]] 1 rfl 5 (by norm_num)
  exact ⟨e0, h0, rfl, N, (h N le_rfl).1⟩

/-- `C95_no_time`: in double precision a sun stepped by 0 seconds is nowhere; the step returns -/
example : ∃ e0 : Entity b64, newSun (R := b64) (jaxEnv 9) { integrationMethod := "RK45_JAX", useJax := true, kwargs := [("name", .str "sun")] } = .ok e0 ∧
    e0.dynamics.custom = none ∧ e0.dynamics.integrationMethod = "RK45_JAX" ∧ e0.state = [.fin 0] ∧
    (e0.step (jaxEnv 9) (.fin 0) .none).outcome = .ok () ∧ (e0.step (jaxEnv 9) (.fin 0) .none).entity.state = [.nan] :=
  ⟨_, rfl, rfl, rfl, by decide +kernel, by decide +kernel, by decide +kernel⟩

/-- `C95_nan`: a sun whose mean motion is NaN -/
example : ∃ e0 : Entity b64, newSun (R := b64) (jaxEnv 9) { n := .nan, integrationMethod := "RK45_JAX", useJax := true, kwargs := [("name", .str "sun")] } = .ok e0 ∧
    e0.dynamics.custom = none ∧ e0.dynamics.integrationMethod = "RK45_JAX" ∧ (0 - 0 : Fl b64) = 0 ∧ Applied (jaxEnv 9) e0 .none [] ∧
    (∀ t y, y.length = e0.state.length → ∃ k, e0.dynamics.rhs t y [] = .ok k ∧ k.length = e0.state.length) ∧
    (∃ k, e0.dynamics.rhs 0 e0.state [] = .ok k ∧ .nan ∈ k) ∧
    (e0.step (jaxEnv 9) (.fin 1) .none).outcome = .ok () :=
  ⟨_, rfl, rfl, rfl, by decide +kernel, applied_iff.2 ⟨.f64, [], rfl, rfl⟩, fun _ _ _ => ⟨_, rfl, rfl⟩, ⟨_, rfl, List.mem_singleton.2 rfl⟩, by decide +kernel⟩

/-- computed in rational numbers, all powers being 1 -/
example : ∃ e0 : Entity Demo.ratPow, newSun (R := Demo.ratPow) (jaxEnv 99) { n := .fin 2, integrationMethod := "RK45_JAX", useJax := true, kwargs := [("name", .str "sun")] } = .ok e0 ∧
    (e0.step (jaxEnv 99) (.fin 1) .none).outcome = .ok () ∧ (e0.step (jaxEnv 99) (.fin 1) .none).entity.state = [.fin 2] :=
  ⟨_, rfl, by decide +kernel, by decide +kernel⟩

end SAD
