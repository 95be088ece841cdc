import Verif.Lemmas.Point
import Verif.Lemmas.History
import Verif.Props.Demo

/-!
# C45, C46: the sun
-/

set_option linter.unusedSectionVars false

namespace SAD
open Spec

/-! ## C45 motion -/

section
variable {K : Type} {R : Fmt K} [Field K] [LinearOrder K]

theorem newSun_ok {env : Env R} {args : SunArgs R} {e : Entity R} (h : newSun env args = .ok e) :
    e.controlDefault = [] ∧ e.controlMin = .scalar .ninf ∧ e.controlMax = .scalar .pinf ∧ e.controlMap = none ∧
    Unlimited e.dynamics ∧ e.dynamics.rhs = (fun _ _ _ => .ok [args.n]) ∧ e.dynamics.integrationMethod = args.integrationMethod ∧
    e.dynamics.trajectorySamples = 0 := by
  have h := instantiate_ok h
  unfold initSun at h
  obtain ⟨d, hd, h⟩ := Except.bind_ok.1 h
  obtain ⟨h1, h2, h3, h4, h5⟩ := baseInit_ok h
  unfold mkSunDynamics at hd
  obtain ⟨k, hk, -, rfl⟩ := mkOdeDyn_ok hd
  cases hk
  rw [h1]
  exact ⟨h2, h3, h4, h5, ⟨rfl, rfl, rfl, rfl, rfl, rfl⟩, rfl, rfl, rfl⟩

theorem SameConfig.dyn {e e' : Entity R} (h : SameConfig e e') : ∃ a b, e'.dynamics = { e.dynamics with trajectory := a, trajectoryT := b } := by
  obtain ⟨-, -, -, -, -, h⟩ := h
  exact ⟨e'.dynamics.trajectory, e'.dynamics.trajectoryT, by rw [← h]⟩

/-- an entity configured like a sun -/
structure IsSun (n : Fl R) (e : Entity R) : Prop where
  dflt : e.controlDefault = []
  lo : e.controlMin = .scalar .ninf
  hi : e.controlMax = .scalar .pinf
  map : e.controlMap = none
  unl : Unlimited e.dynamics
  rhs : e.dynamics.rhs = (fun _ _ _ => .ok [n])
  samples : e.dynamics.trajectorySamples = 0

theorem IsSun.of_new {env : Env R} {args : SunArgs R} {e : Entity R} (h : newSun env args = .ok e) : IsSun args.n e := by
  obtain ⟨h1, h2, h3, h4, h5, h6, -, h8⟩ := newSun_ok h
  exact ⟨h1, h2, h3, h4, h5, h6, h8⟩

theorem IsSun.congr {n : Fl R} {e e' : Entity R} (h : IsSun n e) (hc : SameConfig e e') : IsSun n e' := by
  obtain ⟨a, b, hd⟩ := SameConfig.dyn hc
  obtain ⟨-, h2, h3, h4, h5, -⟩ := hc
  have hu := h.unl
  exact ⟨h2.trans h.dflt, h3.trans h.lo, h4.trans h.hi, h5.trans h.map, by rw [hd]; exact ⟨hu.1, hu.2, hu.3, hu.4, hu.5, hu.6⟩,
    by rw [hd]; exact h.rhs, by rw [hd]; exact h.samples⟩

theorem sun_clip (u : Vec R) (ty : DType) :
    ∃ v, npClip u ((Arr.scalar .ninf).forDType ty) ((Arr.scalar .pinf).forDType ty) = .ok v := by
  cases ty <;> simp [npClip, Arr.forDType, Arr.toVec, Fl.cast32, bcast2_single_right, bind, Except.bind]

theorem sun_exceeds (u : Vec R) (ty : DType) :
    exceeds u ((Arr.scalar .ninf).forDType ty) ((Arr.scalar .pinf).forDType ty) = .ok false := by
  have h1 : ∀ x : Fl R, ¬ x < .ninf := by
    intro x; change ¬ Fl.ltb x .ninf = true; cases x <;> simp [Fl.ltb]
  have h2 : ∀ x : Fl R, ¬ .pinf < x := by
    intro x; change ¬ Fl.ltb .pinf x = true; cases x <;> simp [Fl.ltb]
  cases ty <;> simp [exceeds, Arr.forDType, Arr.toVec, Fl.cast32, bcast2_single_right, bind, Except.bind, h1, h2, pure, Except.pure]

variable [FloorRing K]

theorem IsSun.dynStep {n : Fl R} {e : Entity R} (h : IsSun n e) (env : Env R) (dt : Fl R) (s u v : Vec R) :
    e.dynamics.step env dt s u = e.dynamics.step env dt s v := by
  have hc : ∀ t y, e.dynamics.computeStateDot t y u = e.dynamics.computeStateDot t y v := by
    intro t y; simp only [Dyn.computeStateDot, h.rhs]
  have hj : ∀ t y, e.dynamics.computeStateDotJax t y u = e.dynamics.computeStateDotJax t y v := by
    intro t y; simp only [Dyn.computeStateDotJax, h.rhs]
  simp only [Dyn.step, Dyn.rawStep, h.unl.custom, Dyn.odeStep, hc, hj]

/-- Every array action (list or NumPy array, of any length, dtype and content, NaN included) has exactly the effect of no
action, and never warns; in every floating point format, with every solver, at every point of the sun's life. -/
theorem C45_actions_ignored (env : Env R) (args : SunArgs R) (e0 : Entity R) (h0 : newSun env args = .ok e0) (ops : List (Op R))
    (dt : Fl R) (ty : DType) (xs : Vec R) :
    (e0.run env ops).step env dt (.ndarray ty xs) = (e0.run env ops).step env dt .none ∧
    (e0.run env ops).step env dt (.list xs) = (e0.run env ops).step env dt .none ∧
    ((e0.run env ops).step env dt .none).warned = false := by
  have hs := (IsSun.of_new h0).congr (run_sameConfig env ops e0)
  generalize e0.run env ops = e at hs
  have key : ∀ a ty u, e.resolve env a = .ok (ty, u) → e.step env dt a = e.step env dt .none ∧ (e.step env dt a).warned = false := by
    intro a ty u ha
    obtain ⟨v, hv⟩ := sun_clip u ty
    obtain ⟨v0, hv0⟩ := sun_clip (R := R) [] .f64
    have hn : e.resolve env .none = .ok (.f64, []) := by simp [Entity.resolve, h0, hs.dflt]
    constructor
    · simp only [Entity.step, ha, hn, hs.lo, hs.hi, sun_exceeds, hv, hv0]
      rw [hs.dynStep env dt e.state v v0]
    · simp only [Entity.step, ha, hs.lo, hs.hi, sun_exceeds, hv]
      split <;> rfl
  refine ⟨(key _ _ _ rfl).1, (key _ _ _ rfl).1, (key _ _ _ rfl).2⟩

end

section
variable {K : Type} {R : Fmt K} [Field K] [LinearOrder K] [IsStrictOrderedRing K] [FloorRing K] [Exact R]

/-- the sun as a system -/
def sunModel (n : K) : KModel K 1 0 where
  dom := fun _ => True
  rate := fun _ _ _ => ![n]
  lo := fun _ => none
  hi := fun _ => none
  dlo := fun _ => none
  dhi := fun _ => none
  centre := fun _ => none
  ulo := fun _ => none
  uhi := fun _ => none

theorem sun_realised {n : K} {e : Entity R} (h : IsSun (.fin n) e) : DRealises e.dynamics (sunModel n) := by
  refine realises_of_unlimited h.unl (by simp [sunModel]) ?_
  intro t y u _
  rw [h.rhs, toFl1]
  rfl

theorem sun_step (hpi : 0 < R.pi) {env : Env R} (henv : IsRk dopri env) {n : K} {e : Entity R} (h : IsSun (.fin n) e)
    (hm : PlainMethod e.dynamics) (θ T : K) (a : Action R) (hs : e.state = [.fin θ])
    (hok : (e.step env (.fin T) a).outcome = .ok ()) : (e.step env (.fin T) a).entity.state = [.fin (θ + n * T)] := by
  have hr := sun_realised h
  have hF : ∀ u v : Vec R, e.dynamics.field u = e.dynamics.field v := by
    intro u v; funext t y; simp only [Dyn.field, Dyn.computeStateDot, h.rhs]
  obtain ⟨ty, u, v, d, s, sd, -, -, hd, hent⟩ := step_ok hok
  have hd2 : (e.dynamics.step env (.fin T) e.state v).2 = .ok (s, sd) := by rw [hd]
  obtain ⟨next, c, g1, g2, g3⟩ := dynStep_parts hd2
  have hs' : e.state = toFl ![θ] := by rw [hs, toFl1]; rfl
  rw [hs'] at g1
  have hl := hr.liftsOn (fun i => i.elim0) (S := fun _ => True) (fun _ _ => trivial)
  rw [hF _ v] at hl
  obtain ⟨tab, hs2, k1, k2, -⟩ := rawStep_run henv h.unl.custom hm hl (Stable.univ _) trivial g1
  subst k2
  rw [npClip_toFl _ hr.lo hr.hi] at g2
  cases g2
  rw [wrap_lift hpi hr] at g3
  cases g3
  have hb := k1.b
  have hk := rkChain_const_rate tab hb.1 hb.2 ((sunModel n).field (fun i => i.elim0))
    (LinearMap.proj (R := K) (φ := fun _ : Fin 1 => K) 0) n (by intro t y; simp [KModel.field, sunModel, klimit_free]) 0 ![θ] hs2
  rw [hent]
  simp only
  rw [toFl1]
  simp only [KModel.post, sunModel, kclip]
  simp only [LinearMap.proj_apply, Matrix.cons_val_zero, k1.sum] at hk
  exact congrArg (fun x => [Fl.fin x]) hk

/-- Over any sequence of steps with any actions, under Euler and every Dormand-Prince schedule, the angle is the initial angle
plus the mean motion times the time elapsed: exactly, and never wrapped. (A dict action, the only kind that can raise
here, leaves the sun where it is.) -/
theorem C45_motion (hpi : 0 < R.pi) (env : Env R) (henv : IsRk dopri env) (args : SunArgs R) (n : K) (hn : args.n = .fin n)
    (hm : args.integrationMethod = "RK45" ∨ args.integrationMethod = "Euler") (e0 : Entity R) (h0 : newSun env args = .ok e0)
    (ops : List (Op R)) (θ : K) (hist : List (K × Action R)) (e : Entity R) (he : e = e0.run env ops) (hs : e.state = [.fin θ]) :
    (e.run env (stepsOf hist)).state = [.fin (θ + n * elapsed env e hist)] := by
  have hsun := (IsSun.of_new h0).congr (run_sameConfig env ops e0)
  rw [hn] at hsun
  have hm0 : PlainMethod e0.dynamics := by
    obtain ⟨-, -, -, -, -, -, h7, h8⟩ := newSun_ok h0
    rcases hm with hm | hm
    · exact .inl (h7.trans hm)
    · exact .inr ⟨h7.trans hm, h8.le⟩
  have hm := plain_congr (run_sameConfig env ops e0) hm0
  rw [← he] at hsun hm
  clear he h0 hm0
  induction hist generalizing e θ with
  | nil => simp [stepsOf, Entity.run, elapsed, hs]
  | cons x hist ih =>
    obtain ⟨T, a⟩ := x
    have hc : SameConfig e (e.step env (.fin T) a).entity := step_sameConfig env e _ _
    have hrun : e.run env (stepsOf ((T, a) :: hist)) = (e.step env (.fin T) a).entity.run env (stepsOf hist) := rfl
    rw [hrun]
    cases ho : (e.step env (.fin T) a).outcome with
    | error x =>
      have := ih θ (e.step env (.fin T) a).entity (by rw [(step_error ho).1, hs]) (hsun.congr hc) (plain_congr hc hm)
      rw [this]
      simp [elapsed, ho]
    | ok _ =>
      have := ih (θ + n * T) (e.step env (.fin T) a).entity (sun_step hpi henv hsun hm θ T a hs ho) (hsun.congr hc) (plain_congr hc hm)
      rw [this]
      simp only [elapsed, ho]
      congr 2
      ring

/-- With array actions (or none) every step returns: the elapsed time is the sum of the step sizes (for a solver with a
fixed schedule). -/
theorem C45_always_steps (hpi : 0 < R.pi) (ws : List K) (args : SunArgs R) (n : K) (hn : args.n = .fin n)
    (hm : args.integrationMethod = "RK45" ∨ args.integrationMethod = "Euler") (e0 : Entity R)
    (h0 : newSun (rkEnv dopri (fun _ _ _ => ws)) args = .ok e0) (ops : List (Op R)) (e : Entity R)
    (he : e = e0.run (rkEnv dopri (fun _ _ _ => ws)) ops) (θ T : K) (hs : e.state = [.fin θ]) (ty : DType) (xs : Vec R) :
    (e.step (rkEnv dopri (fun _ _ _ => ws)) (.fin T) (.ndarray ty xs)).outcome = .ok () := by
  have hi := (C45_actions_ignored _ args e0 h0 ops (.fin T) ty xs).1
  rw [← he] at hi
  rw [hi]
  have hc := run_sameConfig (rkEnv dopri (fun _ _ _ => ws)) ops e0
  have hsun := (IsSun.of_new h0).congr hc
  rw [hn, ← he] at hsun
  have hm0 : PlainMethod e0.dynamics := by
    obtain ⟨-, -, -, -, -, -, h7, h8⟩ := newSun_ok h0
    rcases hm with hm | hm
    · exact .inl (h7.trans hm)
    · exact .inr ⟨h7.trans hm, h8.le⟩
  have hr : Realises e (sunModel n) := by
    refine ⟨sun_realised hsun, .inr ⟨_, hsun.lo, fun i => i.elim0⟩, .inr ⟨_, hsun.hi, fun i => i.elim0⟩⟩
  refine (hr.step_fixed ws hpi (he ▸ plain_congr hc hm0) (u := fun i => i.elim0) (asks_iff.2 ⟨.f64, ?_⟩) (S := fun _ => True) (fun _ _ => trivial)
    (Stable.univ _) (y := ![θ]) (by rw [hs, toFl1]; rfl) trivial T).1
  simp [Entity.resolve, hsun.dflt, toFl]

/-- a sun stepped past `pi` without being wrapped -/
example : ∃ e0 : Entity ratFmt, newSun (rkEnv dopri (fun _ _ _ => [3])) { n := 2, kwargs := [("name", .str "sun"), ("theta", .num 1)] } = .ok e0 ∧
    e0.state = [.fin 1] ∧
    elapsed (rkEnv dopri (fun _ _ _ => [3])) e0 [((5 : ℚ), .ndarray .f64 [.fin 7, .nan]), (1, .dict [])] = 5 ∧
    (e0.run (rkEnv dopri (fun _ _ _ => [3])) (stepsOf [((5 : ℚ), .ndarray .f64 [.fin 7, .nan]), (1, .dict [])])).state = [.fin 11] := by
  refine ⟨_, rfl, by decide +kernel, by decide +kernel, by decide +kernel⟩

end

/-! ## C46 equality -/

section
variable {K : Type} {R : Fmt K} [Field K] [LinearOrder K]

/-- Any two suns compare equal, whatever their parameters, states and histories; a sun never equals an object of another
class (`none`). -/
theorem C46_equality [FloorRing K] (env env' : Env R) (args args' : SunArgs R) (e e' : Entity R) (_h : newSun env args = .ok e)
    (_h' : newSun env' args' = .ok e') (ops ops' : List (Op R)) :
    sunEq (e.run env ops) (some (e'.run env' ops')) = true ∧ sunEq (e.run env ops) none = false := ⟨rfl, rfl⟩

/-- two suns at different places, which compare equal -/
example : ∃ e e' : Entity ratFmt, newSun Demo.env { kwargs := [("name", .str "a")] } = .ok e ∧
    newSun Demo.env { kwargs := [("name", .str "b"), ("theta", .num 1)] } = .ok e' ∧ e.state ≠ e'.state := by
  refine ⟨_, _, rfl, rfl, by decide +kernel⟩

end
end SAD
