import Verif.Props.State

/-! # C10, C11: what wrapping does to a step

A step of an entity compared with the same step of the same entity whose dynamics was built without `angle_wrap_centers`. -/

set_option linter.unusedSectionVars false

namespace SAD
open Spec

variable {K : Type} {R : Fmt K} [Field K] [LinearOrder K] [FloorRing K]

/-- the same entity, its dynamics built without `angle_wrap_centers` -/
def Spec.withoutWrapping (e : Entity R) : Entity R := { e with dynamics := { e.dynamics with angleWrapCenters := none } }

theorem odeStep_wrap (env : Env R) (d : Dyn R) (w : Option (Vec R)) (dt : Fl R) (s u : Vec R) :
    (Dyn.odeStep env { d with angleWrapCenters := w } dt s u).2 = (d.odeStep env dt s u).2 := by
  have hf : Dyn.computeStateDot { d with angleWrapCenters := w } = d.computeStateDot := rfl
  have hj : Dyn.computeStateDotJax { d with angleWrapCenters := w } = d.computeStateDotJax := rfl
  have ht : Dyn.tEval { d with angleWrapCenters := w } = d.tEval := rfl
  unfold Dyn.odeStep
  rw [hf, hj, ht]
  simp only
  split_ifs
  · cases env.solveIvp (fun t y => d.computeStateDot t y u) dt s (d.tEval dt) <;> rfl
  all_goals rfl

theorem rawStep_wrap (env : Env R) (d : Dyn R) (w : Option (Vec R)) (dt : Fl R) (s u : Vec R) :
    (Dyn.rawStep env { d with angleWrapCenters := w } dt s u).2 = (d.rawStep env dt s u).2 := by
  have h := odeStep_wrap env d w dt s u
  unfold Dyn.rawStep
  cases hc : d.custom with
  | some f => rfl
  | none => rw [hc] at h; exact h

/-- Any arithmetic: with or without wrapping a step has the same outcome up to the wrapping itself. -/
theorem step_without (env : Env R) (e : Entity R) (dt : Fl R) (a : Action R) (hok : (e.step env dt a).outcome = .ok ()) :
    ∃ s', ((withoutWrapping e).step env dt a).outcome = .ok () ∧ ((withoutWrapping e).step env dt a).warned = (e.step env dt a).warned ∧
      ((withoutWrapping e).step env dt a).entity.stateDot = (e.step env dt a).entity.stateDot ∧
      ((withoutWrapping e).step env dt a).entity.state = s' ∧ e.dynamics.wrapAngles s' = .ok (e.step env dt a).entity.state := by
  unfold Entity.step at hok ⊢
  have hr : (withoutWrapping e).resolve env a = e.resolve env a := by cases a <;> rfl
  rw [hr]
  cases h1 : e.resolve env a with
  | error x => rw [h1] at hok; cases hok
  | ok tu =>
    obtain ⟨ty, u⟩ := tu
    rw [h1] at hok
    simp only at hok ⊢
    change ∃ s', StepResult.outcome (match exceeds u (e.controlMin.forDType ty) (e.controlMax.forDType ty) with | .error x => _ | .ok w => _) = _ ∧ _
    cases h2 : exceeds u (e.controlMin.forDType ty) (e.controlMax.forDType ty) with
    | error x => rw [h2] at hok; cases hok
    | ok w =>
      rw [h2] at hok
      simp only at hok ⊢
      have e1 : (withoutWrapping e).controlMin = e.controlMin := rfl
      have e2 : (withoutWrapping e).controlMax = e.controlMax := rfl
      rw [e1, e2, h2]
      simp only
      cases h3 : npClip u (e.controlMin.forDType ty) (e.controlMax.forDType ty) with
      | error x => rw [h3] at hok; cases hok
      | ok v =>
        rw [h3] at hok
        simp only at hok ⊢
        have e3 : (withoutWrapping e).state = e.state := rfl
        have e4 : (withoutWrapping e).dynamics = { e.dynamics with angleWrapCenters := none } := rfl
        rw [e3, e4]
        have hraw := rawStep_wrap env e.dynamics none dt e.state v
        cases h4 : e.dynamics.step env dt e.state v with
        | mk d r =>
          rw [h4] at hok
          cases r with
          | error x => cases hok
          | ok p =>
            obtain ⟨s, sd⟩ := p
            have h5 : (e.dynamics.step env dt e.state v).2 = .ok (s, sd) := by rw [h4]
            have h6 : ∃ next c, (e.dynamics.rawStep env dt e.state v).2 = .ok (next, sd) ∧
                npClip next e.dynamics.stateMin e.dynamics.stateMax = .ok c ∧ e.dynamics.wrapAngles c = .ok s := by
              unfold Dyn.step at h5
              simp only [Except.bind_ok] at h5
              obtain ⟨⟨next, sd'⟩, g1, c, g2, s2, g3, g4⟩ := h5
              cases g4
              exact ⟨next, c, g1, g2, g3⟩
            obtain ⟨next, c, g1, g2, g3⟩ := h6
            have h7 : (Dyn.step env { e.dynamics with angleWrapCenters := none } dt e.state v).2 = .ok (c, sd) := by
              unfold Dyn.step
              simp only [hraw, g1, bind, Except.bind, g2]
              rfl
            cases h8 : Dyn.step env { e.dynamics with angleWrapCenters := none } dt e.state v with
            | mk d' r' =>
              rw [h8] at h7
              simp only at h7
              subst h7
              exact ⟨c, rfl, rfl, rfl, rfl, g3⟩

variable [IsStrictOrderedRing K]

/-- C10, C11: compared with the same step without wrapping, a successful step has the same outcome, warning and derivative; unwrapped elements are
the same (any arithmetic), and an element `x` wrapped with centre `c` becomes the number in `[c - pi, c + pi)` that differs from `x + c` by whole
turns (exact arithmetic). -/
theorem C11_step [Exact R] (hpi : 0 < R.pi) (env : Env R) (e : Entity R) (dt : Fl R) (a : Action R) (hok : (e.step env dt a).outcome = .ok ()) :
    ((withoutWrapping e).step env dt a).outcome = .ok () ∧ ((withoutWrapping e).step env dt a).warned = (e.step env dt a).warned ∧
    ((withoutWrapping e).step env dt a).entity.stateDot = (e.step env dt a).entity.stateDot ∧
    ∀ i s, (e.step env dt a).entity.state[i]? = some s →
      (NotWrapped e.dynamics i → bget ((withoutWrapping e).step env dt a).entity.state i = some s) ∧
      ∀ c x, WrappedAt e.dynamics i (.fin c) → bget ((withoutWrapping e).step env dt a).entity.state i = some (.fin x) →
        ∃ y, s = .fin y ∧ SameAngle R.pi (x + c) y ∧ c - R.pi ≤ y ∧ y < c + R.pi := by
  obtain ⟨s', h1, h2, h3, h4, h5⟩ := step_without env e dt a hok
  refine ⟨h1, h2, h3, fun i s hs => ⟨fun hw => ?_, fun c x hw hx => ?_⟩⟩
  · rw [h4]
    exact C10_unwrapped_untouched e.dynamics s' _ h5 i hw (bget_of_get hs)
  · rw [h4] at hx
    obtain ⟨cs, hcs, hc, -⟩ := hw
    unfold Dyn.wrapAngles at h5
    rw [hcs] at h5
    obtain ⟨x', c', b1, b2, b3⟩ := bcast2_bget h5 (bget_of_get hs)
    rw [b1] at hx
    rw [b2] at hc
    cases hx
    cases hc
    simp only [Fl.isNan_fin, Bool.false_eq_true, if_false, wrapElem_exact hpi] at b3
    have hr := wrap_range (R := R) hpi x c
    exact ⟨_, b3, ⟨-⌊(x + R.pi) / (2 * R.pi)⌋, by push_cast; ring⟩, hr.1, hr.2⟩

/-- C10: for centre 0, as in all shipped models, a step gives every wrapped element the angle it has without wrapping, and exactly the same number
if that lies in `[-pi, pi)`. -/
theorem C10_step [Exact R] (hpi : 0 < R.pi) (env : Env R) (e : Entity R) (dt : Fl R) (a : Action R) (hok : (e.step env dt a).outcome = .ok ())
    (i : Nat) (s : Fl R) (hs : (e.step env dt a).entity.state[i]? = some s) (x : K) (hw : WrappedAt e.dynamics i (.fin 0))
    (hx : bget ((withoutWrapping e).step env dt a).entity.state i = some (.fin x)) :
    ∃ y, s = .fin y ∧ SameAngle R.pi x y ∧ (-R.pi ≤ x → x < R.pi → y = x) := by
  obtain ⟨-, -, -, h⟩ := C11_step hpi env e dt a hok
  obtain ⟨y, h1, h2, h3, h4⟩ := (h i s hs).2 0 x hw hx
  rw [add_zero] at h2
  rw [zero_sub] at h3
  rw [zero_add] at h4
  exact ⟨y, h1, h2, fun k1 k2 => (same_angle_unique hpi h2 k1 k2 h3 h4).symm⟩

/-- a planar spacecraft-like state `(position, angle)` turning by 5 in one step: the angle is wrapped, the position is not -/
def Demo.mixed : Entity ratFmt :=
  { Demo.entity "Euler" with
    dynamics := { Demo.dyn "Euler" with
      stateMin := .scalar .ninf, stateMax := .scalar .pinf, angleWrapCenters := some [.nan, .fin 0], rhs := fun _ _ _ => .ok [.fin 7, .fin 5] }
    state := [.fin 0, .fin 0] }

example : WrappedAt Demo.mixed.dynamics 1 (.fin 0) ∧ NotWrapped Demo.mixed.dynamics 0 ∧ (Demo.mixed.step Demo.env 1 .none).outcome = .ok () ∧
    ((withoutWrapping Demo.mixed).step Demo.env 1 .none).entity.state = [.fin 7, .fin 5] ∧
    (Demo.mixed.step Demo.env 1 .none).entity.state = [.fin 7, .fin (5 - 44 / 7)] := by
  refine ⟨⟨_, rfl, rfl, by simp⟩, ?_, by decide +kernel, by decide +kernel, by decide +kernel⟩
  intro cs h
  cases h
  rfl

end SAD
