import Verif.Props.Sim
import Verif.Model.Dubins
import Verif.Model.Rotational
import Verif.Model.SixDof

/-!
# C127: saving and restoring the state
-/

set_option linter.unusedSectionVars false

namespace SAD
open Spec

section
variable {K : Type} {R : Fmt K}

/-- set up alike: the same limits, default control, actuators and dynamics. The names, the states, the state derivatives and the stored
trajectories may differ. -/
def Spec.SetUpAlike (a b : Entity R) : Prop :=
  b.controlDefault = a.controlDefault ∧ b.controlMin = a.controlMin ∧ b.controlMax = a.controlMax ∧ b.controlMap = a.controlMap ∧
  { b.dynamics with trajectory := none, trajectoryT := none } = { a.dynamics with trajectory := none, trajectoryT := none }

/-- alike, and in the same state -/
def Alike (a b : Entity R) : Prop :=
  ∃ nm sd t t', b = { a with name := nm, stateDot := sd, dynamics := { a.dynamics with trajectory := t, trajectoryT := t' } }

theorem Alike.of {a b : Entity R} (h : SetUpAlike a b) (hs : b.state = a.state) : Alike a b := by
  obtain ⟨h1, h2, h3, h4, h5⟩ := h
  obtain ⟨an, ad, ac, amin, amax, am, as, asd⟩ := a
  obtain ⟨bn, bd, bc, bmin, bmax, bm, bs, bsd⟩ := b
  simp only at *
  subst h1 h2 h3 h4 hs
  refine ⟨bn, bsd, bd.trajectory, bd.trajectoryT, ?_⟩
  congr 1
  obtain ⟨_⟩ := ad
  obtain ⟨_⟩ := bd
  simp only [Dyn.mk.injEq] at h5 ⊢
  simp_all

theorem SetUpAlike.of_config {a b : Entity R} (h : SameConfig a b) : SetUpAlike a b := by
  obtain ⟨-, h1, h2, h3, h4, h5⟩ := h
  refine ⟨h1, h2, h3, h4, ?_⟩
  rw [← h5]

theorem SetUpAlike.trans {a b c : Entity R} (h : SetUpAlike a b) (h' : SetUpAlike b c) : SetUpAlike a c :=
  ⟨h'.1.trans h.1, h'.2.1.trans h.2.1, h'.2.2.1.trans h.2.2.1, h'.2.2.2.1.trans h.2.2.2.1, h'.2.2.2.2.trans h.2.2.2.2⟩

theorem SetUpAlike.symm {a b : Entity R} (h : SetUpAlike a b) : SetUpAlike b a :=
  ⟨h.1.symm, h.2.1.symm, h.2.2.1.symm, h.2.2.2.1.symm, h.2.2.2.2.symm⟩

variable [Field K] [LinearOrder K] [FloorRing K]

theorem step_alike (env : Env R) {a b : Entity R} (h : Alike a b) (dt : Fl R) (act : Action R) :
    Alike (a.step env dt act).entity (b.step env dt act).entity ∧ (b.step env dt act).outcome = (a.step env dt act).outcome ∧
    (b.step env dt act).warned = (a.step env dt act).warned ∧
    ((a.step env dt act).outcome = .ok () → (b.step env dt act).entity.stateDot = (a.step env dt act).entity.stateDot) := by
  obtain ⟨nm, sd, t, t', rfl⟩ := h
  have hres : ({ a with name := nm, stateDot := sd, dynamics := { a.dynamics with trajectory := t, trajectoryT := t' } } : Entity R).resolve env act
      = a.resolve env act := by
    cases act <;> rfl
  unfold Entity.step
  rw [hres]
  cases a.resolve env act with
  | error x => exact ⟨⟨_, _, _, _, rfl⟩, rfl, rfl, fun h => by cases h⟩
  | ok p =>
    obtain ⟨ty, u⟩ := p
    simp only
    cases exceeds u (a.controlMin.forDType ty) (a.controlMax.forDType ty) with
    | error x => exact ⟨⟨_, _, _, _, rfl⟩, rfl, rfl, fun h => by cases h⟩
    | ok w =>
      simp only
      cases npClip u (a.controlMin.forDType ty) (a.controlMax.forDType ty) with
      | error x => exact ⟨⟨_, _, _, _, rfl⟩, rfl, rfl, fun h => by cases h⟩
      | ok v =>
        simp only
        obtain ⟨h1, v1, v2, h2⟩ := dynStep_twin env a.dynamics t t' dt a.state v
        cases hd : a.dynamics.step env dt a.state v with
        | mk d r =>
          cases hd' : { a.dynamics with trajectory := t, trajectoryT := t' }.step env dt a.state v with
          | mk d' r' =>
            rw [hd, hd'] at h1 h2
            simp only at h1 h2
            subst h1 h2
            cases r' with
            | error x => exact ⟨⟨_, _, _, _, rfl⟩, rfl, rfl, fun h => by cases h⟩
            | ok q => exact ⟨⟨_, _, _, _, rfl⟩, rfl, rfl, fun _ => rfl⟩

theorem op_alike (env : Env R) {a b : Entity R} (h : Alike a b) (o : Op R) : Alike (a.op env o) (b.op env o) := by
  cases o with
  | step dt act => exact (step_alike env h dt act).1
  | setState v => obtain ⟨nm, sd, t, t', rfl⟩ := h; exact ⟨_, _, _, _, rfl⟩
  | setElem i v => obtain ⟨nm, sd, t, t', rfl⟩ := h; exact ⟨_, _, _, _, rfl⟩

theorem run_alike (env : Env R) (ops : List (Op R)) : ∀ {a b : Entity R}, Alike a b → Alike (a.run env ops) (b.run env ops) := by
  induction ops with
  | nil => intro a b h; exact h
  | cons o ops ih => intro a b h; exact ih (op_alike env h o)

theorem run_split (env : Env R) (e : Entity R) (a b : List (Op R)) : e.run env (a ++ b) = (e.run env a).run env b := by
  simp [Entity.run, List.foldl_append]

/-- a step of the history returned normally -/
def Spec.SomeStepDone (env : Env R) (e : Entity R) (ops : List (Op R)) : Prop :=
  ∃ before dt act after, ops = before ++ .step dt act :: after ∧ ((e.run env before).step env dt act).outcome = .ok ()

theorem op_stateDot (env : Env R) {a b : Entity R} (h : Alike a b) (hd : b.stateDot = a.stateDot) (o : Op R) :
    (b.op env o).stateDot = (a.op env o).stateDot := by
  cases o with
  | step dt act =>
    cases ho : (a.step env dt act).outcome with
    | ok u => exact (step_alike env h dt act).2.2.2 ho
    | error x =>
      have ho' := (step_alike env h dt act).2.1.trans ho
      show (b.step env dt act).entity.stateDot = (a.step env dt act).entity.stateDot
      rw [(step_error ho).2, (step_error ho').2, hd]
  | setState v => exact hd
  | setElem i v => exact hd

theorem run_stateDot (env : Env R) (ops : List (Op R)) : ∀ {a b : Entity R}, Alike a b → b.stateDot = a.stateDot →
    (b.run env ops).stateDot = (a.run env ops).stateDot := by
  induction ops with
  | nil => intro a b _ h; exact h
  | cons o ops ih => intro a b h hd; exact ih (op_alike env h o) (op_stateDot env h hd o)

/-- C127: what an entity does from now on depends on nothing but its set-up and its state vector. Let `saved` be the state of an entity after any
history. Assigned to any entity that is set up alike, whatever has been done with that one, it makes every further history have the same effects:
the states are equal after it, the next step has the same outcome and warns or does not warn alike, and from the first step that returns normally
on also the state derivatives are equal. -/
theorem C127_restore (env : Env R) (e0 e : Entity R) (hset : SetUpAlike e0 e) (ops ops' : List (Op R)) (saved : Vec R)
    (hsaved : saved = (e0.run env ops).state) (further : List (Op R)) :
    let a := e0.run env (ops ++ further)
    let b := e.run env (ops' ++ .setState saved :: further)
    b.state = a.state ∧
    (∀ dt act, (b.step env dt act).outcome = (a.step env dt act).outcome ∧ (b.step env dt act).warned = (a.step env dt act).warned) ∧
    (SomeStepDone env (e0.run env ops) further → b.stateDot = a.stateDot) := by
  have h1 : Alike (e0.run env ops) ((e.run env ops').op env (.setState saved)) := by
    refine Alike.of ?_ hsaved
    have c1 := SetUpAlike.of_config (run_sameConfig env ops e0)
    have c2 := SetUpAlike.of_config (run_sameConfig env ops' e)
    exact SetUpAlike.trans (SetUpAlike.trans (SetUpAlike.symm c1) hset) c2
  simp only
  rw [run_split, run_split, show ∀ x : Entity R, x.run env (.setState saved :: further) = (x.op env (.setState saved)).run env further from fun _ => rfl]
  generalize (e.run env ops').op env (.setState saved) = b0 at *
  generalize e0.run env ops = a0 at *
  have h2 := run_alike env further h1
  refine ⟨?_, fun dt act => ⟨(step_alike env h2 dt act).2.1, (step_alike env h2 dt act).2.2.1⟩, ?_⟩
  · obtain ⟨nm, sd, t, t', h⟩ := h2
    rw [h]
  · rintro ⟨before, dt, act, after, rfl, ho⟩
    rw [run_split, run_split]
    have h3 := run_alike env before h1
    exact run_stateDot env after (op_alike env h3 (.step dt act)) ((step_alike env h3 dt act).2.2.2 ho)

/-- C127: the assignment restores the state only: the state derivative, and with it the acceleration that an aircraft reports, is still the one of
the last step that returned normally. -/
theorem C127_derivative_stays (env : Env R) (e : Entity R) (ops : List (Op R)) (saved : Vec R) :
    (e.run env (ops ++ [.setState saved])).stateDot = (e.run env ops).stateDot := by
  rw [run_split]; rfl

end

section
variable {K : Type} {R : Fmt K} [Field K] [LinearOrder K] [FloorRing K]

theorem baseInit_alike {fields : List (CfgField R)} {layout : List String} {d : Dyn R} {cd : Vec R} {cmin cmax : Arr R}
    {cm : Option (List (String × Nat))} {kw kw' : List (String × CfgVal R)} {e e' : Entity R}
    (h : baseInit fields layout d cd cmin cmax cm kw = .ok e) (h' : baseInit fields layout d cd cmin cmax cm kw' = .ok e') : SetUpAlike e e' := by
  have key : ∀ {kw e}, baseInit fields layout d cd cmin cmax cm kw = .ok e →
      e.controlDefault = cd ∧ e.controlMin = cmin ∧ e.controlMax = cmax ∧ e.controlMap = cm ∧ e.dynamics = d := by
    intro kw e h
    unfold baseInit at h
    cases hv : validate fields kw with
    | error x => simp [hv, bind, Except.bind] at h
    | ok c =>
      cases hb : buildState c layout with
      | error x => simp [hv, hb, bind, Except.bind] at h
      | ok s =>
        simp [hv, hb, bind, Except.bind, pure, Except.pure] at h
        subst h
        exact ⟨rfl, rfl, rfl, rfl, rfl⟩
  obtain ⟨a1, a2, a3, a4, a5⟩ := key h
  obtain ⟨b1, b2, b3, b4, b5⟩ := key h'
  exact ⟨by rw [a1, b1], by rw [a2, b2], by rw [a3, b3], by rw [a4, b4], by rw [a5, b5]⟩

theorem bind_alike {α : Type} {x : Py α} {f f' : α → Py (Entity R)} {e e' : Entity R} (h : (x >>= f) = .ok e) (h' : (x >>= f') = .ok e')
    (hf : ∀ v, f v = .ok e → f' v = .ok e' → SetUpAlike e e') : SetUpAlike e e' := by
  cases x with
  | error y => cases h
  | ok v => exact hf v h h'

theorem instantiate_inv {α : Type} {mro : List PyClass} {x : Py α} {e : α} (h : instantiate mro x = .ok e) : x = .ok e := by
  unfold instantiate at h
  split at h
  · exact h
  · cases h

/-- C127: two entities built by the same constructor with the same parameters, and any names and initial values, are set up alike. -/
theorem C127_constructors (env : Env R) (uninit : List Nat → Vec R) (kw : List (String × CfgVal R)) :
    (∀ (a : CwhArgs R) e e', newCwhSpacecraft env a = .ok e → newCwhSpacecraft env { a with kwargs := kw } = .ok e' → SetUpAlike e e') ∧
    (∀ (a : SunArgs R) e e', newSun env a = .ok e → newSun env { a with kwargs := kw } = .ok e' → SetUpAlike e e') ∧
    (∀ (k : Nat) (a : IntegratorArgs R) e e', initIntegrator env a k = .ok e → initIntegrator env { a with kwargs := kw } k = .ok e' → SetUpAlike e e') ∧
    (∀ (a : Rot2dArgs R) e e', newRot2d env a = .ok e → newRot2d env { a with kwargs := kw } = .ok e' → SetUpAlike e e') ∧
    (∀ (a : SixDofArgs R) e e', newSixDof env uninit a = .ok e → newSixDof env uninit { a with kwargs := kw } = .ok e' → SetUpAlike e e') ∧
    (∀ (a : Dubins2dArgs R) e e', newDubins2d env a = .ok e → newDubins2d env { a with kwargs := kw } = .ok e' → SetUpAlike e e') ∧
    (∀ (a : Dubins3dArgs R) e e', newDubins3d env a = .ok e → newDubins3d env { a with kwargs := kw } = .ok e' → SetUpAlike e e') := by
  refine ⟨?_, ?_, ?_, ?_, ?_, ?_, ?_⟩
  · intro a e e' h h'
    exact bind_alike (instantiate_inv h) (instantiate_inv h') fun _ g g' => baseInit_alike g g'
  · intro a e e' h h'
    exact bind_alike (instantiate_inv h) (instantiate_inv h') fun _ g g' => baseInit_alike g g'
  · intro k a e e' h h'
    match k, h, h' with
    | 0, h, _ => cases h
    | 1, h, h' => exact bind_alike h h' fun _ g g' => baseInit_alike g g'
    | 2, h, h' => exact bind_alike h h' fun _ g g' => baseInit_alike g g'
    | 3, h, h' => exact bind_alike h h' fun _ g g' => baseInit_alike g g'
    | k + 4, h, _ => cases h
  · intro a e e' h h'
    refine bind_alike (instantiate_inv h) (instantiate_inv h') fun _ g g' => ?_
    exact bind_alike g g' fun _ g g' => baseInit_alike g g'
  · intro a e e' h h'
    refine bind_alike (instantiate_inv h) (instantiate_inv h') fun _ g g' => ?_
    refine bind_alike g g' fun _ g g' => ?_
    refine bind_alike g g' fun _ g g' => ?_
    refine bind_alike g g' fun _ g g' => ?_
    refine bind_alike g g' fun _ g g' => ?_
    exact bind_alike g g' fun _ g g' => baseInit_alike g g'
  · intro a e e' h h'
    exact bind_alike (instantiate_inv h) (instantiate_inv h') fun _ g g' => baseInit_alike g g'
  · intro a e e' h h'
    exact bind_alike (instantiate_inv h) (instantiate_inv h') fun _ g g' => baseInit_alike g g'

end

/-- two spacecraft that differ in name and position are set up alike, and a step returns -/
example : ∃ e e' : Entity ratFmt,
    newCwhSpacecraft (R := ratFmt) (rkEnv dopri (fun _ _ _ => [1, 2])) { n := .fin (1 / 100), kwargs := [("name", .str "a"), ("x", .num 4)] } = .ok e ∧
    newCwhSpacecraft (R := ratFmt) (rkEnv dopri (fun _ _ _ => [1, 2])) { n := .fin (1 / 100), kwargs := [("name", .str "b"), ("z", .num 3)] } = .ok e' ∧
    SetUpAlike e e' ∧ e.name ≠ e'.name ∧ e.state ≠ e'.state ∧
    SomeStepDone (rkEnv dopri (fun _ _ _ => [1, 2])) e [.setElem 0 1, .step 1 (.dict [("thrust_y", .fin (6 / 25))])] := by
  obtain ⟨e, h, g⟩ : ∃ e : Entity ratFmt,
    newCwhSpacecraft (R := ratFmt) (rkEnv dopri (fun _ _ _ => [1, 2])) { n := .fin (1 / 100), kwargs := [("name", .str "a"), ("x", .num 4)] } = .ok e ∧
    (decide (e.name = "a") && decide (e.state = [4, 0, 0, 0, 0, 0]) &&
      decide (((e.run (rkEnv dopri (fun _ _ _ => [1, 2])) [.setElem 0 1]).step (rkEnv dopri (fun _ _ _ => [1, 2])) 1
        (.dict [("thrust_y", .fin (6 / 25))])).outcome = .ok ())) = true := Demo.of_okAnd (by decide +kernel)
  obtain ⟨e', h', g'⟩ : ∃ e : Entity ratFmt,
    newCwhSpacecraft (R := ratFmt) (rkEnv dopri (fun _ _ _ => [1, 2])) { n := .fin (1 / 100), kwargs := [("name", .str "b"), ("z", .num 3)] } = .ok e ∧
    (decide (e.name = "b") && decide (e.state = [0, 0, 3, 0, 0, 0])) = true := Demo.of_okAnd (by decide +kernel)
  simp only [Bool.and_eq_true, decide_eq_true_eq] at g g'
  obtain ⟨⟨g1, g2⟩, g3⟩ := g
  refine ⟨e, e', h, h', (C127_constructors _ (fun _ => []) _).1 _ e e' h h', by rw [g1, g'.1]; decide, by rw [g2, g'.2]; decide +kernel, ?_⟩
  exact ⟨[.setElem 0 1], _, _, [], rfl, g3⟩

/-- the derivative that a restored entity shows need not be the one it had in that state: here it was zero -/
example : ∃ e : Entity ratFmt,
    newCwhSpacecraft (R := ratFmt) (rkEnv dopri (fun _ _ _ => [1, 2])) { n := .fin (1 / 100), kwargs := [("name", .str "a")] } = .ok e ∧
    (decide ((e.run (rkEnv dopri (fun _ _ _ => [1, 2])) [.step 1 (.dict [("thrust_y", .fin 1)]), .setState [0, 0, 0, 0, 0, 0]]).state = e.state) &&
     decide (e.stateDot = [0, 0, 0, 0, 0, 0]) &&
     decide ((e.run (rkEnv dopri (fun _ _ _ => [1, 2])) [.step 1 (.dict [("thrust_y", .fin 1)]), .setState [0, 0, 0, 0, 0, 0]]).stateDot ≠ e.stateDot)) = true :=
  Demo.of_okAnd (by decide +kernel)

end SAD
