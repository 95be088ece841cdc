import Verif.Lemmas.Heap
import Verif.Props.Demo
import Verif.Model.Integrators

/-! # C24: no aliasing of the state -/

set_option linter.unusedSectionVars false

namespace SAD.Spec
open SAD
variable {K : Type} {R : Fmt K}

/-- what `entity.state` evaluates to -/
def stateOf (w : World R) : Vec R := w.heap.read w.entity.stateRef
/-- the contents of `entity.state_dot` -/
def stateDotOf (w : World R) : Vec R := w.heap.read w.entity.stateDotRef
/-- the contents of the default control -/
def controlDefaultOf (w : World R) : Vec R := w.heap.read w.entity.controlDefaultRef

/-- the operations that are meant to change the state -/
def Changes : UOp R → Prop
  | .step _ _ | .assign _ | .setElem _ _ => True
  | _ => False

/-- the user's code never fetches the array object `entity.control_default` itself -/
def NoDefaultHandle (ops : List (UOp R)) : Prop := ∀ o ∈ ops, o ≠ UOp.getControlDefault

/-- the call the user's code makes, on plain values: arrays are replaced by their contents at the moment of the call -/
def call (w : World R) : UOp R → List (Op R)
  | .step dt (.ndarray ty a) => if a ∈ w.held then [.step dt (.ndarray ty (w.heap.read a))] else []
  | .step dt (.jaxArray a) => if a ∈ w.held then [.step dt (.jaxArray (w.heap.read a))] else []
  | .step dt .none => [.step dt .none]
  | .step dt (.dict items) => [.step dt (.dict items)]
  | .step dt (.list xs) => [.step dt (.list xs)]
  | .step dt .other => [.step dt .other]
  | .assign a => if a ∈ w.held then [.setState (w.heap.read a)] else []
  | .setElem i x => [.setElem i x]
  | _ => []

variable [Field K] [LinearOrder K] [FloorRing K]

/-- all calls of a program -/
def calls (env : Env R) : World R → List (UOp R) → List (Op R)
  | _, [] => []
  | w, o :: os => call w o ++ calls env (w.op env o) os

end SAD.Spec

namespace SAD
open Spec

variable {K : Type} {R : Fmt K} [Field K] [LinearOrder K] [FloorRing K]

theorem inv_new (e : Entity R) : Inv (World.new e) :=
  ⟨by simp [World.new], by simp [World.new], by simp [World.new], by simp [World.new], by simp [World.new], by simp [World.new], by simp [World.new],
    by simp [World.new]⟩

theorem inv_run {env : Env R} {w : World R} (h : Inv w) (ops : List (UOp R)) (ho : NoDefaultHandle ops) : Inv (w.run env ops) := by
  induction ops generalizing w with
  | nil => exact h
  | cons o os ih => exact ih (inv_op h o (ho o (by simp))) (fun x hx => ho x (by simp [hx]))

theorem op_default {env : Env R} {w : World R} (h : Inv w) (o : UOp R) : controlDefaultOf (w.op env o) = controlDefaultOf w := by
  cases o with
  | create v => exact (alloc_ext _ _).read _ h.ctrl
  | getState => exact (alloc_ext _ _).read _ h.ctrl
  | getPart i j => exact (alloc_ext _ _).read _ h.ctrl
  | getStateDot => rfl
  | getTrajectory i =>
    simp only [World.op]
    cases (w.entity.trajectoryRefs.getD [])[i]? <;> rfl
  | getControlDefault => rfl
  | write a v =>
    simp only [World.op]
    by_cases ha : a ∈ w.held
    · simp only [ha, if_true]
      exact read_write_ne _ _ _ _ (h.held a ha).2.2.symm
    · simp only [ha, if_false]
  | assign a =>
    simp only [World.op]
    by_cases ha : a ∈ w.held
    · simp only [ha, if_true]
      exact (alloc_ext _ _).read _ h.ctrl
    · simp only [ha, if_false]
  | setElem i x => exact read_write_ne _ _ _ _ h.state_ctrl.symm
  | step dt a =>
    simp only [World.op]
    cases a.held w.held with
    | false => rfl
    | true =>
      have sp := worldStep_spec env w dt a h.state h.dot
      show (w.step env dt a).1.heap.read (w.step env dt a).1.entity.controlDefaultRef = _
      rw [sp.obj.ctrl, sp.ext.read _ h.ctrl]
      rfl

theorem op_state {env : Env R} {w : World R} (h : Inv w) (o : UOp R) (ho : ¬ Changes o) : stateOf (w.op env o) = stateOf w := by
  cases o with
  | create v => exact (alloc_ext _ _).read _ h.state
  | getState => exact (alloc_ext _ _).read _ h.state
  | getPart i j => exact (alloc_ext _ _).read _ h.state
  | getStateDot => rfl
  | getTrajectory i =>
    simp only [World.op]
    cases (w.entity.trajectoryRefs.getD [])[i]? <;> rfl
  | getControlDefault => rfl
  | write a v =>
    simp only [World.op]
    by_cases ha : a ∈ w.held
    · simp only [ha, if_true]
      exact read_write_ne _ _ _ _ (h.held a ha).2.1.symm
    · simp only [ha, if_false]
  | assign a => exact absurd trivial ho
  | setElem i x => exact absurd trivial ho
  | step dt a => exact absurd trivial ho

theorem run_append {env : Env R} (w : World R) (xs ys : List (UOp R)) : w.run env (xs ++ ys) = (w.run env xs).run env ys := by
  simp [World.run, List.foldl_append]

/-- C24: after any program, an operation other than a step, an assignment to `entity.state` or an element setter leaves the state as it was.
In particular no in-place write to an array obtained from `entity.state`, `entity.position`, `entity.state_dot`,
`entity.dynamics.trajectory`, or passed to an assignment or as an action, reaches the state. -/
theorem C24_only_steps_and_assignments {env : Env R} (e : Entity R) (ops : List (UOp R)) (h : NoDefaultHandle ops) (o : UOp R) (ho : ¬ Changes o) :
    stateOf ((World.new e).run env (ops ++ [o])) = stateOf ((World.new e).run env ops) := by
  rw [run_append]
  exact op_state (inv_run (inv_new e) ops h) o ho

/-- C24: no program changes the default control. -/
theorem C24_default_control {env : Env R} (e : Entity R) (ops : List (UOp R)) (h : NoDefaultHandle ops) :
    controlDefaultOf ((World.new e).run env ops) = e.controlDefault := by
  have key : ∀ (os : List (UOp R)) (w : World R), Inv w → NoDefaultHandle os → controlDefaultOf (w.run env os) = controlDefaultOf w := by
    intro os
    induction os with
    | nil => intro w _ _; rfl
    | cons o os ih =>
      intro w hw ho
      rw [← op_default (env := env) hw o]
      exact ih _ (inv_op hw o (ho o (by simp))) (fun x hx => ho x (by simp [hx]))
  exact key ops _ (inv_new e) h

/-- C24: a step writes to no array that exists when it is called: not to the action array, nor to any other array the user holds. -/
theorem C24_step_writes_nothing {env : Env R} (e : Entity R) (ops : List (UOp R)) (h : NoDefaultHandle ops) (dt : Fl R) (a : HAction R) (x : Addr)
    (hx : x ∈ ((World.new e).run env ops).held) :
    ((World.new e).run env (ops ++ [.step dt a])).heap.read x = ((World.new e).run env ops).heap.read x := by
  rw [run_append]
  have hi := inv_run (env := env) (inv_new e) ops h
  show (((World.new e).run env ops).op env (.step dt a)).heap.read x = _
  simp only [World.op]
  cases a.held ((World.new e).run env ops).held with
  | false => rfl
  | true => exact (worldStep_spec env _ dt a hi.state hi.dot).ext.read x (hi.held x hx).1

/-- C24: an assignment takes the contents of the array; it does not keep the array. A later write to the array does not reach the state. -/
theorem C24_assignment_copies {env : Env R} (e : Entity R) (ops : List (UOp R)) (h : NoDefaultHandle ops) (x : Addr)
    (hx : x ∈ ((World.new e).run env ops).held) (v : Vec R) :
    stateOf ((World.new e).run env (ops ++ [.assign x])) = ((World.new e).run env ops).heap.read x ∧
    stateOf ((World.new e).run env (ops ++ [.assign x, .write x v])) = ((World.new e).run env ops).heap.read x := by
  have hi := inv_run (env := env) (inv_new e) ops h
  have h1 : stateOf ((World.new e).run env (ops ++ [.assign x])) = ((World.new e).run env ops).heap.read x := by
    rw [run_append]
    show stateOf (((World.new e).run env ops).op env (.assign x)) = _
    simp only [World.op]
    simp only [hx, if_true, stateOf, Heap.copy, alloc_snd, alloc_read]
  refine ⟨h1, ?_⟩
  rw [← h1]
  have : ops ++ [UOp.assign x, .write x v] = (ops ++ [.assign x]) ++ [.write x v] := by simp
  rw [this]
  refine C24_only_steps_and_assignments e _ ?_ _ (fun h => h)
  intro o ho
  rcases List.mem_append.1 ho with ho | ho
  · exact h o ho
  · simp only [List.mem_singleton] at ho; subst ho; exact fun h => by cases h

/-- C24: reading `entity.state` gives an array with the state's contents that is no array seen before. -/
theorem C24_read_is_new {env : Env R} (e : Entity R) (ops : List (UOp R)) (h : NoDefaultHandle ops) :
    ∃ x, ((World.new e).run env (ops ++ [.getState])).held = x :: ((World.new e).run env ops).held ∧
      x ∉ ((World.new e).run env ops).held ∧
      ((World.new e).run env (ops ++ [.getState])).heap.read x = stateOf ((World.new e).run env ops) := by
  have hi := inv_run (env := env) (inv_new e) ops h
  rw [run_append]
  refine ⟨((World.new e).run env ops).heap.cells.length, rfl, fun hx => ?_, ?_⟩
  · have := (hi.held _ hx).1
    omega
  · exact alloc_read _ _

/-- equal in everything a step reads -/
structure Agree (e e' : Entity R) : Prop where
  state : e'.state = e.state
  default : e'.controlDefault = e.controlDefault
  lo : e'.controlMin = e.controlMin
  hi : e'.controlMax = e.controlMax
  map : e'.controlMap = e.controlMap
  dyn : e'.dynamics.clear = e.dynamics.clear

theorem dynStep_clear_fst {env : Env R} {d : Dyn R} {dt : Fl R} {s u : Vec R} : (d.step env dt s u).1.clear = d.clear := by
  have h : (d.step env dt s u).1 = (d.rawStep env dt s u).1 := rfl
  have := congrArg Dyn.clear (rawStep_config env d dt s u)
  rw [h]
  exact this

theorem agree_step {env : Env R} {e e' : Entity R} (h : Agree e e') (dt : Fl R) (a : Action R) :
    Agree (e.step env dt a).entity (e'.step env dt a).entity := by
  have hres : e'.resolve env a = e.resolve env a := by
    cases a <;> simp [Entity.resolve, h.default, h.map]
  have hd : ∀ v, (e'.dynamics.step env dt e'.state v).2 = (e.dynamics.step env dt e.state v).2 := by
    intro v
    rw [← dynStep_of_clear, h.dyn, dynStep_of_clear, h.state]
  unfold Entity.step
  rw [hres]
  cases e.resolve env a with
  | error x => exact h
  | ok p =>
    obtain ⟨ty, u⟩ := p
    simp only [h.lo, h.hi]
    cases exceeds u (e.controlMin.forDType ty) (e.controlMax.forDType ty) with
    | error x => exact h
    | ok wn =>
      simp only
      cases npClip u (e.controlMin.forDType ty) (e.controlMax.forDType ty) with
      | error x => exact h
      | ok v =>
        simp only
        have h2 := hd v
        have c1 := dynStep_clear_fst (env := env) (d := e.dynamics) (dt := dt) (s := e.state) (u := v)
        have c2 := dynStep_clear_fst (env := env) (d := e'.dynamics) (dt := dt) (s := e'.state) (u := v)
        cases hp : e.dynamics.step env dt e.state v with
        | mk d r =>
        cases hp' : e'.dynamics.step env dt e'.state v with
        | mk d' r' =>
        rw [hp, hp'] at h2
        rw [hp] at c1
        rw [hp'] at c2
        simp only at h2 c1 c2
        subst h2
        have hdd : d'.clear = d.clear := by rw [c1, c2, h.dyn]
        cases r' with
        | error x => exact ⟨h.state, h.default, rfl, rfl, h.map, hdd⟩
        | ok q => exact ⟨rfl, h.default, rfl, rfl, h.map, hdd⟩

theorem step_config_agree {env : Env R} {w : World R} (h : Inv w) (dt : Fl R) (a : HAction R) :
    Agree (w.value.step env dt (a.value w.heap)).entity (w.step env dt a).1.value := by
  have sp := worldStep_spec env w dt a h.state h.dot
  have hc : ∀ (e : Entity R) (x : Action R), (e.step env dt x).entity.controlDefault = e.controlDefault ∧ (e.step env dt x).entity.controlMin = e.controlMin ∧
      (e.step env dt x).entity.controlMax = e.controlMax ∧ (e.step env dt x).entity.controlMap = e.controlMap ∧
      (e.step env dt x).entity.dynamics.clear = e.dynamics.clear := by
    intro e x
    unfold Entity.step
    cases e.resolve env x with
    | error x => exact ⟨rfl, rfl, rfl, rfl, rfl⟩
    | ok p =>
      obtain ⟨ty, u⟩ := p
      simp only
      cases exceeds u (e.controlMin.forDType ty) (e.controlMax.forDType ty) with
      | error x => exact ⟨rfl, rfl, rfl, rfl, rfl⟩
      | ok wn =>
        simp only
        cases npClip u (e.controlMin.forDType ty) (e.controlMax.forDType ty) with
        | error x => exact ⟨rfl, rfl, rfl, rfl, rfl⟩
        | ok v =>
          simp only
          have c1 := dynStep_clear_fst (env := env) (d := e.dynamics) (dt := dt) (s := e.state) (u := v)
          cases hp : e.dynamics.step env dt e.state v with
          | mk d r =>
          rw [hp] at c1
          cases r with
          | error x => exact ⟨rfl, rfl, rfl, rfl, c1⟩
          | ok q => exact ⟨rfl, rfl, rfl, rfl, c1⟩
  obtain ⟨c1, c2, c3, c4, c5⟩ := hc w.value (a.value w.heap)
  refine ⟨sp.state, ?_, ?_, ?_, ?_, ?_⟩
  · rw [c1]
    show (w.step env dt a).1.heap.read (w.step env dt a).1.entity.controlDefaultRef = _
    rw [sp.obj.ctrl, sp.ext.read _ h.ctrl]
    rfl
  · rw [c2]; exact sp.obj.controlMin
  · rw [c3]; exact sp.obj.controlMax
  · rw [c4]; exact sp.obj.controlMap
  · rw [c5]; exact sp.obj.dyn

theorem Agree.trans {a b c : Entity R} (h1 : Agree a b) (h2 : Agree b c) : Agree a c :=
  ⟨h2.state.trans h1.state, h2.default.trans h1.default, h2.lo.trans h1.lo, h2.hi.trans h1.hi, h2.map.trans h1.map, h2.dyn.trans h1.dyn⟩

theorem call_step (w : World R) (dt : Fl R) (a : HAction R) :
    call w (.step dt a) = if a.held w.held then [Op.step dt (a.value w.heap)] else [] := by
  cases a <;> simp [call, HAction.held, HAction.value]

theorem op_value {env : Env R} {w : World R} (h : Inv w) (o : UOp R) {ev : Entity R} (ha : Agree ev w.value) :
    Agree (ev.run env (call w o)) (w.op env o).value := by
  have hcd := op_default (env := env) h o
  have hst := op_state (env := env) h o
  have same : ¬ Changes o → (w.op env o).entity = w.entity → call w o = [] → Agree (ev.run env (call w o)) (w.op env o).value := by
    intro hn he hc
    rw [hc]
    refine ha.trans ⟨hst hn, hcd, ?_, ?_, ?_, ?_⟩ <;> simp only [World.value, he]
  cases o with
  | create v => exact same id rfl rfl
  | getState => exact same id rfl rfl
  | getPart i j => exact same id rfl rfl
  | getStateDot => exact same id rfl rfl
  | getTrajectory i =>
    refine same id ?_ rfl
    simp only [World.op]
    cases (w.entity.trajectoryRefs.getD [])[i]? <;> rfl
  | getControlDefault => exact same id rfl rfl
  | write a v =>
    refine same id ?_ rfl
    simp only [World.op]
    split <;> rfl
  | assign a =>
    simp only [World.op, call] at hcd ⊢
    by_cases hm : a ∈ w.held
    · simp only [hm, if_true] at hcd ⊢
      refine ⟨?_, hcd.trans ha.default, ha.lo, ha.hi, ha.map, ha.dyn⟩
      simp [World.value, Heap.copy, Entity.run, Entity.op]
    · simp only [hm, if_false]
      exact ha
  | setElem i x =>
    refine ⟨?_, hcd.trans ha.default, ha.lo, ha.hi, ha.map, ha.dyn⟩
    have e1 : (w.op env (.setElem i x)).value.state = (w.heap.read w.entity.stateRef).set i x := by
      show (w.heap.write w.entity.stateRef _).read w.entity.stateRef = _
      rw [write_read _ _ _ _ h.state, if_pos rfl]
    have e2 : w.heap.read w.entity.stateRef = ev.state := ha.state
    rw [e1, e2]
    rfl
  | step dt a =>
    rw [call_step]
    simp only [World.op]
    cases a.held w.held with
    | false => exact ha
    | true => exact (agree_step ha dt _).trans (step_config_agree h dt a)

/-- C24: a program that works with array objects leaves the entity in the state that the same calls, made on plain values, would leave it in:
the value model used by all other properties is faithful. -/
theorem C24_values_suffice {env : Env R} (e : Entity R) (ops : List (UOp R)) (h : NoDefaultHandle ops) :
    stateOf ((World.new e).run env ops) = (e.run env (calls env (World.new e) ops)).state := by
  have key : ∀ (os : List (UOp R)) (w : World R) (ev : Entity R), Inv w → NoDefaultHandle os → Agree ev w.value →
      Agree (ev.run env (calls env w os)) (w.run env os).value := by
    intro os
    induction os with
    | nil => intro w ev _ _ h; exact h
    | cons o os ih =>
      intro w ev hw ho ha
      have := ih (w.op env o) (ev.run env (call w o)) (inv_op hw o (ho o (by simp))) (fun x hx => ho x (by simp [hx])) (op_value hw o ha)
      have e1 : ev.run env (calls env w (o :: os)) = (ev.run env (call w o)).run env (calls env (w.op env o) os) := by
        simp [calls, Entity.run, List.foldl_append]
      rw [e1]
      exact this
  exact (key ops (World.new e) e (inv_new e) h ⟨rfl, rfl, rfl, rfl, rfl, rfl⟩).state

/-- The hypothesis about `entity.control_default` is needed: the attribute is the array itself, and a write to it changes the default
control of every later step. -/
theorem C24_default_handle_leaks {env : Env R} (e : Entity R) (v : Vec R) :
    ∃ x, ((World.new e).run env [.getControlDefault]).held = [x] ∧
      controlDefaultOf ((World.new e).run env [.getControlDefault, .write x v]) = v :=
  ⟨2, rfl, by simp [World.run, World.op, World.new, controlDefaultOf, Heap.write, Heap.read]⟩

/-- `entity.state_dot` is the array itself, too: a write to it changes what the attribute says. -/
theorem C24_state_dot_leaks {env : Env R} (e : Entity R) (v : Vec R) :
    ∃ x, ((World.new e).run env [.getStateDot]).held = [x] ∧
      stateDotOf ((World.new e).run env [.getStateDot, .write x v]) = v ∧
      stateOf ((World.new e).run env [.getStateDot, .write x v]) = e.state :=
  ⟨1, rfl, by simp [World.run, World.op, World.new, stateDotOf, Heap.write, Heap.read], by simp [World.run, World.op, World.new, stateOf, Heap.write, Heap.read]⟩

/-! A program on the demo entity: the user makes an array, steps with it, overwrites it, reads the state, overwrites the copy, fetches a
trajectory row and overwrites it (the row whose contents became the state), and assigns. -/

def demoProgram : List (UOp ratFmt) :=
  [.create [.fin 1, .fin (1/2)], .step 1 (.ndarray .f64 3), .write 3 [.fin 9, .fin 9], .getState, .getTrajectory 1, .getStateDot]

example : NoDefaultHandle demoProgram := by
  intro o ho
  simp only [demoProgram, List.mem_cons, List.not_mem_nil, or_false] at ho
  rcases ho with rfl | rfl | rfl | rfl | rfl | rfl <;> exact fun h => by cases h

example : stateOf ((World.new (Demo.entity "RK45")).run Demo.env demoProgram) = [.fin 4, .fin (9/2)] ∧
    3 ∈ ((World.new (Demo.entity "RK45" : Entity ratFmt)).run Demo.env demoProgram).held ∧
    (((World.new (Demo.entity "RK45" : Entity ratFmt)).run Demo.env demoProgram).held.length = 4) ∧
    ((World.new (Demo.entity "RK45")).run Demo.env demoProgram).held.map ((World.new (Demo.entity "RK45")).run Demo.env demoProgram).heap.read =
      [[.fin 1, .fin (1/2)], [.fin 4, .fin (9/2)], [.fin 4, .fin (9/2)], [(.fin 9 : Fl ratFmt), .fin 9]] := by decide +kernel

/-- overwriting everything the user holds does not change the state -/
example : stateOf ((((World.new (Demo.entity "RK45" : Entity ratFmt)).run Demo.env demoProgram).held.map (fun a => UOp.write a [.fin 0])).foldl
    (World.op Demo.env) ((World.new (Demo.entity "RK45")).run Demo.env demoProgram)) = [.fin 4, .fin (9/2)] := by decide +kernel

end SAD
