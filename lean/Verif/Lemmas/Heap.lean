import Verif.Model.Heap
import Verif.Lemmas.Base

/-! # The heap model refines the value model -/

set_option linter.unusedSectionVars false

namespace SAD
open Spec

section
variable {K : Type} {R : Fmt K}

/-- `h'` holds at least the arrays of `h`, unchanged -/
structure Extends (h h' : Heap R) : Prop where
  size : h.cells.length ≤ h'.cells.length
  read : ∀ a, a < h.cells.length → h'.read a = h.read a

theorem Extends.refl (h : Heap R) : Extends h h := ⟨le_refl _, fun _ _ => rfl⟩
theorem Extends.trans {a b c : Heap R} (h1 : Extends a b) (h2 : Extends b c) : Extends a c :=
  ⟨h1.size.trans h2.size, fun x hx => (h2.read x (lt_of_lt_of_le hx h1.size)).trans (h1.read x hx)⟩

theorem alloc_ext (h : Heap R) (v : Vec R) : Extends h (h.alloc v).1 := by
  refine ⟨by simp [Heap.alloc], ?_⟩
  intro a ha
  simp [Heap.alloc, Heap.read, List.getD_eq_getElem?_getD, List.getElem?_append_left ha]

@[simp] theorem alloc_snd (h : Heap R) (v : Vec R) : (h.alloc v).2 = h.cells.length := rfl
@[simp] theorem alloc_size (h : Heap R) (v : Vec R) : (h.alloc v).1.cells.length = h.cells.length + 1 := by simp [Heap.alloc]
@[simp] theorem alloc_read (h : Heap R) (v : Vec R) : (h.alloc v).1.read h.cells.length = v := by
  simp [Heap.alloc, Heap.read, List.getD_eq_getElem?_getD]

theorem write_read (h : Heap R) (a b : Addr) (v : Vec R) (ha : a < h.cells.length) :
    (h.write a v).read b = if b = a then v else h.read b := by
  simp only [Heap.write, Heap.read, List.getD_eq_getElem?_getD, List.getElem?_set]
  by_cases hb : a = b
  · subst hb; simp [ha]
  · simp [hb, Ne.symm hb]

@[simp] theorem write_size (h : Heap R) (a : Addr) (v : Vec R) : (h.write a v).cells.length = h.cells.length := by simp [Heap.write]

theorem read_write_ne (h : Heap R) (a b : Addr) (v : Vec R) (hb : b ≠ a) : (h.write a v).read b = h.read b := by
  simp only [Heap.write, Heap.read, List.getD_eq_getElem?_getD, List.getElem?_set, Ne.symm hb, if_false]

theorem Extends.write {h h' : Heap R} (he : Extends h h') {a : Addr} (ha : h.cells.length ≤ a) (v : Vec R) : Extends h (h'.write a v) := by
  refine ⟨by simpa using he.size, ?_⟩
  intro b hb
  rw [read_write_ne _ _ _ _ (by omega)]
  exact he.read b hb

theorem allocs_spec (vs : List (Vec R)) (h : Heap R) : Extends h (h.allocs vs).1 ∧
    (∀ a ∈ (h.allocs vs).2, h.cells.length ≤ a ∧ a < (h.allocs vs).1.cells.length) ∧ (h.allocs vs).2.map (h.allocs vs).1.read = vs := by
  induction vs generalizing h with
  | nil => exact ⟨Extends.refl h, by simp [Heap.allocs], rfl⟩
  | cons v vs ih =>
    obtain ⟨i1, i2, i3⟩ := ih (h.alloc v).1
    have e : h.allocs (v :: vs) = (((h.alloc v).1.allocs vs).1, h.cells.length :: ((h.alloc v).1.allocs vs).2) := rfl
    rw [e]
    simp only
    have hs := i1.size
    simp only [alloc_size] at hs i2
    refine ⟨(alloc_ext h v).trans i1, ?_, ?_⟩
    · intro a ha
      rcases List.mem_cons.1 ha with rfl | ha
      · omega
      · have := i2 a ha; omega
    · rw [List.map_cons, i3, i1.read _ (by simp), alloc_read]

theorem applyDictH_spec (map : List (String × Nat)) (items : List (String × Fl R)) (h0 h : Heap R) (c : Addr) (he : Extends h0 h) (hc0 : h0.cells.length ≤ c)
    (hc : c < h.cells.length) :
    Extends h0 (applyDictH map items h c).1 ∧ (applyDictH map items h c).1.cells.length = h.cells.length ∧
    ((applyDictH map items h c).2 = .ok () → applyDict map items (h.read c) = .ok ((applyDictH map items h c).1.read c)) ∧
    (∀ x, (applyDictH map items h c).2 = .error x → applyDict map items (h.read c) = .error x) := by
  induction items generalizing h with
  | nil => exact ⟨he, rfl, fun _ => rfl, fun x hx => by cases hx⟩
  | cons p items ih =>
    obtain ⟨nm, val⟩ := p
    unfold applyDictH applyDict
    cases hl : lookup map nm with
    | none =>
      simp only
      exact ⟨he, trivial, (fun h => by cases h), (fun x hx => by cases hx; rfl)⟩
    | some i =>
      simp only
      cases hs : setIdx (h.read c) i val with
      | error x =>
        simp only
        exact ⟨he, trivial, (fun h => by cases h), (fun x hx => by cases hx; rfl)⟩
      | ok v =>
        simp only
        have := ih (h.write c v) (he.write hc0 v) (by simpa using hc)
        rw [write_read _ _ _ _ hc, if_pos rfl, write_size] at this
        exact this

/-- the value of an action -/
def HAction.value (h : Heap R) : HAction R → Action R
  | .none => .none
  | .dict items => .dict items
  | .list xs => .list xs
  | .ndarray ty a => .ndarray ty (h.read a)
  | .jaxArray a => .jaxArray (h.read a)
  | .other => .other

variable [Field K] [LinearOrder K] [FloorRing K]

theorem controlH_spec (env : Env R) (e : HEntity R) (h : Heap R) (a : HAction R) (ev : Entity R) (h1 : ev.controlDefault = h.read e.controlDefaultRef)
    (h2 : ev.controlMap = e.controlMap) :
    Extends h (controlH env e h a).1 ∧
    (∀ ty c, (controlH env e h a).2 = .ok (ty, c) → ev.resolve env (a.value h) = .ok (ty, (controlH env e h a).1.read c)) ∧
    (∀ x, (controlH env e h a).2 = .error x → ev.resolve env (a.value h) = .error x) := by
  cases a with
  | none =>
    refine ⟨alloc_ext h _, ?_, fun x hx => by cases hx⟩
    intro ty c hc
    cases hc
    simp [HAction.value, Entity.resolve, h1, controlH, Heap.copy]
  | dict items =>
    unfold controlH HAction.value Entity.resolve
    rw [h2]
    cases hm : e.controlMap with
    | none => exact ⟨Extends.refl h, (fun ty c hc => by cases hc), fun x hx => by cases hx; rfl⟩
    | some m =>
      simp only [Heap.copy]
      have hs := applyDictH_spec m items h (h.alloc (h.read e.controlDefaultRef)).1 h.cells.length (alloc_ext h _) (le_refl _) (by simp)
      rw [alloc_read] at hs
      obtain ⟨s1, s2, s3, s4⟩ := hs
      have e1 : h.alloc (h.read e.controlDefaultRef) = ((h.alloc (h.read e.controlDefaultRef)).1, h.cells.length) := rfl
      rw [e1]
      simp only
      cases hr : applyDictH m items (h.alloc (h.read e.controlDefaultRef)).1 h.cells.length with
      | mk h' r =>
        rw [hr] at s1 s2 s3 s4
        cases r with
        | error x =>
          refine ⟨s1, (fun ty c hc => by cases hc), ?_⟩
          intro y hy
          cases hy
          rw [h1, s4 x rfl]
          rfl
        | ok u =>
          refine ⟨s1, ?_, fun x hx => by cases hx⟩
          intro ty c hc
          cases hc
          rw [h1, s3 rfl]
          rfl
  | list xs =>
    refine ⟨alloc_ext h _, ?_, fun x hx => by cases hx⟩
    intro ty c hc
    cases hc
    simp [HAction.value, Entity.resolve, controlH]
  | ndarray ty a =>
    refine ⟨alloc_ext h _, ?_, fun x hx => by cases hx⟩
    intro ty c hc
    cases hc
    simp [HAction.value, Entity.resolve, controlH, Heap.copy]
  | jaxArray a =>
    unfold controlH HAction.value Entity.resolve
    cases hj : env.jaxInstalled with
    | false => exact ⟨Extends.refl h, (fun ty c hc => by cases hc), fun x hx => by cases hx; rfl⟩
    | true =>
      refine ⟨alloc_ext h _, ?_, fun x hx => by cases hx⟩
      intro ty c hc
      cases hc
      simp [Heap.copy]
  | other => exact ⟨Extends.refl h, (fun ty c hc => by cases hc), fun x hx => by cases hx; rfl⟩

/-- the dynamics without its mutable attributes -/
def Dyn.clear (d : Dyn R) : Dyn R := { d with trajectory := none, trajectoryT := none }

theorem rawStep_clear (env : Env R) (d : Dyn R) (dt : Fl R) (s u : Vec R) : (d.clear.rawStep env dt s u).2 = (d.rawStep env dt s u).2 := by
  unfold Dyn.rawStep
  have e0 : d.clear.custom = d.custom := rfl
  rw [e0]
  cases hc : d.custom with
  | some f => simp only
  | none =>
    simp only
    unfold Dyn.odeStep
    have e1 : d.clear.integrationMethod = d.integrationMethod := rfl
    have e2 : d.clear.useJax = d.useJax := rfl
    have e3 : d.clear.trajectorySamples = d.trajectorySamples := rfl
    rw [e1, e2, e3]
    split
    · have e4 : env.solveIvp (fun t y => d.clear.computeStateDot t y u) dt s (d.clear.tEval dt) =
          env.solveIvp (fun t y => d.computeStateDot t y u) dt s (d.tEval dt) := rfl
      rw [e4]
      cases env.solveIvp (fun t y => d.computeStateDot t y u) dt s (d.tEval dt) <;> rfl
    · split
      · split
        · rfl
        · split <;> rfl
      · split
        · split <;> rfl
        · rfl

theorem rawStep_of_clear {env : Env R} {d d' : Dyn R} (h : d.clear = d'.clear) (dt : Fl R) (s u : Vec R) :
    (d.rawStep env dt s u).2 = (d'.rawStep env dt s u).2 := by
  rw [← rawStep_clear, h, rawStep_clear]

/-- the rows stored by a step on a dynamics without trajectory: the last one is the next state -/
theorem rawStep_trajectory {env : Env R} {d : Dyn R} (h : d.trajectory = none) {dt : Fl R} {s u : Vec R} {rows : List (Vec R)}
    (hr : (d.rawStep env dt s u).1.trajectory = some rows) {next sd : Vec R} (hok : (d.rawStep env dt s u).2 = .ok (next, sd)) :
    rows.getLast? = some next := by
  unfold Dyn.rawStep at hr hok
  cases hc : d.custom with
  | some f => simp [hc, h] at hr
  | none =>
    simp only [hc] at hr hok
    unfold Dyn.odeStep at hr hok
    split at hr
    · rename_i hm
      rw [if_pos hm] at hok
      split at hr
      · rename_i h1
        simp [h] at hr
      · rename_i sol h1
        simp only [h1] at hok
        cases hr
        obtain ⟨n, hn, hok⟩ := Except.bind_ok.1 hok
        obtain ⟨sd', hsd, hok⟩ := Except.bind_ok.1 hok
        cases hok
        unfold lastRow at hn
        split at hn
        · rename_i r hr; cases hn; exact hr
        · cases hn
    · split at hr
      · split at hr
        · simp [h] at hr
        · split at hr <;> simp [h] at hr
      · split at hr
        · split at hr <;> simp [h] at hr
        · simp [h] at hr

/-- everything of the entity object that a step does not replace -/
structure SameObj (e e' : HEntity R) : Prop where
  name : e'.name = e.name
  controlMin : e'.controlMin = e.controlMin
  controlMax : e'.controlMax = e.controlMax
  controlMap : e'.controlMap = e.controlMap
  dyn : e'.dynamics.clear = e.dynamics.clear
  ctrl : e'.controlDefaultRef = e.controlDefaultRef

theorem SameObj.refl (e : HEntity R) : SameObj e e := ⟨rfl, rfl, rfl, rfl, rfl, rfl⟩

structure DynStepH (env : Env R) (e : HEntity R) (h : Heap R) (dt : Fl R) (s u : Vec R) (r : Heap R × HEntity R × Py (Addr × Addr)) : Prop where
  ext : Extends h r.1
  obj : SameObj e r.2.1
  stateRef : r.2.1.stateRef = e.stateRef
  dotRef : r.2.1.stateDotRef = e.stateDotRef
  traj : r.2.1.trajectoryRefs = e.trajectoryRefs ∨ ∃ l, r.2.1.trajectoryRefs = some l ∧ ∀ a ∈ l, h.cells.length ≤ a ∧ a < r.1.cells.length
  ok : ∀ n sd, r.2.2 = .ok (n, sd) → h.cells.length ≤ n ∧ n < r.1.cells.length ∧ h.cells.length ≤ sd ∧ sd < r.1.cells.length ∧
    (e.dynamics.step env dt s u).2 = .ok (r.1.read n, r.1.read sd)
  error : ∀ x, r.2.2 = .error x → (e.dynamics.step env dt s u).2 = .error x

theorem finishStep_spec (dyn : Dyn R) (h0 h1 : Heap R) (view : Option Addr) (next sd : Vec R) (hx1 : Extends h0 h1)
    (hv : ∀ a, view = some a → h0.cells.length ≤ a ∧ a < h1.cells.length ∧ h1.read a = next) :
    Extends h1 (finishStep dyn h1 view next sd).1 ∧
    (∀ n s, (finishStep dyn h1 view next sd).2 = .ok (n, s) → h0.cells.length ≤ n ∧ n < (finishStep dyn h1 view next sd).1.cells.length ∧
      h0.cells.length ≤ s ∧ s < (finishStep dyn h1 view next sd).1.cells.length ∧
      (do let next ← npClip next dyn.stateMin dyn.stateMax
          let next ← dyn.wrapAngles next
          pure (next, sd)) = (.ok ((finishStep dyn h1 view next sd).1.read n, (finishStep dyn h1 view next sd).1.read s) : Py (Vec R × Vec R))) ∧
    (∀ x, (finishStep dyn h1 view next sd).2 = .error x →
      (do let next ← npClip next dyn.stateMin dyn.stateMax
          let next ← dyn.wrapAngles next
          pure (next, sd)) = (.error x : Py (Vec R × Vec R))) := by
  unfold finishStep
  obtain ⟨h2, n, hn, hx2, hn1, hn2, hn3⟩ : ∃ h2 n, nextState h1 view next = (h2, n) ∧ Extends h1 h2 ∧ h0.cells.length ≤ n ∧ n < h2.cells.length ∧ h2.read n = next := by
    cases view with
    | some a =>
      have := hv a rfl
      exact ⟨h1, a, rfl, Extends.refl h1, this.1, this.2.1, this.2.2⟩
    | none => exact ⟨(h1.alloc next).1, h1.cells.length, rfl, alloc_ext h1 next, hx1.size, by simp, by simp⟩
  rw [hn]
  have ea : ∀ (h : Heap R) v, h.alloc v = ((h.alloc v).1, h.cells.length) := fun _ _ => rfl
  simp only
  rw [ea h2 sd]
  simp only
  have hx3 : Extends h1 (h2.alloc sd).1 := hx2.trans (alloc_ext h2 sd)
  have hr3 : (h2.alloc sd).1.read n = next := by rw [(alloc_ext h2 sd).read n hn2, hn3]
  rw [hr3]
  have hle := hx1.size
  have hle2 := hx2.size
  cases hclip : npClip next dyn.stateMin dyn.stateMax with
  | error x =>
    simp only
    refine ⟨hx3, (fun n sd hn => by cases hn), ?_⟩
    intro y hy
    cases hy
    rfl
  | ok clipped =>
    simp only
    rw [ea _ clipped]
    simp only
    have hx4 : Extends h1 ((h2.alloc sd).1.alloc clipped).1 := hx3.trans (alloc_ext _ clipped)
    have hsd4 : ((h2.alloc sd).1.alloc clipped).1.read h2.cells.length = sd := by
      rw [(alloc_ext _ clipped).read _ (by simp), alloc_read]
    cases hw : dyn.angleWrapCenters with
    | none =>
      simp only
      refine ⟨hx4, ?_, (fun x hx => by cases hx)⟩
      intro a b hab
      cases hab
      have l2 : ((h2.alloc sd).1.alloc clipped).1.cells.length = h2.cells.length + 2 := by simp
      have l3 : (h2.alloc sd).1.cells.length = h2.cells.length + 1 := by simp
      refine ⟨by omega, by rw [l3]; simp, by omega, by omega, ?_⟩
      show (dyn.wrapAngles clipped >>= _) = _
      simp only [Dyn.wrapAngles, hw, alloc_read, hsd4]
      rfl
    | some ctr =>
      simp only [alloc_read]
      cases hwr : dyn.wrapAngles clipped with
      | error x =>
        simp only
        refine ⟨hx4, (fun n sd hn => by cases hn), ?_⟩
        intro y hy
        cases hy
        show (dyn.wrapAngles clipped >>= _) = _
        rw [hwr]
        rfl
      | ok wrapped =>
        simp only
        rw [ea _ wrapped]
        simp only
        have hx5 := hx4.trans (alloc_ext ((h2.alloc sd).1.alloc clipped).1 wrapped)
        have hsd5 : (((h2.alloc sd).1.alloc clipped).1.alloc wrapped).1.read h2.cells.length = sd := by
          rw [(alloc_ext _ wrapped).read _ (by simp; omega), hsd4]
        have l2 : ((h2.alloc sd).1.alloc clipped).1.cells.length = h2.cells.length + 2 := by simp
        have l3 : (((h2.alloc sd).1.alloc clipped).1.alloc wrapped).1.cells.length = h2.cells.length + 3 := by simp
        refine ⟨hx5, ?_, (fun x hx => by cases hx)⟩
        intro a b hab
        cases hab
        refine ⟨by omega, by omega, by omega, by omega, ?_⟩
        show (dyn.wrapAngles clipped >>= _) = _
        rw [hwr]
        simp only [alloc_read, hsd5]
        rfl

theorem dynStepH_spec (env : Env R) (e : HEntity R) (h : Heap R) (dt : Fl R) (state control : Addr) :
    DynStepH env e h dt (h.read state) (h.read control) (dynStepH env e h dt state control) := by
  have hraw : (Dyn.rawStep env { e.dynamics with trajectory := none } dt (h.read state) (h.read control)).2 =
      (e.dynamics.rawStep env dt (h.read state) (h.read control)).2 :=
    rawStep_of_clear (d := { e.dynamics with trajectory := none }) (d' := e.dynamics) rfl dt _ _
  have hcfg := rawStep_config env { e.dynamics with trajectory := none } dt (h.read state) (h.read control)
  unfold dynStepH
  cases hd : Dyn.rawStep env { e.dynamics with trajectory := none } dt (h.read state) (h.read control) with
  | mk d r =>
  rw [hd] at hraw hcfg
  simp only at hraw hcfg
  have hclear : d.clear = e.dynamics.clear := by
    have := congrArg Dyn.clear hcfg
    exact this
  have hstep : (e.dynamics.step env dt (h.read state) (h.read control)).2 = (do
      let (next, sd) ← r
      let next ← npClip next e.dynamics.stateMin e.dynamics.stateMax
      let next ← e.dynamics.wrapAngles next
      pure (next, sd)) := by
    rw [hraw]
    rfl
  obtain ⟨h1, e1, view, hst, hx1, ho, hs1, hs2, ht, hv⟩ : ∃ h1 e1 view, storeTrajectory e h d = (h1, e1, view) ∧ Extends h h1 ∧ SameObj e e1 ∧
      e1.stateRef = e.stateRef ∧ e1.stateDotRef = e.stateDotRef ∧
      (e1.trajectoryRefs = e.trajectoryRefs ∨ ∃ l, e1.trajectoryRefs = some l ∧ ∀ a ∈ l, h.cells.length ≤ a ∧ a < h1.cells.length) ∧
      (∀ next sd, r = .ok (next, sd) → ∀ a, view = some a → h.cells.length ≤ a ∧ a < h1.cells.length ∧ h1.read a = next) := by
    unfold storeTrajectory
    cases ht : d.trajectory with
    | none =>
      exact ⟨h, { e with dynamics := d }, none, rfl, Extends.refl h, ⟨rfl, rfl, rfl, rfl, hclear, rfl⟩, rfl, rfl, .inl rfl,
        (fun _ _ _ a ha => by cases ha)⟩
    | some rows =>
      obtain ⟨a1, a2, a3⟩ := allocs_spec rows h
      refine ⟨(h.allocs rows).1, { e with dynamics := d, trajectoryRefs := some (h.allocs rows).2 }, _, rfl, a1, ⟨rfl, rfl, rfl, rfl, hclear, rfl⟩,
        rfl, rfl, .inr ⟨_, rfl, a2⟩, ?_⟩
      intro next sd hok a ha
      have hmem := List.mem_of_getLast? ha
      refine ⟨(a2 a hmem).1, (a2 a hmem).2, ?_⟩
      have hl : rows.getLast? = some next :=
        rawStep_trajectory (env := env) (d := { e.dynamics with trajectory := none }) rfl (dt := dt) (s := h.read state) (u := h.read control)
          (by rw [hd]; exact ht) (by rw [hd]; exact hok)
      rw [← a3, List.getLast?_map, ha] at hl
      simpa using hl
  simp only [hst]
  cases r with
  | error x =>
    exact ⟨hx1, ho, hs1, hs2, ht, (fun n sd hn => by cases hn), (fun y hy => by cases hy; rw [hstep]; rfl)⟩
  | ok p =>
    obtain ⟨next, sd⟩ := p
    obtain ⟨f1, f2, f3⟩ := finishStep_spec e.dynamics h h1 view next sd hx1 (hv next sd rfl)
    cases hf : finishStep e.dynamics h1 view next sd with
    | mk h2 r2 =>
    rw [hf] at f1 f2 f3
    simp only [hf]
    refine ⟨hx1.trans f1, ho, hs1, hs2, ?_, ?_, ?_⟩
    · rcases ht with ht | ⟨l, hl, ht⟩
      · exact .inl ht
      · exact .inr ⟨l, hl, fun a ha => ⟨(ht a ha).1, lt_of_lt_of_le (ht a ha).2 f1.size⟩⟩
    · intro n s hn
      obtain ⟨g1, g2, g3, g4, g5⟩ := f2 n s hn
      refine ⟨g1, g2, g3, g4, ?_⟩
      rw [hstep]
      exact g5
    · intro x hx
      rw [hstep]
      exact f3 x hx

/-- the value of an entity: the contents of its arrays -/
def World.value (w : World R) : Entity R where
  name := w.entity.name
  dynamics := w.entity.dynamics.clear
  controlDefault := w.heap.read w.entity.controlDefaultRef
  controlMin := w.entity.controlMin
  controlMax := w.entity.controlMax
  controlMap := w.entity.controlMap
  state := w.heap.read w.entity.stateRef
  stateDot := w.heap.read w.entity.stateDotRef

/-- what `World.step` does, for a world whose references are valid -/
structure StepH (env : Env R) (w : World R) (dt : Fl R) (a : HAction R) (r : World R × Py Unit) : Prop where
  ext : Extends w.heap r.1.heap
  held : r.1.held = w.held
  obj : SameObj w.entity r.1.entity
  result : r.2 = (w.value.step env dt (a.value w.heap)).outcome
  state : r.1.heap.read r.1.entity.stateRef = (w.value.step env dt (a.value w.heap)).entity.state
  stateDot : r.1.heap.read r.1.entity.stateDotRef = (w.value.step env dt (a.value w.heap)).entity.stateDot
  stateRef : r.1.entity.stateRef = w.entity.stateRef ∨ (w.heap.cells.length ≤ r.1.entity.stateRef ∧ r.1.entity.stateRef < r.1.heap.cells.length)
  dotRef : r.1.entity.stateDotRef = w.entity.stateDotRef ∨ (w.heap.cells.length ≤ r.1.entity.stateDotRef ∧ r.1.entity.stateDotRef < r.1.heap.cells.length)
  distinct : w.entity.stateDotRef ≠ w.entity.stateRef → r.1.entity.stateDotRef ≠ r.1.entity.stateRef
  traj : r.1.entity.trajectoryRefs = w.entity.trajectoryRefs ∨ ∃ l, r.1.entity.trajectoryRefs = some l ∧
    ∀ x ∈ l, w.heap.cells.length ≤ x ∧ x < r.1.heap.cells.length ∧ x ≠ r.1.entity.stateRef

theorem dynStep_of_clear {env : Env R} (d : Dyn R) (dt : Fl R) (s u : Vec R) : (d.clear.step env dt s u).2 = (d.step env dt s u).2 := by
  unfold Dyn.step
  have := rawStep_clear env d dt s u
  simp only
  rw [this]
  rfl

theorem worldStep_spec (env : Env R) (w : World R) (dt : Fl R) (a : HAction R) (hs : w.entity.stateRef < w.heap.cells.length)
    (hd : w.entity.stateDotRef < w.heap.cells.length) : StepH env w dt a (w.step env dt a) := by
  obtain ⟨c1, c2, c3⟩ := controlH_spec env w.entity w.heap a w.value rfl rfl
  unfold World.step
  cases hc : controlH env w.entity w.heap a with
  | mk h1 r1 =>
  rw [hc] at c1 c2 c3
  simp only at c1 c2 c3
  have stay : ∀ (h : Heap R) (x : PyErr), Extends w.heap h → (w.value.step env dt (a.value w.heap)).entity.state = w.value.state →
      (w.value.step env dt (a.value w.heap)).entity.stateDot = w.value.stateDot →
      (w.value.step env dt (a.value w.heap)).outcome = .error x → StepH env w dt a ({ w with heap := h }, .error x) := by
    intro h x hx h1 h2 h3
    exact ⟨hx, rfl, SameObj.refl _, h3.symm, by rw [h1]; exact hx.read _ hs, by rw [h2]; exact hx.read _ hd, .inl rfl, .inl rfl, id, .inl rfl⟩
  cases r1 with
  | error x =>
    simp only
    have := c3 x rfl
    apply stay h1 x c1 <;> simp [Entity.step, this]
  | ok p =>
    obtain ⟨ty, c⟩ := p
    have hres := c2 ty c rfl
    simp only
    cases hex : exceeds (h1.read c) (w.entity.controlMin.forDType ty) (w.entity.controlMax.forDType ty) with
    | error x =>
      simp only
      have hex' : exceeds (h1.read c) (w.value.controlMin.forDType ty) (w.value.controlMax.forDType ty) = .error x := hex
      apply stay h1 x c1 <;> simp [Entity.step, hres, hex']
    | ok wn =>
      simp only
      have hex' : exceeds (h1.read c) (w.value.controlMin.forDType ty) (w.value.controlMax.forDType ty) = .ok wn := hex
      cases hcl : npClip (h1.read c) (w.entity.controlMin.forDType ty) (w.entity.controlMax.forDType ty) with
      | error x =>
        simp only
        have hcl' : npClip (h1.read c) (w.value.controlMin.forDType ty) (w.value.controlMax.forDType ty) = .error x := hcl
        apply stay h1 x c1 <;> simp [Entity.step, hres, hex', hcl']
      | ok v =>
        simp only
        have hcl' : npClip (h1.read c) (w.value.controlMin.forDType ty) (w.value.controlMax.forDType ty) = .ok v := hcl
        have ea : ∀ (h : Heap R) v, h.alloc v = ((h.alloc v).1, h.cells.length) := fun _ _ => rfl
        rw [ea h1 v]
        simp only [Heap.copy]
        have hx2 : Extends w.heap (h1.alloc v).1 := c1.trans (alloc_ext _ _)
        rw [hx2.read _ hs, ea (h1.alloc v).1]
        simp only
        generalize hh3 : ((h1.alloc v).1.alloc (w.heap.read w.entity.stateRef)).1 = h3
        have hx3 : Extends w.heap h3 := by rw [← hh3]; exact hx2.trans (alloc_ext _ _)
        have hrs : h3.read (h1.alloc v).1.cells.length = w.value.state := by rw [← hh3, alloc_read]; rfl
        have hrc : h3.read h1.cells.length = v := by
          rw [← hh3, (alloc_ext _ _).read _ (by simp), alloc_read]
        have sp := dynStepH_spec env w.entity h3 dt (h1.alloc v).1.cells.length h1.cells.length
        rw [hrs, hrc] at sp
        cases hdn : dynStepH env w.entity h3 dt (h1.alloc v).1.cells.length h1.cells.length with
        | mk h4 er =>
        obtain ⟨e4, r4⟩ := er
        rw [hdn] at sp
        obtain ⟨s1, s2, s3, s4, s5, s6, s7⟩ := sp
        simp only at s1 s2 s3 s4 s5 s6 s7
        have hx4 := hx3.trans s1
        have l3 := hx3.size
        have hst := dynStep_of_clear (env := env) w.entity.dynamics dt w.value.state v
        cases r4 with
        | error x =>
          have hv : (w.value.dynamics.step env dt w.value.state v).2 = .error x := by rw [← s7 x rfl, ← hst]; rfl
          have hstep : ∃ d, w.value.step env dt (a.value w.heap) = ⟨{ w.value with dynamics := d }, wn, .error x⟩ := by
            unfold Entity.step
            simp only [hres, hex', hcl']
            cases hq : w.value.dynamics.step env dt w.value.state v with
            | mk d q =>
              rw [hq] at hv
              simp only at hv
              subst hv
              exact ⟨d, rfl⟩
          obtain ⟨d, hstep⟩ := hstep
          simp only
          refine ⟨hx4, rfl, s2, by rw [hstep], ?_, ?_, .inl s3, .inl s4, (fun h => by simp only [s3, s4]; exact h), ?_⟩
          · rw [hstep]; simp only [s3]; exact hx4.read _ hs
          · rw [hstep]; simp only [s4]; exact hx4.read _ hd
          · rcases s5 with s5 | ⟨l, hl, hm⟩
            · exact .inl s5
            · refine .inr ⟨l, hl, fun x hx => ⟨by have := hm x hx; omega, (hm x hx).2, ?_⟩⟩
              simp only [s3]
              have := hm x hx; omega
        | ok p =>
          obtain ⟨n, sd⟩ := p
          obtain ⟨t1, t2, t3, t4, t5⟩ := s6 n sd rfl
          have hv : (w.value.dynamics.step env dt w.value.state v).2 = .ok (h4.read n, h4.read sd) := by rw [← t5, ← hst]; rfl
          have hstep : ∃ d, w.value.step env dt (a.value w.heap) =
              ⟨{ w.value with dynamics := d, state := h4.read n, stateDot := h4.read sd }, wn, .ok ()⟩ := by
            unfold Entity.step
            simp only [hres, hex', hcl']
            cases hq : w.value.dynamics.step env dt w.value.state v with
            | mk d q =>
              rw [hq] at hv
              simp only at hv
              subst hv
              exact ⟨d, rfl⟩
          obtain ⟨d, hstep⟩ := hstep
          simp only
          rw [ea h4]
          simp only
          have l4 := s1.size
          refine ⟨hx4.trans (alloc_ext _ _), rfl, ⟨s2.name, s2.controlMin, s2.controlMax, s2.controlMap, s2.dyn, s2.ctrl⟩, by rw [hstep], ?_, ?_,
            .inr ⟨by simp only; omega, by simp⟩, .inr ⟨by simp only; omega, by simp only [alloc_size]; omega⟩, (fun _ => by simp only; omega), ?_⟩
          · rw [hstep]; simp
          · rw [hstep]; simp only; rw [(alloc_ext _ _).read _ t4]
          · rcases s5 with s5 | ⟨l, hl, hm⟩
            · exact .inl s5
            · refine .inr ⟨l, hl, fun x hx => ⟨?_, ?_, ?_⟩⟩ <;> have := hm x hx <;> (try simp only [alloc_size]) <;> omega

/-- The invariant of a world: references are valid; no array the user can reach is the state or the default control. -/
structure Inv (w : World R) : Prop where
  state : w.entity.stateRef < w.heap.cells.length
  dot : w.entity.stateDotRef < w.heap.cells.length
  ctrl : w.entity.controlDefaultRef < w.heap.cells.length
  held : ∀ a ∈ w.held, a < w.heap.cells.length ∧ a ≠ w.entity.stateRef ∧ a ≠ w.entity.controlDefaultRef
  state_ctrl : w.entity.stateRef ≠ w.entity.controlDefaultRef
  dot_state : w.entity.stateDotRef ≠ w.entity.stateRef
  dot_ctrl : w.entity.stateDotRef ≠ w.entity.controlDefaultRef
  traj : ∀ a ∈ w.entity.trajectoryRefs.getD [], a < w.heap.cells.length ∧ a ≠ w.entity.stateRef ∧ a ≠ w.entity.controlDefaultRef

theorem inv_step {env : Env R} {w : World R} (h : Inv w) (dt : Fl R) (a : HAction R) : Inv (w.step env dt a).1 := by
  have sp := worldStep_spec env w dt a h.state h.dot
  have hsz := sp.ext.size
  have e1 := sp.obj.ctrl
  obtain ⟨i1, i2, i3, i4, i5, i6, i7, i8⟩ := h
  refine ⟨?_, ?_, ?_, ?_, ?_, sp.distinct i6, ?_, ?_⟩
  · rcases sp.stateRef with h | h
    · rw [h]; omega
    · omega
  · rcases sp.dotRef with h | h
    · rw [h]; omega
    · omega
  · rw [e1]; omega
  · intro x hx
    rw [sp.held] at hx
    have := i4 x hx
    rw [e1]
    refine ⟨by omega, ?_, this.2.2⟩
    rcases sp.stateRef with h | h
    · rw [h]; exact this.2.1
    · omega
  · rw [e1]
    rcases sp.stateRef with h | h
    · rw [h]; exact i5
    · omega
  · rw [e1]
    rcases sp.dotRef with h | h
    · rw [h]; exact i7
    · omega
  · intro x hx
    rw [e1]
    rcases sp.traj with h | ⟨l, hl, hm⟩
    · rw [h] at hx
      have := i8 x hx
      refine ⟨by omega, ?_, this.2.2⟩
      rcases sp.stateRef with h | h
      · rw [h]; exact this.2.1
      · omega
    · rw [hl] at hx
      have := hm x hx
      exact ⟨this.2.1, this.2.2, by omega⟩

theorem mem_getD {l : Option (List Addr)} {i : Nat} {a : Addr} (h : (l.getD [])[i]? = some a) : a ∈ l.getD [] := List.mem_of_getElem? h

theorem inv_alloc {w : World R} (h : Inv w) (v : Vec R) : Inv { w with heap := (w.heap.alloc v).1, held := w.heap.cells.length :: w.held } := by
  obtain ⟨i1, i2, i3, i4, i5, i6, i7, i8⟩ := h
  refine ⟨by simp only [alloc_size]; omega, by simp only [alloc_size]; omega, by simp only [alloc_size]; omega, ?_, i5, i6, i7, ?_⟩
  · intro a ha
    rcases List.mem_cons.1 ha with rfl | ha
    · simp only [alloc_size]; omega
    · have := i4 a ha
      simp only [alloc_size]
      exact ⟨by omega, this.2⟩
  · intro a ha
    have := i8 a ha
    simp only [alloc_size]
    exact ⟨by omega, this.2⟩

theorem inv_write {w : World R} (h : Inv w) (a : Addr) (v : Vec R) : Inv { w with heap := w.heap.write a v } := by
  obtain ⟨i1, i2, i3, i4, i5, i6, i7, i8⟩ := h
  exact ⟨by simpa using i1, by simpa using i2, by simpa using i3, by simpa using i4, i5, i6, i7, by simpa using i8⟩

theorem inv_op {env : Env R} {w : World R} (h : Inv w) (o : UOp R) (ho : o ≠ .getControlDefault) : Inv (w.op env o) := by
  cases o with
  | create v => exact inv_alloc h v
  | getState => exact inv_alloc h _
  | getPart i j => exact inv_alloc h _
  | getStateDot =>
    obtain ⟨i1, i2, i3, i4, i5, i6, i7, i8⟩ := h
    refine ⟨i1, i2, i3, ?_, i5, i6, i7, i8⟩
    intro a ha
    rcases List.mem_cons.1 ha with rfl | ha
    · exact ⟨i2, i6, i7⟩
    · exact i4 a ha
  | getTrajectory i =>
    simp only [World.op]
    cases ht : (w.entity.trajectoryRefs.getD [])[i]? with
    | none => exact h
    | some b =>
      obtain ⟨i1, i2, i3, i4, i5, i6, i7, i8⟩ := h
      refine ⟨i1, i2, i3, ?_, i5, i6, i7, i8⟩
      intro a ha
      rcases List.mem_cons.1 ha with rfl | ha
      · exact i8 _ (mem_getD ht)
      · exact i4 a ha
  | getControlDefault => exact absurd rfl ho
  | write a v =>
    simp only [World.op]
    by_cases ha : a ∈ w.held
    · simp only [ha, if_true]; exact inv_write h a v
    · simp only [ha, if_false]; exact h
  | assign a =>
    simp only [World.op]
    by_cases ha : a ∈ w.held
    · simp only [ha, if_true]
      obtain ⟨i1, i2, i3, i4, i5, i6, i7, i8⟩ := h
      refine ⟨by simp [Heap.copy], by simp [Heap.copy]; omega, by simp [Heap.copy]; omega, ?_, ?_, ?_, i7, ?_⟩
      · intro b hb
        have := i4 b hb
        simp only [Heap.copy, alloc_size, alloc_snd]
        exact ⟨by omega, by omega, this.2.2⟩
      · simp only [Heap.copy, alloc_snd]; omega
      · simp only [Heap.copy, alloc_snd]; omega
      · intro b hb
        have := i8 b hb
        simp only [Heap.copy, alloc_size, alloc_snd]
        exact ⟨by omega, by omega, this.2.2⟩
    · simp only [ha, if_false]; exact h
  | setElem i x => exact inv_write h _ _
  | step dt a =>
    simp only [World.op]
    cases a.held w.held with
    | true => exact inv_step h dt a
    | false => exact h

end
end SAD
