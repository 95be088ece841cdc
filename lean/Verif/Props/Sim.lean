import Verif.Model.Sim
import Verif.Lemmas.Base
import Verif.Props.Demo
import Verif.Model.Cwh
import Verif.Spec.Finite

/-!
# C102: several entities in one program
-/

namespace SAD
open Spec

section
variable {K : Type} {R : Fmt K}

/-- the operations of a program on entity `i`, in order -/
def Spec.opsOf (i : Nat) (ops : List (SimOp R)) : List (Op R) :=
  ops.filterMap (fun | .on j o => if j = i then some o else none | .register _ _ => none)

/-- the entities registered with entity `i` by a program, in order -/
def Spec.registeredWith (i : Nat) (ops : List (SimOp R)) : List Nat :=
  ops.filterMap (fun | .on _ _ => none | .register j k => if j = i then some k else none)

/-- equal but for the trajectory stored in the dynamics object -/
def Twin (a b : Entity R) : Prop :=
  ∃ t t', b = { a with dynamics := { a.dynamics with trajectory := t, trajectoryT := t' } }

theorem Twin.refl (a : Entity R) : Twin a a := ⟨_, _, rfl⟩

theorem Twin.trans {a b c : Entity R} (h1 : Twin a b) (h2 : Twin b c) : Twin a c := by
  obtain ⟨t, t', rfl⟩ := h1
  obtain ⟨u, u', rfl⟩ := h2
  exact ⟨u, u', rfl⟩

theorem Twin.symm {a b : Entity R} (h : Twin a b) : Twin b a := by
  obtain ⟨t, t', rfl⟩ := h
  exact ⟨_, _, rfl⟩

theorem Twin.config {a b : Entity R} (h : Twin a b) : SameConfig a b := by
  obtain ⟨t, t', rfl⟩ := h
  exact ⟨rfl, rfl, rfl, rfl, rfl, rfl⟩

variable [Field K] [LinearOrder K]

/-- a dynamics object never reads the trajectory it stores -/
theorem odeStep_twin (env : Env R) (d : Dyn R) (t : Option (List (Vec R))) (t' : Option (Vec R)) (dt : Fl R) (s u : Vec R) :
    ({ d with trajectory := t, trajectoryT := t' }.odeStep env dt s u).2 = (d.odeStep env dt s u).2 ∧
    ∃ v v', ({ d with trajectory := t, trajectoryT := t' }.odeStep env dt s u).1
      = { (d.odeStep env dt s u).1 with trajectory := v, trajectoryT := v' } := by
  have e1 : ∀ a x c, { d with trajectory := t, trajectoryT := t' }.computeStateDot a x c = d.computeStateDot a x c := fun _ _ _ => rfl
  have e2 : ∀ a x c, { d with trajectory := t, trajectoryT := t' }.computeStateDotJax a x c = d.computeStateDotJax a x c := fun _ _ _ => rfl
  have e3 : ∀ a, { d with trajectory := t, trajectoryT := t' }.tEval a = d.tEval a := fun _ => rfl
  unfold Dyn.odeStep
  simp only [e1, e2, e3]
  split
  · split
    · exact ⟨rfl, _, _, rfl⟩
    · exact ⟨rfl, _, _, rfl⟩
  · split
    · split
      · exact ⟨rfl, _, _, rfl⟩
      · split <;> exact ⟨rfl, _, _, rfl⟩
    · split
      · split <;> exact ⟨rfl, _, _, rfl⟩
      · exact ⟨rfl, _, _, rfl⟩

variable [FloorRing K]

theorem dynStep_twin (env : Env R) (d : Dyn R) (t : Option (List (Vec R))) (t' : Option (Vec R)) (dt : Fl R) (s u : Vec R) :
    ({ d with trajectory := t, trajectoryT := t' }.step env dt s u).2 = (d.step env dt s u).2 ∧
    ∃ v v', ({ d with trajectory := t, trajectoryT := t' }.step env dt s u).1
      = { (d.step env dt s u).1 with trajectory := v, trajectoryT := v' } := by
  have e : ∀ x, { d with trajectory := t, trajectoryT := t' }.wrapAngles x = d.wrapAngles x := fun _ => rfl
  have key : ({ d with trajectory := t, trajectoryT := t' }.rawStep env dt s u).2 = (d.rawStep env dt s u).2 ∧
      ∃ v v', ({ d with trajectory := t, trajectoryT := t' }.rawStep env dt s u).1
        = { (d.rawStep env dt s u).1 with trajectory := v, trajectoryT := v' } := by
    unfold Dyn.rawStep
    simp only
    split
    · exact ⟨rfl, _, _, rfl⟩
    · exact odeStep_twin env d t t' dt s u
  unfold Dyn.step
  simp only [e]
  exact ⟨by rw [key.1], key.2⟩

theorem step_twin (env : Env R) {a b : Entity R} (h : Twin a b) (dt : Fl R) (act : Action R) :
    Twin (a.step env dt act).entity (b.step env dt act).entity ∧ (b.step env dt act).outcome = (a.step env dt act).outcome ∧
    (b.step env dt act).warned = (a.step env dt act).warned := by
  obtain ⟨t, t', rfl⟩ := h
  have hres : ({ a with dynamics := { a.dynamics with trajectory := t, trajectoryT := t' } } : Entity R).resolve env act = a.resolve env act := by
    cases act <;> rfl
  unfold Entity.step
  rw [hres]
  cases a.resolve env act with
  | error x => exact ⟨⟨_, _, rfl⟩, rfl, rfl⟩
  | ok p =>
    obtain ⟨ty, u⟩ := p
    simp only
    cases exceeds u (a.controlMin.forDType ty) (a.controlMax.forDType ty) with
    | error x => exact ⟨⟨_, _, rfl⟩, rfl, rfl⟩
    | ok w =>
      simp only
      cases npClip u (a.controlMin.forDType ty) (a.controlMax.forDType ty) with
      | error x => exact ⟨⟨_, _, rfl⟩, rfl, rfl⟩
      | ok v =>
        simp only
        obtain ⟨h1, v1, v2, h2⟩ := dynStep_twin env a.dynamics t t' dt a.state v
        cases hd : a.dynamics.step env dt a.state v with
        | mk d r =>
          cases hd' : { a.dynamics with trajectory := t, trajectoryT := t' }.step env dt a.state v with
          | mk d' r' =>
            rw [hd, hd'] at h1 h2
            simp only at h1 h2
            subst h1 h2
            cases r' with
            | error x => exact ⟨⟨_, _, rfl⟩, rfl, rfl⟩
            | ok q => exact ⟨⟨_, _, rfl⟩, rfl, rfl⟩

theorem op_twin (env : Env R) {a b : Entity R} (h : Twin a b) (o : Op R) : Twin (a.op env o) (b.op env o) := by
  cases o with
  | step dt act => exact (step_twin env h dt act).1
  | setState v => obtain ⟨t, t', rfl⟩ := h; exact ⟨_, _, rfl⟩
  | setElem i v => obtain ⟨t, t', rfl⟩ := h; exact ⟨_, _, rfl⟩

/-- the operation on an entity, as the entity sees it -/
theorem entity_on (env : Env R) {s : Sim R} {i : Nat} {e : Entity R} (h : s.entity i = some e) (o : Op R) :
    (s.op env (.on i o)).entity i = some (e.op env o) := by
  unfold Sim.entity at h
  cases hm : s.members[i]? with
  | none => simp [hm] at h
  | some m =>
    simp only [hm] at h
    cases hd : s.dynamics[m.dynamics]? with
    | none => simp [hd] at h
    | some d =>
      rw [hd] at h
      simp only [Option.map_some, Option.some.injEq] at h
      subst h
      obtain ⟨c1, c2, c3, c4, c5, -⟩ := op_sameConfig env (m.entity d) o
      have hi := (List.getElem?_eq_some_iff.1 hm).1
      have hj := (List.getElem?_eq_some_iff.1 hd).1
      simp only [Sim.op, hm, hd, Sim.entity, List.getElem?_set_self hi, List.getElem?_set_self hj, Option.map_some]
      congr 1
      generalize (m.entity d).op env o = e' at *
      cases e'
      simp only [Member.entity] at *
      simp [c1, c2, c3, c4, c5]

/-- the operation on another entity -/
theorem entity_other (env : Env R) {s : Sim R} {i j : Nat} (hij : i ≠ j) {e : Entity R} (h : s.entity j = some e) (o : Op R) :
    ∃ e', (s.op env (.on i o)).entity j = some e' ∧ Twin e e' ∧
      ((∀ m m', s.members[i]? = some m → s.members[j]? = some m' → m.dynamics ≠ m'.dynamics) → e' = e) := by
  unfold Sim.entity at h
  cases hm : s.members[j]? with
  | none => simp [hm] at h
  | some m =>
    simp only [hm] at h
    cases hd : s.dynamics[m.dynamics]? with
    | none => simp [hd] at h
    | some d =>
      rw [hd] at h
      simp only [Option.map_some, Option.some.injEq] at h
      subst h
      cases hi : s.members[i]? with
      | none => exact ⟨m.entity d, by simp [Sim.op, hi, Sim.entity, hm, hd], Twin.refl _, fun _ => rfl⟩
      | some mi =>
        cases hdi : s.dynamics[mi.dynamics]? with
        | none => exact ⟨m.entity d, by simp [Sim.op, hi, hdi, Sim.entity, hm, hd], Twin.refl _, fun _ => rfl⟩
        | some di =>
          by_cases hsame : mi.dynamics = m.dynamics
          · have hdd : di = d := by rw [hsame, hd] at hdi; exact (Option.some.inj hdi).symm
            subst hdd
            have hj := (List.getElem?_eq_some_iff.1 hd).1
            obtain ⟨-, -, -, -, -, c6⟩ := op_sameConfig env (mi.entity di) o
            refine ⟨m.entity ((mi.entity di).op env o).dynamics, ?_, ?_, fun hne => absurd hsame (hne mi m rfl rfl)⟩
            · simp only [Sim.op, hi, hdi, hd, Sim.entity, List.getElem?_set_ne hij, hm, hsame, List.getElem?_set_self hj, Option.map_some]
            · generalize ((mi.entity di).op env o).dynamics = d' at *
              refine ⟨d'.trajectory, d'.trajectoryT, ?_⟩
              have : d' = { di with trajectory := d'.trajectory, trajectoryT := d'.trajectoryT } := by
                have := c6
                simp only [Member.entity] at this
                rw [← this]
              simp only [Member.entity]
              rw [← this]
          · refine ⟨m.entity d, ?_, Twin.refl _, fun _ => rfl⟩
            simp [Sim.op, hi, hdi, Sim.entity, List.getElem?_set_ne hij, hm, List.getElem?_set_ne hsame, hd]

/-- a registration -/
theorem entity_register (env : Env R) (s : Sim R) (i j k : Nat) : (s.op env (.register i k)).entity j = s.entity j := by
  cases hi : s.members[i]? with
  | none => simp [Sim.op, hi]
  | some m =>
    simp only [Sim.op, hi, Sim.entity]
    by_cases hij : i = j
    · subst hij
      rw [List.getElem?_set_self (List.getElem?_eq_some_iff.1 hi).1, hi]
      rfl
    · rw [List.getElem?_set_ne hij]

theorem run_twin (env : Env R) (ops : List (SimOp R)) (i : Nat) : ∀ (s : Sim R) (a e : Entity R), s.entity i = some e → Twin a e →
    ∃ e', (s.run env ops).entity i = some e' ∧ Twin (a.run env (opsOf i ops)) e' := by
  induction ops with
  | nil => intro s a e h ht; exact ⟨e, h, ht⟩
  | cons o ops ih =>
    intro s a e h ht
    cases o with
    | on j o =>
      by_cases hij : j = i
      · subst hij
        have := ih (s.op env (.on j o)) (a.op env o) (e.op env o) (entity_on env h o) (op_twin env ht o)
        simpa [opsOf, Sim.run, Entity.run] using this
      · obtain ⟨e', h1, h2, -⟩ := entity_other env hij h o
        have := ih (s.op env (.on j o)) a e' h1 (ht.trans h2)
        simpa [opsOf, hij, Sim.run, Entity.run] using this
    | register j k =>
      have := ih (s.op env (.register j k)) a e (by rw [entity_register]; exact h) ht
      simpa [opsOf, Sim.run, Entity.run] using this

/-- C102: entities do not interfere. In a program that operates on several entities in any order, also on entities that share a
dynamics object, and registers partners and leads in between, every entity has the state and the state derivative it would have if
only the operations on it had been carried out. Its next step succeeds or fails, and warns, as it would then. -/
theorem C102_independent (env : Env R) (s : Sim R) (ops : List (SimOp R)) (i : Nat) (e : Entity R) (he : s.entity i = some e) :
    ∃ e', (s.run env ops).entity i = some e' ∧
      e'.state = (e.run env (opsOf i ops)).state ∧ e'.stateDot = (e.run env (opsOf i ops)).stateDot ∧ SameConfig e e' ∧
      ∀ dt a, (e'.step env dt a).outcome = ((e.run env (opsOf i ops)).step env dt a).outcome ∧
        (e'.step env dt a).warned = ((e.run env (opsOf i ops)).step env dt a).warned := by
  obtain ⟨e', h1, h2⟩ := run_twin env ops i s e e he (Twin.refl e)
  refine ⟨e', h1, ?_, ?_, SameConfig.trans (run_sameConfig env _ e) h2.config, fun dt a => (step_twin env h2 dt a).2⟩
  · obtain ⟨t, t', rfl⟩ := h2; rfl
  · obtain ⟨t, t', rfl⟩ := h2; rfl

/-- the references to dynamics objects never change -/
theorem op_refs (env : Env R) (s : Sim R) (o : SimOp R) : (s.op env o).members.map (·.dynamics) = s.members.map (·.dynamics) := by
  have key : ∀ (l : List (Member R)) (i : Nat) (m m' : Member R), l[i]? = some m → m'.dynamics = m.dynamics →
      (l.set i m').map (·.dynamics) = l.map (·.dynamics) := by
    intro l i m m' h1 h2
    rw [List.map_set, h2]
    apply List.ext_getElem?
    intro j
    by_cases hij : i = j
    · subst hij
      rw [List.getElem?_set_self (by simpa using (List.getElem?_eq_some_iff.1 h1).1)]
      simp [h1]
    · rw [List.getElem?_set_ne hij]
  cases o with
  | on i o =>
    cases h : s.members[i]? with
    | none => simp [Sim.op, h]
    | some m =>
      cases hd : s.dynamics[m.dynamics]? with
      | none => simp [Sim.op, h, hd]
      | some d => simp only [Sim.op, h, hd]; exact key _ _ m _ h rfl
  | register i j =>
    cases h : s.members[i]? with
    | none => simp [Sim.op, h]
    | some m => simp only [Sim.op, h]; exact key _ _ m _ h rfl

theorem run_private (env : Env R) (ops : List (SimOp R)) (i : Nat) : ∀ (s : Sim R) (e : Entity R), s.entity i = some e →
    (∀ j m m', j ≠ i → s.members[j]? = some m → s.members[i]? = some m' → m.dynamics ≠ m'.dynamics) →
    (s.run env ops).entity i = some (e.run env (opsOf i ops)) := by
  induction ops with
  | nil => intro s e h _; exact h
  | cons o ops ih =>
    intro s e h hp
    have hp' : ∀ j m m', j ≠ i → (s.op env o).members[j]? = some m → (s.op env o).members[i]? = some m' → m.dynamics ≠ m'.dynamics := by
      intro j m m' hji h1 h2
      have hr := op_refs env s o
      have g1 := congrArg (·[j]?) hr
      have g2 := congrArg (·[i]?) hr
      simp only [List.getElem?_map, h1, h2, Option.map_some] at g1 g2
      cases k1 : s.members[j]? with
      | none => simp [k1] at g1
      | some n1 =>
        cases k2 : s.members[i]? with
        | none => simp [k2] at g2
        | some n2 =>
          simp only [k1, k2, Option.map_some, Option.some.injEq] at g1 g2
          rw [g1, g2]
          exact hp j n1 n2 hji k1 k2
    cases o with
    | on j o =>
      by_cases hij : j = i
      · subst hij
        have := ih (s.op env (.on j o)) (e.op env o) (entity_on env h o) hp'
        simpa [opsOf, Sim.run, Entity.run] using this
      · obtain ⟨e', h1, -, h3⟩ := entity_other env hij h o
        rw [h3 (fun m m' k1 k2 => hp j m m' hij k1 k2)] at h1
        have := ih (s.op env (.on j o)) e h1 hp'
        simpa [opsOf, hij, Sim.run, Entity.run] using this
    | register j k =>
      have := ih (s.op env (.register j k)) e (by rw [entity_register]; exact h) hp'
      simpa [opsOf, Sim.run, Entity.run] using this

/-- C102: entities built by the library's constructors do not interfere at all: each is in every respect, its stored trajectory
included, as if only the operations on it had been carried out. -/
theorem C102_library (env : Env R) (es : List (Entity R)) (ops : List (SimOp R)) (i : Nat) (e : Entity R) (he : es[i]? = some e) :
    ((Sim.ofEntities es).run env ops).entity i = some (e.run env (opsOf i ops)) := by
  apply run_private
  · simp [Sim.entity, Sim.ofEntities, he, Member.entity]
  · intro j m m' hji h1 h2
    simp only [Sim.ofEntities, List.getElem?_mapIdx, Option.map_eq_some_iff] at h1 h2
    obtain ⟨a, -, rfl⟩ := h1
    obtain ⟨b, -, rfl⟩ := h2
    exact hji

/-- C102: what entities that share a dynamics object do share is the stored trajectory: after a step of one of them the others
show the trajectory of that step. -/
theorem C102_shared_trajectory (env : Env R) (s : Sim R) (i j : Nat) (mi mj : Member R) (hi : s.members[i]? = some mi)
    (hj : s.members[j]? = some mj) (hd : mj.dynamics = mi.dynamics) (ei : Entity R) (he : s.entity i = some ei) (o : Op R) :
    ∃ ej, (s.op env (.on i o)).entity j = some ej ∧ ej.dynamics.trajectory = (ei.op env o).dynamics.trajectory ∧
      ej.dynamics.trajectoryT = (ei.op env o).dynamics.trajectoryT := by
  by_cases hij : i = j
  · subst hij
    exact ⟨_, entity_on env he o, rfl, rfl⟩
  · simp only [Sim.entity, hi] at he
    cases hdd : s.dynamics[mi.dynamics]? with
    | none => simp [hdd] at he
    | some d =>
      rw [hdd] at he
      simp only [Option.map_some, Option.some.injEq] at he
      subst he
      refine ⟨mj.entity ((mi.entity d).op env o).dynamics, ?_, rfl, rfl⟩
      simp only [Sim.op, hi, hdd, Sim.entity, List.getElem?_set_ne hij, hj, hd, List.getElem?_set_self (List.getElem?_eq_some_iff.1 hdd).1,
        Option.map_some]

/-- C102: an entity's partner or lead is the one registered last; nothing else changes it. -/
theorem C102_registered (env : Env R) (s : Sim R) (ops : List (SimOp R)) (i : Nat) (m : Member R) (hm : s.members[i]? = some m) :
    ∃ m', (s.run env ops).members[i]? = some m' ∧
      m'.link = match (registeredWith i ops).getLast? with | some k => some k | none => m.link := by
  induction ops generalizing s m with
  | nil => exact ⟨m, hm, rfl⟩
  | cons o ops ih =>
    have step : ∃ m1, (s.op env o).members[i]? = some m1 ∧
        m1.link = match (registeredWith i [o]).getLast? with | some k => some k | none => m.link := by
      have hi := (List.getElem?_eq_some_iff.1 hm).1
      cases o with
      | on j o =>
        simp only [registeredWith, List.filterMap_cons, List.filterMap_nil, List.getLast?_nil]
        cases h : s.members[j]? with
        | none => exact ⟨m, by simpa [Sim.op, h] using hm, rfl⟩
        | some m0 =>
          cases hd : s.dynamics[m0.dynamics]? with
          | none => exact ⟨m, by simpa [Sim.op, h, hd] using hm, rfl⟩
          | some d =>
            simp only [Sim.op, h, hd]
            by_cases hij : j = i
            · subst hij
              rw [hm] at h
              cases h
              exact ⟨_, List.getElem?_set_self hi, rfl⟩
            · exact ⟨m, by rw [List.getElem?_set_ne hij]; exact hm, rfl⟩
      | register j k =>
        by_cases hij : j = i
        · subst hij
          refine ⟨{ m with link := some k }, ?_, by simp [registeredWith]⟩
          simp only [Sim.op, hm]
          exact List.getElem?_set_self hi
        · refine ⟨m, ?_, by simp [registeredWith, hij]⟩
          simp only [Sim.op]
          split
          · exact hm
          · simp only [List.getElem?_set_ne hij]; exact hm
    obtain ⟨m1, h1, h2⟩ := step
    obtain ⟨m', h3, h4⟩ := ih (s.op env o) m1 h1
    refine ⟨m', h3, ?_⟩
    rw [h4, h2]
    have e : registeredWith i (o :: ops) = registeredWith i [o] ++ registeredWith i ops := by
      rw [registeredWith, registeredWith, registeredWith, ← List.filterMap_append]; rfl
    rw [e, List.getLast?_append]
    cases (registeredWith i ops).getLast? <;> simp

end

/-- two of the library's spacecraft -/
example : ∃ a b : Entity ratFmt, newCwhSpacecraft (R := ratFmt) (rkEnv dopri (fun _ _ _ => [3])) { m := 2, n := .fin (1/1000), kwargs := [("name", .str "a"), ("x", .num 1)] } = .ok a ∧
    newCwhSpacecraft (R := ratFmt) (rkEnv dopri (fun _ _ _ => [3])) { m := 2, n := .fin (1/1000), kwargs := [("name", .str "b"), ("x", .num 5)] } = .ok b ∧
    [a, b][1]? = some b ∧
    (((Sim.ofEntities [a, b]).run (rkEnv dopri (fun _ _ _ => [3])) [.on 0 (.step 1 .none), .register 1 0, .on 1 (.setElem 0 7), .on 0 (.step 1 .none)]).entity 1).map (·.state)
      = some [.fin 7, 0, 0, 0, 0, 0] :=
  ⟨_, _, rfl, rfl, rfl, by decide +kernel⟩

/-- two entities that share a dynamics object -/
example : ∃ (s : Sim ratFmt) (ei : Entity ratFmt) (mi mj : Member ratFmt), s.members[0]? = some mi ∧ s.members[1]? = some mj ∧
    mj.dynamics = mi.dynamics ∧ s.entity 0 = some ei ∧ (s.entity 1).map (·.dynamics.trajectory) = some none ∧
    ((s.op Demo.env (.on 0 (.step 1 .none))).entity 1).map (fun e => (e.state, e.dynamics.trajectory)) = some ([.fin 2, .fin 0], some [[.fin 1, .fin 0], [.fin 2, .fin 0]]) :=
  ⟨⟨[⟨"a", 0, [.fin 1, .fin 0], .scalar .ninf, .scalar .pinf, none, [.fin 1, .fin 0], [.fin 0, .fin 0], none⟩,
     ⟨"b", 0, [.fin 1, .fin 0], .scalar .ninf, .scalar .pinf, none, [.fin 2, .fin 0], [.fin 0, .fin 0], none⟩],
    [Demo.dyn "RK45"]⟩, _, _, _, rfl, rfl, rfl, rfl, by decide +kernel, by decide +kernel⟩

end SAD
