import Verif.Props.Control
import Verif.Props.Units
import Verif.Lemmas.Point

/-! # C74: actuators by name -/

set_option linter.unusedSectionVars false

namespace SAD
open Spec

/-- The documented actuators of a class in the order of its action vector; `none` for the classes without named actuators and
for the integrators (C27: there the names do not select channels). -/
def Spec.EntityClass.actuators {K : Type} {R : Fmt K} [Field K] [LinearOrder K] : EntityClass R → Option (List String)
  | .cwh _ => some ["thrust_x", "thrust_y", "thrust_z"]
  | .rot2d _ => some ["thrust_x", "thrust_y", "moment_z"]
  | .sixDof _ _ => some ["thrust_x", "thrust_y", "thrust_z", "moment_x", "moment_y", "moment_z"]
  | .dubins2d _ => some ["heading_rate", "acceleration"]
  | .dubins3d _ => some ["gamma_rate", "roll_rate", "acceleration"]
  | _ => none

section
variable {K : Type} {R : Fmt K} [Field K] [LinearOrder K]

theorem new_actuators {c : EntityClass R} {env : Env R} {kw : List (String × CfgVal R)} {e : Entity R}
    (h : c.new env kw = .ok e) {names : List String} (hn : c.actuators = some names) :
    e.controlMap = some names.zipIdx ∧ e.controlDefault = names.map (fun _ => 0) ∧ names.Nodup := by
  cases c with
  | integrator1d a => cases hn
  | integrator2d a => cases hn
  | integrator3d a => cases hn
  | sun a => cases hn
  | cwh a =>
    cases hn
    simp only [EntityClass.new, newCwhSpacecraft] at h
    have h := instantiate_ok h
    unfold initCwhSpacecraft at h
    obtain ⟨d, -, h⟩ := Except.bind_ok.1 h
    obtain ⟨-, h2, -, -, h5⟩ := baseInit_ok h
    exact ⟨h5, h2, by decide⟩
  | rot2d a =>
    cases hn
    simp only [EntityClass.new, newRot2d] at h
    have h := instantiate_ok h
    unfold initRot2d at h
    obtain ⟨p, -, h⟩ := Except.bind_ok.1 h
    obtain ⟨d, -, h⟩ := Except.bind_ok.1 h
    obtain ⟨-, h2, -, -, h5⟩ := baseInit_ok h
    exact ⟨h5, h2, by decide⟩
  | sixDof uninit a =>
    cases hn
    simp only [EntityClass.new, newSixDof] at h
    have h := instantiate_ok h
    unfold initSixDof at h
    obtain ⟨_, -, h⟩ := Except.bind_ok.1 h
    obtain ⟨_, -, h⟩ := Except.bind_ok.1 h
    obtain ⟨_, -, h⟩ := Except.bind_ok.1 h
    obtain ⟨_, -, h⟩ := Except.bind_ok.1 h
    obtain ⟨_, -, h⟩ := Except.bind_ok.1 h
    obtain ⟨d, -, h⟩ := Except.bind_ok.1 h
    obtain ⟨-, h2, -, -, h5⟩ := baseInit_ok h
    exact ⟨h5, h2, by decide⟩
  | dubins2d a =>
    cases hn
    simp only [EntityClass.new, newDubins2d] at h
    have h := instantiate_ok h
    unfold initDubins2d at h
    obtain ⟨d, -, h⟩ := Except.bind_ok.1 h
    obtain ⟨-, h2, -, -, h5⟩ := baseInit_ok h
    exact ⟨h5, h2, by decide⟩
  | dubins3d a =>
    cases hn
    simp only [EntityClass.new, newDubins3d] at h
    have h := instantiate_ok h
    unfold initDubins3d at h
    obtain ⟨d, -, h⟩ := Except.bind_ok.1 h
    obtain ⟨-, h2, -, -, h5⟩ := baseInit_ok h
    exact ⟨h5, h2, by decide⟩

theorem mem_zipIdx0 {names : List String} {name : String} {i : Nat} : (name, i) ∈ names.zipIdx ↔ names[i]? = some name := by
  rw [List.mk_mem_zipIdx_iff_getElem?]

variable [FloorRing K]

/-- For every spacecraft and aircraft class, in every arithmetic and after every history: an action naming actuators does what
the array action does that has the given values in the documented order, and 0 for every actuator not named. -/
theorem C74_named_actuators (env : Env R) (c : EntityClass R) (names : List String) (hn : c.actuators = some names)
    (kw : List (String × CfgVal R)) (e0 : Entity R) (h0 : c.new env kw = .ok e0) (ops : List (Op R)) (dt : Fl R)
    (items : List (String × Fl R)) (hitems : Keys items) (hknown : ∀ name v, (name, v) ∈ items → name ∈ names) :
    (e0.run env ops).step env dt (.dict items)
      = (e0.run env ops).step env dt (.ndarray .f64 (names.map (fun name => (lookup items name).getD 0))) := by
  obtain ⟨-, h2, -, -, h5, -⟩ := run_sameConfig env ops e0
  obtain ⟨g1, g2, g3⟩ := new_actuators h0 hn
  rw [g2] at h2
  rw [g1] at h5
  obtain ⟨u, ⟨hl, ha, hb⟩, hu⟩ := C04_dict_action env (e0.run env ops) dt _ items h5
    (by unfold Keys; simpa [List.zipIdx_map_fst] using g3) hitems
    (by
      intro a b i h1 h2
      rw [mem_zipIdx0] at h1 h2
      rw [h1] at h2
      exact Option.some.inj h2)
    (by
      intro a i h1
      rw [mem_zipIdx0] at h1
      rw [h2, List.length_map]
      exact (List.getElem?_eq_some_iff.1 h1).1)
    (by
      intro name v hm
      obtain ⟨i, hi⟩ := List.getElem?_of_mem (hknown name v hm)
      exact ⟨i, mem_zipIdx0.2 hi⟩)
  rw [hu]
  have : u = names.map (fun name => (lookup items name).getD 0) := by
    apply List.ext_getElem?
    intro i
    rw [List.getElem?_map]
    cases hi : names[i]? with
    | none =>
      rw [List.getElem?_eq_none_iff] at hi
      rw [Option.map_none, List.getElem?_eq_none_iff, hl, h2, List.length_map]
      exact hi
    | some name =>
      cases hv : lookup items name with
      | some v => rw [ha name v i (lookup_mem hv) (mem_zipIdx0.2 hi)]; simp [hv]
      | none =>
        rw [hb i, h2, List.getElem?_map, hi]
        · simp [hv]
        · intro name' v hm hmem
          rw [mem_zipIdx0, hi] at hmem
          cases hmem
          rw [lookup_of_mem hitems hm] at hv
          cases hv
  rw [this]

/-- Naming an actuator the class does not have raises `KeyError` and changes nothing. -/
theorem C74_unknown_actuator (env : Env R) (c : EntityClass R) (names : List String) (hn : c.actuators = some names)
    (kw : List (String × CfgVal R)) (e0 : Entity R) (h0 : c.new env kw = .ok e0) (ops : List (Op R)) (dt : Fl R)
    (items : List (String × Fl R)) (name : String) (v : Fl R) (hm : (name, v) ∈ items) (hu : name ∉ names) :
    ((e0.run env ops).step env dt (.dict items)).outcome = .error .keyError ∧
    ((e0.run env ops).step env dt (.dict items)).entity = e0.run env ops := by
  obtain ⟨-, h2, -, -, h5, -⟩ := run_sameConfig env ops e0
  obtain ⟨g1, g2, g3⟩ := new_actuators h0 hn
  rw [g2] at h2
  rw [g1] at h5
  rw [C05_unknown_actuator env (e0.run env ops) dt _ items h5 (by
      intro a i h1
      rw [mem_zipIdx0] at h1
      rw [h2, List.length_map]
      exact (List.getElem?_eq_some_iff.1 h1).1) name v hm (by
      intro i hi
      rw [mem_zipIdx0] at hi
      exact hu (List.mem_of_getElem? hi))]
  exact ⟨rfl, rfl⟩

/-- No action, and the empty dict, mean all actuators at 0. -/
theorem C74_no_action (env : Env R) (c : EntityClass R) (names : List String) (hn : c.actuators = some names)
    (kw : List (String × CfgVal R)) (e0 : Entity R) (h0 : c.new env kw = .ok e0) (ops : List (Op R)) (dt : Fl R) :
    (e0.run env ops).step env dt .none = (e0.run env ops).step env dt (.ndarray .f64 (names.map (fun _ => 0))) := by
  obtain ⟨-, h2, -, -, h5, -⟩ := run_sameConfig env ops e0
  obtain ⟨g1, g2, g3⟩ := new_actuators h0 hn
  rw [g2] at h2
  exact step_congr (by simp [Entity.resolve, h2])

/-- The Sun has no actuators: every dict raises `AssertionError` and changes nothing. -/
theorem C74_sun (env : Env R) (a : SunArgs R) (kw : List (String × CfgVal R)) (e0 : Entity R)
    (h0 : (EntityClass.sun a).new env kw = .ok e0) (ops : List (Op R)) (dt : Fl R) (items : List (String × Fl R)) :
    ((e0.run env ops).step env dt (.dict items)).outcome = .error .assertionError ∧
    ((e0.run env ops).step env dt (.dict items)).entity = e0.run env ops := by
  obtain ⟨-, -, -, -, h5, -⟩ := run_sameConfig env ops e0
  simp only [EntityClass.new, newSun] at h0
  have h := instantiate_ok h0
  unfold initSun at h
  obtain ⟨d, -, h⟩ := Except.bind_ok.1 h
  obtain ⟨-, -, -, -, g5⟩ := baseInit_ok h
  rw [g5] at h5
  rw [C05_dict_without_map env _ dt items h5]
  exact ⟨rfl, rfl⟩

/-- the theorems' hypotheses are met: a spacecraft and an aircraft whose named actions reach the right channels -/
example : (EntityClass.cwh (R := ratFmt) { kwargs := [] }).actuators = some ["thrust_x", "thrust_y", "thrust_z"] ∧
    ∃ e0 : Entity ratFmt, (EntityClass.cwh { integrationMethod := "Euler", kwargs := [] }).new Demo.env [("name", .str "a")] = .ok e0 ∧
      (e0.step Demo.env 12 (.dict [("thrust_z", .fin (1/2)), ("thrust_y", .fin 1)])).entity.state
        = [.fin 0, .fin 0, .fin 0, .fin 0, .fin 1, .fin (1/2)] :=
  ⟨rfl, _, rfl, by decide +kernel⟩

example : ∃ e0 : Entity ratFmt, (EntityClass.dubins3d { integrationMethod := "Euler", kwargs := [] }).new Demo.env [("name", .str "a")] = .ok e0 ∧
      (e0.step Demo.env 1 (.dict [("acceleration", .fin 10)])).entity.state.getLast? = some (.fin 210) ∧
      (e0.step Demo.env 1 (.dict [("thrust_x", .fin 10)])).outcome = .error .keyError :=
  ⟨_, rfl, by decide +kernel, by decide +kernel⟩

example : ∃ e0 : Entity ratFmt, (EntityClass.sun { kwargs := [] }).new Demo.env [("name", .str "a")] = .ok e0 := ⟨_, rfl⟩

end
end SAD
