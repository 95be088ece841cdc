import Verif.Props.Actuators
import Verif.Props.Linear

/-! # C80: array actions of the wrong length -/

set_option linter.unusedSectionVars false

namespace SAD
open Spec

/-- the classes whose documented control limits are given per channel -/
def Spec.EntityClass.limitsPerChannel {K : Type} {R : Fmt K} [Field K] [LinearOrder K] : EntityClass R → Bool
  | .rot2d _ | .sixDof _ _ | .dubins2d _ | .dubins3d _ => true
  | _ => false

section
variable {K : Type} {R : Fmt K} [Field K] [LinearOrder K]

theorem sixDofLimit_length {env : Env R} {uninit : List Nat → Vec R} {a : SixDofArgs R} {e : Entity R}
    (h : newSixDof env uninit a = .ok e) :
    ∃ lo hi, e.controlMin = .vec lo ∧ e.controlMax = .vec hi ∧ lo.length = 6 ∧ hi.length = 6 := by
  simp only [newSixDof] at h
  have h := instantiate_ok h
  unfold initSixDof at h
  obtain ⟨_, -, h⟩ := Except.bind_ok.1 h
  obtain ⟨_, -, h⟩ := Except.bind_ok.1 h
  obtain ⟨_, -, h⟩ := Except.bind_ok.1 h
  obtain ⟨_, -, h⟩ := Except.bind_ok.1 h
  obtain ⟨_, -, h⟩ := Except.bind_ok.1 h
  obtain ⟨d, -, h⟩ := Except.bind_ok.1 h
  obtain ⟨-, -, h3, h4, -⟩ := baseInit_ok h
  exact ⟨_, _, h3, h4, by simp, by simp⟩

theorem new_limits {c : EntityClass R} {env : Env R} {kw : List (String × CfgVal R)} {e : Entity R}
    (h : c.new env kw = .ok e) (hc : c.limitsPerChannel = true) {names : List String} (hn : c.actuators = some names) :
    2 ≤ names.length ∧ ∃ lo hi, e.controlMin = .vec lo ∧ e.controlMax = .vec hi ∧ lo.length = names.length ∧
      hi.length = names.length := by
  cases c with
  | integrator1d a => cases hc
  | integrator2d a => cases hc
  | integrator3d a => cases hc
  | sun a => cases hc
  | cwh a => cases hc
  | rot2d a =>
    cases hn
    simp only [EntityClass.new, newRot2d] at h
    have h := instantiate_ok h
    unfold initRot2d at h
    obtain ⟨p, -, h⟩ := Except.bind_ok.1 h
    obtain ⟨d, -, h⟩ := Except.bind_ok.1 h
    obtain ⟨-, -, h3, h4, -⟩ := baseInit_ok h
    exact ⟨by decide, _, _, h3, h4, rfl, rfl⟩
  | sixDof uninit a =>
    cases hn
    exact ⟨by decide, sixDofLimit_length h⟩
  | dubins2d a =>
    cases hn
    simp only [EntityClass.new, newDubins2d] at h
    have h := instantiate_ok h
    unfold initDubins2d at h
    obtain ⟨d, -, h⟩ := Except.bind_ok.1 h
    obtain ⟨-, -, h3, h4, -⟩ := baseInit_ok h
    exact ⟨by decide, _, _, h3, h4, rfl, rfl⟩
  | dubins3d a =>
    cases hn
    simp only [EntityClass.new, newDubins3d] at h
    have h := instantiate_ok h
    unfold initDubins3d at h
    obtain ⟨d, -, h⟩ := Except.bind_ok.1 h
    obtain ⟨-, -, h3, h4, -⟩ := baseInit_ok h
    exact ⟨by decide, _, _, h3, h4, rfl, rfl⟩

theorem bcast2_bad {α β γ : Type} (f : α → β → γ) {xs : List α} {ys : List β} (h : xs.length ≠ ys.length) (hx : xs.length ≠ 1)
    (hy : ys.length ≠ 1) : bcast2 f xs ys = .error .valueError := by
  unfold bcast2
  rw [if_neg h]
  match xs, ys, hx, hy with
  | [], [], _, _ => exact absurd rfl h
  | [], _ :: _ :: _, _, _ => rfl
  | _ :: _ :: _, [], _, _ => rfl
  | _ :: _ :: _, _ :: _ :: _, _, _ => rfl

theorem zipWith_replicate {α β γ : Type} (f : α → β → γ) (x : α) : ∀ ys : List β,
    List.zipWith f (List.replicate ys.length x) ys = ys.map (f x)
  | [] => rfl
  | y :: ys => by simp [List.replicate_succ, zipWith_replicate f x ys]

theorem bcast2_one {α β γ : Type} (f : α → β → γ) (x : α) {ys : List β} {n : Nat} (hn : ys.length = n) (h2 : 2 ≤ n) :
    bcast2 f [x] ys = .ok (ys.map (f x)) ∧ bcast2 f (List.replicate n x) ys = .ok (ys.map (f x)) := by
  subst hn
  constructor
  · unfold bcast2
    rw [if_neg (by simp; omega)]
  · unfold bcast2
    rw [if_pos (by simp), zipWith_replicate]

variable [FloorRing K]

theorem step_one_element {env : Env R} {e : Entity R} {lo hi : Vec R} {n : Nat} (h1 : e.controlMin = .vec lo)
    (h2 : e.controlMax = .vec hi) (hlo : lo.length = n) (hhi : hi.length = n) (hn : 2 ≤ n) (dt : Fl R) (ty : DType) (x : Fl R) :
    e.step env dt (.ndarray ty [x]) = e.step env dt (.ndarray ty (List.replicate n x)) := by
  have k1 : exceeds [x] (.vec lo) (.vec hi) = exceeds (List.replicate n x) (.vec lo) (.vec hi) := by
    unfold exceeds
    simp only [Arr.toVec, (bcast2_one _ x hlo hn).1, (bcast2_one _ x hlo hn).2, (bcast2_one _ x hhi hn).1, (bcast2_one _ x hhi hn).2]
  have k2 : npClip [x] (.vec lo) (.vec hi) = npClip (List.replicate n x) (.vec lo) (.vec hi) := by
    unfold npClip
    simp only [Arr.toVec, (bcast2_one _ x hlo hn).1, (bcast2_one _ x hlo hn).2]
  unfold Entity.step
  simp only [Entity.resolve, h1, h2, Arr.forDType, k1, k2]

theorem step_list (env : Env R) (e : Entity R) (dt : Fl R) (xs : Vec R) :
    e.step env dt (.list xs) = e.step env dt (.ndarray .f32 (xs.map Fl.cast32)) := by
  unfold Entity.step
  simp only [Entity.resolve]

/-- A one-element array or list given to a class with limits per channel (the planar rotating and the six-degrees-of-freedom
spacecraft, the Dubins aircraft) does not raise: it does, in every respect, what the array does that repeats the element for every
actuator. In every arithmetic, with every solver, after every history. -/
theorem C80_one_element (env : Env R) (c : EntityClass R) (names : List String) (hn : c.actuators = some names)
    (hc : c.limitsPerChannel = true) (kw : List (String × CfgVal R)) (e0 : Entity R) (h0 : c.new env kw = .ok e0)
    (ops : List (Op R)) (dt : Fl R) (ty : DType) (x : Fl R) :
    (e0.run env ops).step env dt (.ndarray ty [x]) = (e0.run env ops).step env dt (.ndarray ty (names.map fun _ => x)) ∧
    (e0.run env ops).step env dt (.list [x]) = (e0.run env ops).step env dt (.list (names.map fun _ => x)) := by
  obtain ⟨-, -, g3, g4, -, -⟩ := run_sameConfig env ops e0
  obtain ⟨h2, lo, hi, k1, k2, k3, k4⟩ := new_limits h0 hc hn
  have h : ∀ ty x, (e0.run env ops).step env dt (.ndarray ty [x])
      = (e0.run env ops).step env dt (.ndarray ty (names.map fun _ => x)) := fun ty x => by
    rw [step_one_element (g3.trans k1) (g4.trans k2) k3 k4 h2, List.map_const']
  refine ⟨h ty x, ?_⟩
  rw [step_list, step_list, List.map_singleton, h, List.map_map]
  rfl

/-- An array or list whose length is neither the number of actuators nor one raises `ValueError`, without a warning and without
any effect. -/
theorem C80_wrong_length (env : Env R) (c : EntityClass R) (names : List String) (hn : c.actuators = some names)
    (hc : c.limitsPerChannel = true) (kw : List (String × CfgVal R)) (e0 : Entity R) (h0 : c.new env kw = .ok e0)
    (ops : List (Op R)) (dt : Fl R) (ty : DType) (xs : Vec R) (hl : xs.length ≠ names.length) (h1 : xs.length ≠ 1)
    (a : Action R) (ha : a = .ndarray ty xs ∨ a = .list xs) :
    (e0.run env ops).step env dt a = ⟨e0.run env ops, false, .error .valueError⟩ := by
  obtain ⟨-, -, g3, g4, -, -⟩ := run_sameConfig env ops e0
  obtain ⟨h2, lo, hi, k1, k2, k3, k4⟩ := new_limits h0 hc hn
  have key : ∀ ty ys, ys.length = xs.length → (e0.run env ops).step env dt (.ndarray ty ys)
      = ⟨e0.run env ops, false, .error .valueError⟩ := by
    intro ty ys hy
    unfold Entity.step exceeds
    simp only [Entity.resolve, g3, g4, k1, k2, Arr.forDType, Arr.toVec]
    rw [bcast2_bad _ (by rw [hy, k3]; exact hl) (by rw [hy]; exact h1) (by omega)]
    rfl
  rcases ha with rfl | rfl
  · exact key _ _ rfl
  · rw [step_list]; exact key _ _ (by simp)

/-- The point-mass spacecraft has one pair of limits for all thrusters: there every array or list action whose length is not 3, a
single element included, raises and leaves state and derivative as they were. -/
theorem C80_point_mass (env : Env R) (args : CwhArgs R) (e0 : Entity R) (h0 : newCwhSpacecraft env args = .ok e0)
    (ops : List (Op R)) (dt : Fl R) (ty : DType) (xs : Vec R) (hl : xs.length ≠ 3)
    (a : Action R) (ha : a = .ndarray ty xs ∨ a = .list xs) :
    (∃ x, ((e0.run env ops).step env dt a).outcome = .error x) ∧
    ((e0.run env ops).step env dt a).entity.state = (e0.run env ops).state ∧
    ((e0.run env ops).step env dt a).entity.stateDot = (e0.run env ops).stateDot := by
  have hcfg := run_sameConfig env ops e0
  obtain ⟨-, -, g3, g4, -, g6⟩ := hcfg
  simp only [newCwhSpacecraft] at h0
  have h0 := instantiate_ok h0
  unfold initCwhSpacecraft at h0
  obtain ⟨d, hd, h0⟩ := Except.bind_ok.1 h0
  obtain ⟨k1, -, k3, k4, -⟩ := baseInit_ok h0
  unfold mkCwhDynamics at hd
  obtain ⟨⟨A, B⟩, hAB, hd⟩ := Except.bind_ok.1 hd
  have hB : B.ncols = 3 := by
    unfold generateCwhMatrices at hAB
    rw [if_neg (by decide), if_pos rfl] at hAB
    obtain ⟨k, -, hAB⟩ := Except.bind_ok.1 hAB
    cases hAB
    rfl
  obtain ⟨_, -, -, hdd⟩ := mkOdeDyn_ok (mkLinearDyn_ok hd)
  have hrhs : d.rhs = affineRhs (fun x => matVec A x) (fun _ => .ok B) ∧ d.custom = none := by
    rw [hdd]
    exact ⟨rfl, rfl⟩
  have r1 : (e0.run env ops).dynamics.rhs = d.rhs := by rw [← k1, ← g6]
  have r2 : (e0.run env ops).dynamics.custom = d.custom := by rw [← k1, ← g6]
  have herr : ∃ x, ((e0.run env ops).step env dt a).outcome = .error x := by
    refine C21_wrong_length env _ dt a _ _ 3 (r2.trans hrhs.2) (r1.trans hrhs.1) (by rintro x G ⟨⟩; exact hB) ?_
    rintro v ⟨ty', u, hreq, hlen, -, -, hv, -⟩
    have hu : u.length = xs.length := by
      rcases ha with rfl | rfl
      · cases hreq; rfl
      · cases hreq; simp
    rw [g3, k3, g4, k4] at hv
    simp only [limitAs, Arr.toVec, List.length_singleton] at hv
    omega
  obtain ⟨x, hx⟩ := herr
  exact ⟨⟨x, hx⟩, C07_failed_step_atomic env _ dt a x hx⟩

end

/-- a Dubins aircraft given the single number 1: the heading turns and the speed grows -/
example : Demo.okAnd (newDubins2d (R := ratFmt) (rkEnv dopri (fun _ _ _ => [])) { integrationMethod := "Euler", kwargs := [("name", .str "a"), ("heading", .num 0), ("v", .num 300)] })
    (fun e0 => (EntityClass.dubins2d (R := ratFmt) { kwargs := [] }).limitsPerChannel = true ∧
      (e0.step (rkEnv dopri (fun _ _ _ => [])) (.fin (1/100)) (.ndarray .f64 [.fin (1/10)])).outcome = .ok () ∧
      (e0.step (rkEnv dopri (fun _ _ _ => [])) (.fin (1/100)) (.ndarray .f64 [.fin (1/10)])).entity.state
        = [.fin 3, 0, .fin (1/1000), .fin (300 + 1/1000)] ∧
      (e0.step (rkEnv dopri (fun _ _ _ => [])) (.fin (1/100)) (.ndarray .f64 [0, 0, 0])).outcome = .error .valueError) := by
  decide +kernel

/-- a point-mass spacecraft given one number raises -/
example : Demo.okAnd (newCwhSpacecraft (R := ratFmt) (rkEnv dopri (fun _ _ _ => [])) { kwargs := [("name", .str "a")] })
    (fun e0 => (e0.step (rkEnv dopri (fun _ _ _ => [])) 1 (.ndarray .f64 [1])).outcome = .error .valueError) := by
  decide +kernel

end SAD
