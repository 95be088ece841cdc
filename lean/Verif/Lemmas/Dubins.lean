import Verif.Lemmas.Rotational

/-! # Dubins aircraft over the field -/

set_option linter.unusedSectionVars false

namespace SAD
open Spec

section
variable {K : Type} {R : Fmt K} [Field K] [LinearOrder K]

theorem dubins2d_config {env : Env R} {a : Dubins2dArgs R} {e : Entity R} (h : newDubins2d env a = .ok e) :
    e.dynamics.stateMin = .vec [.ninf, .ninf, .ninf, a.vMin.cast32] ∧ e.dynamics.stateMax = .vec [.pinf, .pinf, .pinf, a.vMax.cast32] ∧
    e.dynamics.stateDotMin = .scalar .ninf ∧ e.dynamics.stateDotMax = .scalar .pinf ∧
    e.dynamics.angleWrapCenters = some [.nan, .nan, Fl.cast32 0, .nan] ∧ e.dynamics.rhs = affineRhs dubins2dF dubins2dG ∧
    e.dynamics.custom = none ∧ e.dynamics.useJax = false ∧ e.dynamics.integrationMethod = a.integrationMethod ∧
    some e.dynamics.trajectorySamples = a.trajectorySamples ∧ e.controlDefault = [0, 0] ∧
    e.controlMin = .vec [a.headingRateMin, a.accMin] ∧ e.controlMax = .vec [a.headingRateMax, a.accMax] ∧
    e.controlMap = some [("heading_rate", 0), ("acceleration", 1)] := by
  have h := instantiate_ok h
  unfold initDubins2d at h
  obtain ⟨d, hd, h⟩ := Except.bind_ok.1 h
  obtain ⟨g1, g2, g3, g4, g5⟩ := baseInit_ok h
  obtain ⟨k, hk, -, rfl⟩ := mkOdeDyn_ok hd
  rw [g1, g2, g3, g4, g5]
  exact ⟨rfl, rfl, rfl, rfl, rfl, rfl, rfl, rfl, rfl, hk.symm, rfl, rfl, rfl, rfl⟩

theorem dubins3d_config {env : Env R} {a : Dubins3dArgs R} {e : Entity R} (h : newDubins3d env a = .ok e) :
    e.dynamics.stateMin = .vec [.ninf, .ninf, .ninf, .ninf, a.gammaMin.cast32, a.rollMin.cast32, a.vMin.cast32] ∧
    e.dynamics.stateMax = .vec [.pinf, .pinf, .pinf, .pinf, a.gammaMax.cast32, a.rollMax.cast32, a.vMax.cast32] ∧
    e.dynamics.stateDotMin = .scalar .ninf ∧ e.dynamics.stateDotMax = .scalar .pinf ∧
    e.dynamics.angleWrapCenters = some [.nan, .nan, .nan, Fl.cast32 0, Fl.cast32 0, Fl.cast32 0, .nan] ∧
    e.dynamics.rhs = affineRhs (dubins3dF dubinsGravity) dubins3dG ∧
    e.dynamics.custom = none ∧ e.dynamics.useJax = false ∧ e.dynamics.integrationMethod = a.integrationMethod ∧
    some e.dynamics.trajectorySamples = a.trajectorySamples ∧ e.controlDefault = [0, 0, 0] ∧
    e.controlMin = .vec [a.gammaRateMin, a.rollRateMin, a.accMin] ∧ e.controlMax = .vec [a.gammaRateMax, a.rollRateMax, a.accMax] ∧
    e.controlMap = some [("gamma_rate", 0), ("roll_rate", 1), ("acceleration", 2)] := by
  have h := instantiate_ok h
  unfold initDubins3d at h
  obtain ⟨d, hd, h⟩ := Except.bind_ok.1 h
  obtain ⟨g1, g2, g3, g4, g5⟩ := baseInit_ok h
  obtain ⟨k, hk, -, rfl⟩ := mkOdeDyn_ok hd
  rw [g1, g2, g3, g4, g5]
  exact ⟨rfl, rfl, rfl, rfl, rfl, rfl, rfl, rfl, rfl, hk.symm, rfl, rfl, rfl, rfl⟩

end

section
variable {K : Type} {R : Fmt K} [Field K] [LinearOrder K] [IsStrictOrderedRing K] [Exact R]

theorem toFl7 (y : Fin 7 → K) :
    (toFl y : Vec R) = [.fin (y 0), .fin (y 1), .fin (y 2), .fin (y 3), .fin (y 4), .fin (y 5), .fin (y 6)] := by
  simp [toFl, List.ofFn_succ]

/-- state `x, y, heading, v`; controls heading rate and acceleration -/
def dubins2dModel (R : Fmt K) (p : Dubins2dParams K) : KModel K 4 2 where
  dom := fun _ => True
  rate := fun _ y u => ![y 3 * R.cos (y 2), y 3 * R.sin (y 2), u 0, u 1]
  lo := ![none, none, none, some p.vMin]
  hi := ![none, none, none, some p.vMax]
  dlo := fun _ => none
  dhi := fun _ => none
  centre := ![none, none, some 0, none]
  ulo := ![some p.headingRateMin, some p.accMin]
  uhi := ![some p.headingRateMax, some p.accMax]

theorem dubins2d_realised {env : Env R} {a : Dubins2dArgs R} {p : Dubins2dParams K} (hp : p.Of a) {e : Entity R}
    (h : newDubins2d env a = .ok e) : Realises e (dubins2dModel R p) := by
  obtain ⟨h1, h2, h3, h4, h5, h6, h7, -, -, -, -, h12, h13, -⟩ := dubins2d_config h
  refine ⟨⟨h7, ?_, .inl ?_, .inl ?_, .inr ⟨_, h3, fun i => rfl⟩, .inr ⟨_, h4, fun i => rfl⟩, .inr ?_⟩, .inl ?_, .inl ?_⟩
  · intro t y u _
    rw [h6, toFl4 y, toFl2 u, toFl4]
    simp [affineRhs, dubins2dF, dubins2dG, matVec, dot, bind, Except.bind, vadd, bcast2, dubins2dModel, Fl.sin, Fl.cos]
  · rw [h1]; simp [dubins2dModel, List.ofFn_succ, loFl, hp.vMin]
  · rw [h2]; simp [dubins2dModel, List.ofFn_succ, hiFl, hp.vMax]
  · rw [h5]; simp [dubins2dModel, List.ofFn_succ, centreFl]
  · rw [h12]; simp [dubins2dModel, List.ofFn_succ, loFl, hp.headingRateMin, hp.accMin]
  · rw [h13]; simp [dubins2dModel, List.ofFn_succ, hiFl, hp.headingRateMax, hp.accMax]

/-- state `x, y, z, heading, gamma, roll, v`; controls gamma rate, roll rate and acceleration -/
def dubins3dModel (R : Fmt K) (p : Dubins3dParams K) : KModel K 7 3 where
  dom := fun y => y 6 ≠ 0
  rate := fun _ y u => ![y 6 * R.cos (y 3) * R.cos (y 4), y 6 * R.sin (y 3) * R.cos (y 4), -(y 6 * R.sin (y 4)),
    3217 / 100 / y 6 * R.tan (y 5), u 0, u 1, u 2]
  lo := ![none, none, none, none, some p.gammaMin, some p.rollMin, some p.vMin]
  hi := ![none, none, none, none, some p.gammaMax, some p.rollMax, some p.vMax]
  dlo := fun _ => none
  dhi := fun _ => none
  centre := ![none, none, none, some 0, some 0, some 0, none]
  ulo := ![some p.gammaRateMin, some p.rollRateMin, some p.accMin]
  uhi := ![some p.gammaRateMax, some p.rollRateMax, some p.accMax]

theorem dubinsGravity_fin : (dubinsGravity : Fl R) = .fin (3217 / 100) := by
  show Fl.round _ = _
  simp [Fl.round, Exact.rnd_eq, Fl.ofExt]; norm_num

theorem dubins3d_realised {env : Env R} {a : Dubins3dArgs R} {p : Dubins3dParams K} (hp : p.Of a) {e : Entity R}
    (h : newDubins3d env a = .ok e) : Realises e (dubins3dModel R p) := by
  obtain ⟨h1, h2, h3, h4, h5, h6, h7, -, -, -, -, h12, h13, -⟩ := dubins3d_config h
  refine ⟨⟨h7, ?_, .inl ?_, .inl ?_, .inr ⟨_, h3, fun i => rfl⟩, .inr ⟨_, h4, fun i => rfl⟩, .inr ?_⟩, .inl ?_, .inl ?_⟩
  · intro t y u hy
    have hdiv : (.fin (3217 / 100) / .fin (y 6) : Fl R) = .fin (3217 / 100 / y 6) := Fl.fin_div_fin _ _ hy
    rw [h6, toFl7 y, toFl3 u, toFl7, dubinsGravity_fin]
    simp [affineRhs, dubins3dF, dubins3dG, matVec, dot, bind, Except.bind, vadd, bcast2, dubins3dModel, Fl.sin, Fl.cos, Fl.tan, hdiv]
  · rw [h1]; simp [dubins3dModel, List.ofFn_succ, loFl, hp.vMin, hp.gammaMin, hp.rollMin]
  · rw [h2]; simp [dubins3dModel, List.ofFn_succ, hiFl, hp.vMax, hp.gammaMax, hp.rollMax]
  · rw [h5]; simp [dubins3dModel, List.ofFn_succ, centreFl]
  · rw [h12]; simp [dubins3dModel, List.ofFn_succ, loFl, hp.gammaRateMin, hp.rollRateMin, hp.accMin]
  · rw [h13]; simp [dubins3dModel, List.ofFn_succ, hiFl, hp.gammaRateMax, hp.rollRateMax, hp.accMax]

end
end SAD
