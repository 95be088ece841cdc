import Verif.Lemmas.Point
import Verif.Spec.Craft

/-! # The planar rotating spacecraft over the field -/

set_option linter.unusedSectionVars false

namespace SAD
open Spec

section
variable {K : Type} {R : Fmt K} [Field K] [LinearOrder K]

theorem pyMin_fin (a b : K) : Fl.pyMin (.fin a : Fl R) (.fin b) = .fin (min a b) := by
  unfold Fl.pyMin
  by_cases h : b < a
  · simp [h, min_eq_right h.le]
  · simp [h, min_eq_left (not_lt.1 h)]

theorem pyMax_fin (a b : K) : Fl.pyMax (.fin a : Fl R) (.fin b) = .fin (max a b) := by
  unfold Fl.pyMax
  by_cases h : a < b
  · simp [h, max_eq_right h.le]
  · simp [h, max_eq_left (not_lt.1 h)]

variable [IsStrictOrderedRing K] [Exact R]

/-- planar Clohessy-Wiltshire translation with body-frame thrust and rotation about z; state `x, y, theta, x', y', wz` -/
def rot2dModel (R : Fmt K) (m inertia n acc vel : K) : KModel K 6 3 where
  dom := fun _ => True
  rate := fun _ y u => ![y 3, y 4, y 5,
    3 * n ^ 2 * y 0 + 2 * n * y 4 + (R.cos (y 2) * u 0 - R.sin (y 2) * u 1) / m,
    -2 * n * y 3 + (R.sin (y 2) * u 0 + R.cos (y 2) * u 1) / m,
    u 2 / inertia]
  lo := ![none, none, none, none, none, some (-vel)]
  hi := ![none, none, none, none, none, some vel]
  dlo := ![none, none, some (-vel), none, none, some (-acc)]
  dhi := ![none, none, some vel, none, none, some acc]
  centre := ![none, none, some 0, none, none, none]
  ulo := ![some (-1), some (-1), some (-(acc * inertia))]
  uhi := ![some 1, some 1, some (acc * inertia)]

theorem rot2dDyn_realised {env : Env R} {p : Rot2dDynArgs R} {m inertia n acc vel : K} (hm : p.m = .fin m)
    (hi : p.inertia = .fin inertia) (hi0 : inertia ≠ 0) (hn : p.n = .fin n) (ha : p.angAccLimit = .fin acc) (hv : p.angVelLimit = .fin vel)
    (h1 : p.stateMin = none) (h2 : p.stateMax = none) (h3 : p.stateDotMin = none) (h4 : p.stateDotMax = none)
    (h5 : p.angleWrapCenters = none) {d : Dyn R} (h : mkRot2dDynamics env p = .ok d) :
    DRealises d (rot2dModel R m inertia n acc vel) ∧ m ≠ 0 ∧ d.integrationMethod = p.dyn.integrationMethod ∧
      some d.trajectorySamples = p.dyn.trajectorySamples := by
  unfold mkRot2dDynamics at h
  simp only [h1, h2, h3, h4, h5, Option.getD_none] at h
  obtain ⟨d', hd, h⟩ := Except.bind_ok.1 h
  obtain ⟨⟨A, B⟩, hAB, h⟩ := Except.bind_ok.1 h
  obtain ⟨k, hk, -, rfl⟩ := mkOdeDyn_ok hd
  cases h
  unfold generateCwhMatrices at hAB
  rw [if_pos rfl] at hAB
  obtain ⟨r, hr, hAB⟩ := Except.bind_ok.1 hAB
  rw [Fl.one_fin, hm] at hr
  obtain ⟨hm0, rfl⟩ := pyDiv_fin hr
  cases hAB
  refine ⟨⟨rfl, ?_, .inl ?_, .inl ?_, .inl ?_, .inl ?_, .inr ?_⟩, hm0, rfl, hk.symm⟩
  · intro t y u _
    rw [toFl6 y, toFl3 u, toFl6]
    have hdiv : ∀ x, (.fin x / .fin m : Fl R) = .fin (x / m) := fun x => Fl.fin_div_fin _ _ hm0
    have e : pyDiv (.fin 1 : Fl R) p.inertia = .ok (.fin (1 / inertia)) := by
      rw [hi]; unfold pyDiv; rw [if_neg (by simpa [Fl.eqb] using hi0), Fl.fin_div_fin _ _ hi0]
    simp [affineRhs, rot2dF, rot2dG, getIdx, e, hm, hn, matVec, dot, bind, Except.bind, vadd, bcast2, rot2dModel, pure, Except.pure,
      Fl.sin, Fl.cos, hdiv]
    ring_nf
    simp
  all_goals simp [rot2dModel, List.ofFn_succ, loFl, hiFl, centreFl, hv, ha]

theorem rot2d_realised {env : Env R} {a : Rot2dArgs R} {p : Rot2dParams K} (hp : p.Of a) {e : Entity R} (h : newRot2d env a = .ok e) :
    Realises e (rot2dModel R p.m p.inertia p.n p.accLimit p.velLimit) ∧ p.m ≠ 0 ∧ p.inertia ≠ 0 ∧
      e.dynamics.integrationMethod = a.integrationMethod ∧ some e.dynamics.trajectorySamples = a.trajectorySamples := by
  have h := instantiate_ok h
  unfold initRot2d at h
  obtain ⟨⟨acc, vel⟩, hl, h⟩ := Except.bind_ok.1 h
  obtain ⟨d, hd, h⟩ := Except.bind_ok.1 h
  obtain ⟨g1, -, g3, g4, -⟩ := baseInit_ok h
  unfold rot2dLimits at hl
  rw [hp.inertia, hp.angAcc, hp.angVel, hp.wheelInertia, hp.wheelAcc, hp.wheelVel, Fl.fin_mul_fin, Fl.fin_mul_fin] at hl
  obtain ⟨wa, hwa, hl⟩ := Except.bind_ok.1 hl
  obtain ⟨wv, hwv, hl⟩ := Except.bind_ok.1 hl
  obtain ⟨hi0, rfl⟩ := pyDiv_fin hwa
  obtain ⟨-, rfl⟩ := pyDiv_fin hwv
  rw [pyMin_fin, pyMin_fin] at hl
  cases hl
  obtain ⟨hr, hm0, k1, k2⟩ := rot2dDyn_realised (m := p.m) (inertia := p.inertia) (n := p.n) (acc := p.accLimit) (vel := p.velLimit)
    hp.m hp.inertia hi0 hp.n rfl rfl rfl rfl rfl rfl rfl hd
  refine ⟨⟨g1 ▸ hr, .inl ?_, .inl ?_⟩, hm0, hi0, by rw [g1]; exact k1, by rw [g1]; exact k2⟩
  · rw [g3]; simp [rot2dModel, List.ofFn_succ, loFl, hp.inertia, Rot2dParams.accLimit]
  · rw [g4]; simp [rot2dModel, List.ofFn_succ, hiFl, hp.inertia, Rot2dParams.accLimit]

end

section
variable {K : Type} {R : Fmt K} [Field K] [LinearOrder K]

theorem Fl.pyMin_le {a b : Fl R} (ha : a ≠ .nan) (hb : b ≠ .nan) : Fl.pyMin a b ≤ a ∧ Fl.pyMin a b ≤ b := by
  unfold Fl.pyMin
  split
  · rename_i h; exact ⟨Fl.le_of_lt' h, Fl.le_refl_of b hb⟩
  · rename_i h; exact ⟨Fl.le_refl_of a ha, (Fl.not_lt' hb ha).1 h⟩

theorem Fl.pyMin_eq {a b : Fl R} : Fl.pyMin a b = a ∨ Fl.pyMin a b = b := by
  unfold Fl.pyMin
  split
  · exact .inr rfl
  · exact .inl rfl

theorem rot2d_config {env : Env R} {a : Rot2dArgs R} {e : Entity R} (h : newRot2d env a = .ok e) :
    Fl.eqb a.inertia 0 = false ∧
    ∃ acc vel, acc = Fl.pyMin a.angAccLimit (a.inertiaWheel * a.accLimitWheel / a.inertia) ∧
      vel = Fl.pyMin a.angVelLimit (a.inertiaWheel * a.velLimitWheel / a.inertia) ∧
      e.dynamics.stateMin = .vec [.ninf, .ninf, .ninf, .ninf, .ninf, -vel] ∧
      e.dynamics.stateMax = .vec [.pinf, .pinf, .pinf, .pinf, .pinf, vel] ∧
      e.dynamics.stateDotMin = .vec [.ninf, .ninf, -vel, .ninf, .ninf, -acc] ∧
      e.dynamics.stateDotMax = .vec [.pinf, .pinf, vel, .pinf, .pinf, acc] ∧
      e.dynamics.angleWrapCenters = some [.nan, .nan, 0, .nan, .nan, .nan] ∧
      e.controlMin = .vec [-1, -1, -acc * a.inertia] ∧ e.controlMax = .vec [1, 1, acc * a.inertia] := by
  have h := instantiate_ok h
  unfold initRot2d at h
  obtain ⟨⟨acc, vel⟩, hl, h⟩ := Except.bind_ok.1 h
  obtain ⟨d, hd, h⟩ := Except.bind_ok.1 h
  obtain ⟨g1, -, g3, g4, -⟩ := baseInit_ok h
  unfold rot2dLimits at hl
  obtain ⟨wa, hwa, hl⟩ := Except.bind_ok.1 hl
  obtain ⟨wv, hwv, hl⟩ := Except.bind_ok.1 hl
  cases hl
  unfold pyDiv at hwa hwv
  split at hwa
  · cases hwa
  rename_i hz
  rw [if_neg hz] at hwv
  cases hwa
  cases hwv
  unfold mkRot2dDynamics at hd
  simp only [Option.getD_none] at hd
  obtain ⟨d', hd', hd⟩ := Except.bind_ok.1 hd
  obtain ⟨⟨A, B⟩, -, hd⟩ := Except.bind_ok.1 hd
  obtain ⟨k, -, -, rfl⟩ := mkOdeDyn_ok hd'
  cases hd
  refine ⟨by simpa using hz, _, _, rfl, rfl, ?_⟩
  rw [g1]
  exact ⟨rfl, rfl, rfl, rfl, rfl, g3, g4⟩

end
end SAD
