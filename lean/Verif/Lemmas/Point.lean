import Verif.Lemmas.Matrix
import Verif.Model.Cwh

/-! # Point-mass models over the field -/

set_option linter.unusedSectionVars false

namespace SAD
open Spec

section
variable {K : Type} {R : Fmt K} [Field K] [LinearOrder K] [IsStrictOrderedRing K] [Exact R]

/-- point mass on `k` axes with damping: positions first, then velocities; controls saturate at ±1 -/
def pointModel (k : Nat) (m c : K) : KModel K (k + k) k where
  dom := fun _ => True
  rate := fun _ y u => Fin.append (fun i => y (Fin.natAdd k i)) (fun i => -c * y (Fin.natAdd k i) + u i / m)
  lo := fun _ => none
  hi := fun _ => none
  dlo := fun _ => none
  dhi := fun _ => none
  centre := fun _ => none
  ulo := fun _ => some (-1)
  uhi := fun _ => some 1

omit [IsStrictOrderedRing K] [Exact R] in
theorem mkOdeDyn_ok {env : Env R} {args : DynArgs R} {rhs : Fl R → Vec R → Vec R → Py (Vec R)} {d : Dyn R}
    (h : mkOdeDyn env args rhs = .ok d) : ∃ n, args.trajectorySamples = some n ∧ ¬ (args.useJax = true ∧ env.jaxInstalled = false) ∧
    d = { stateMin := args.stateMin, stateMax := args.stateMax, angleWrapCenters := args.angleWrapCenters, useJax := args.useJax
          trajectorySamples := n, stateDotMin := args.stateDotMin, stateDotMax := args.stateDotMax
          integrationMethod := args.integrationMethod, rhs := rhs, custom := none, trajectory := none, trajectoryT := none } := by
  unfold mkOdeDyn at h
  split at h
  · cases h
  · rename_i n hn
    split at h
    · cases h
    · rename_i hj
      cases h
      exact ⟨n, hn, hj, rfl⟩

omit [IsStrictOrderedRing K] [Exact R] in
theorem mkLinearDyn_ok {env : Env R} {args : DynArgs R} {A B : Mat R} {d : Dyn R} (h : mkLinearDyn env args A B = .ok d) :
    mkOdeDyn env args (affineRhs (fun x => matVec A x) (fun _ => .ok B)) = .ok d := by
  unfold mkLinearDyn at h
  obtain ⟨d', h1, h⟩ := Except.bind_ok.1 h
  obtain ⟨_, -, h⟩ := Except.bind_ok.1 h
  cases h
  exact h1

theorem pyDiv_fin {a b : K} {r : Fl R} (h : pyDiv (.fin a) (.fin b) = .ok r) : b ≠ 0 ∧ r = .fin (a / b) := by
  unfold pyDiv at h
  split at h
  · cases h
  · rename_i hb
    have hb : b ≠ 0 := by simpa [Fl.eqb] using hb
    cases h
    exact ⟨hb, Fl.fin_div_fin _ _ hb⟩

theorem realises_of_unlimited {n m : Nat} {d : Dyn R} {M : KModel K n m} (hu : Unlimited d)
    (hM : (∀ i, M.lo i = none) ∧ (∀ i, M.hi i = none) ∧ (∀ i, M.dlo i = none) ∧ (∀ i, M.dhi i = none) ∧ (∀ i, M.centre i = none))
    (hr : ∀ t y u, M.dom y → d.rhs (.fin t) (toFl y) (toFl u) = .ok (toFl (M.rate t y u))) : DRealises d M :=
  ⟨hu.custom, hr, .inr ⟨_, hu.stateMin, fun i => by simp [hM.1 i, loFl]⟩, .inr ⟨_, hu.stateMax, fun i => by simp [hM.2.1 i, hiFl]⟩,
    .inr ⟨_, hu.stateDotMin, fun i => by simp [hM.2.2.1 i, loFl]⟩, .inr ⟨_, hu.stateDotMax, fun i => by simp [hM.2.2.2.1 i, hiFl]⟩,
    .inl ⟨hu.wrap, hM.2.2.2.2⟩⟩

omit [IsStrictOrderedRing K] [Exact R] in
theorem linear_rhs {env : Env R} {args : DynArgs R} {A B : Mat R} {d : Dyn R} (h : mkLinearDyn env args A B = .ok d) :
    d.rhs = affineRhs (fun x => matVec A x) (fun _ => .ok B) := by
  obtain ⟨n, -, -, rfl⟩ := mkOdeDyn_ok (mkLinearDyn_ok h)
  rfl

theorem toFl1 (y : Fin 1 → K) : (toFl y : Vec R) = [.fin (y 0)] := by simp [toFl]
theorem toFl2 (y : Fin 2 → K) : (toFl y : Vec R) = [.fin (y 0), .fin (y 1)] := by simp [toFl, List.ofFn_succ]
theorem toFl3 (y : Fin 3 → K) : (toFl y : Vec R) = [.fin (y 0), .fin (y 1), .fin (y 2)] := by simp [toFl, List.ofFn_succ]
theorem toFl4 (y : Fin 4 → K) : (toFl y : Vec R) = [.fin (y 0), .fin (y 1), .fin (y 2), .fin (y 3)] := by
  simp [toFl, List.ofFn_succ]
theorem toFl6 (y : Fin 6 → K) :
    (toFl y : Vec R) = [.fin (y 0), .fin (y 1), .fin (y 2), .fin (y 3), .fin (y 4), .fin (y 5)] := by
  simp [toFl, List.ofFn_succ]

theorem integrator_realised {env : Env R} {args : DynArgs R} {m c : K} {mode : String} {d : Dyn R}
    (h : mkIntegratorDynamics env (.fin m) (.fin c) mode args = .ok d) (hu : Unlimited d) :
    (mode = "1d" → DRealises d (pointModel 1 m c)) ∧ (mode = "2d" → DRealises d (pointModel 2 m c)) ∧
    (mode = "3d" → DRealises d (pointModel 3 m c)) := by
  unfold mkIntegratorDynamics at h
  obtain ⟨⟨A, B⟩, h1, h2⟩ := Except.bind_ok.1 h
  have hr := linear_rhs h2
  unfold generateDynamicsMatrices at h1
  refine ⟨?_, ?_, ?_⟩
  · rintro rfl
    refine realises_of_unlimited hu (by simp [pointModel]) ?_
    intro t y u _
    rw [if_pos rfl] at h1
    obtain ⟨k, hk, h1⟩ := Except.bind_ok.1 h1
    rw [Fl.one_fin] at hk
    obtain ⟨hm, rfl⟩ := pyDiv_fin hk
    cases h1
    rw [hr]
    erw [toFl2 y, toFl1 u, toFl2]
    simp [affineRhs, matVec, dot, bind, Except.bind, vadd, bcast2, pointModel, Fin.append, Fin.addCases]
    ring_nf
  · rintro rfl
    refine realises_of_unlimited hu (by simp [pointModel]) ?_
    intro t y u _
    simp only [show ("2d" = "1d") = False from by simp, if_true, if_false] at h1
    obtain ⟨k, hk, h1⟩ := Except.bind_ok.1 h1
    rw [Fl.one_fin] at hk
    obtain ⟨hm, rfl⟩ := pyDiv_fin hk
    cases h1
    rw [hr]
    erw [toFl4 y, toFl2 u, toFl4]
    simp [affineRhs, matVec, dot, bind, Except.bind, vadd, bcast2, pointModel, Fin.append, Fin.addCases]
    ring_nf
    simp
  · rintro rfl
    refine realises_of_unlimited hu (by simp [pointModel]) ?_
    intro t y u _
    simp only [show ("3d" = "1d") = False from by simp, show ("3d" = "2d") = False from by simp, if_true, if_false] at h1
    obtain ⟨k, hk, h1⟩ := Except.bind_ok.1 h1
    rw [Fl.one_fin] at hk
    obtain ⟨hm, rfl⟩ := pyDiv_fin hk
    cases h1
    rw [hr]
    erw [toFl6 y, toFl3 u, toFl6]
    simp [affineRhs, matVec, dot, bind, Except.bind, vadd, bcast2, pointModel, Fin.append, Fin.addCases]
    ring_nf
    simp

/-- Clohessy-Wiltshire point mass: `x, y, z, x', y', z'`; controls saturate at ±1 -/
def cwModel (m n : K) : KModel K 6 3 where
  dom := fun _ => True
  rate := fun _ y u => ![y 3, y 4, y 5, 3 * n ^ 2 * y 0 + 2 * n * y 4 + u 0 / m, -2 * n * y 3 + u 1 / m, -n ^ 2 * y 2 + u 2 / m]
  lo := fun _ => none
  hi := fun _ => none
  dlo := fun _ => none
  dhi := fun _ => none
  centre := fun _ => none
  ulo := fun _ => some (-1)
  uhi := fun _ => some 1

theorem cwh_realised {env : Env R} {args : DynArgs R} {m n : K} {d : Dyn R}
    (h : mkCwhDynamics env (.fin m) (.fin n) args = .ok d) (hu : Unlimited d) : DRealises d (cwModel m n) ∧ m ≠ 0 := by
  unfold mkCwhDynamics at h
  obtain ⟨⟨A, B⟩, h1, h2⟩ := Except.bind_ok.1 h
  have hr := linear_rhs h2
  unfold generateCwhMatrices at h1
  simp only [show ("3d" = "2d") = False from by simp, if_true, if_false] at h1
  obtain ⟨k, hk, h1⟩ := Except.bind_ok.1 h1
  rw [Fl.one_fin] at hk
  obtain ⟨hm, rfl⟩ := pyDiv_fin hk
  cases h1
  refine ⟨realises_of_unlimited hu (by simp [cwModel]) ?_, hm⟩
  intro t y u _
  rw [hr, toFl6 y, toFl3 u, toFl6]
  simp [affineRhs, matVec, dot, bind, Except.bind, vadd, bcast2, cwModel]
  ring_nf
  simp

/-! ### constructors -/

omit [IsStrictOrderedRing K] [Exact R] in
theorem baseInit_ok {fields : List (CfgField R)} {layout : List String} {d : Dyn R} {cd : Vec R} {lo hi : Arr R}
    {cm : Option (List (String × Nat))} {kwargs : List (String × CfgVal R)} {e : Entity R}
    (h : baseInit fields layout d cd lo hi cm kwargs = .ok e) :
    e.dynamics = d ∧ e.controlDefault = cd ∧ e.controlMin = lo ∧ e.controlMax = hi ∧ e.controlMap = cm := by
  unfold baseInit at h
  obtain ⟨c, -, h⟩ := Except.bind_ok.1 h
  obtain ⟨s, -, h⟩ := Except.bind_ok.1 h
  cases h
  exact ⟨rfl, rfl, rfl, rfl, rfl⟩

omit [IsStrictOrderedRing K] [Exact R] in
theorem instantiate_ok {α : Type} {mro : List PyClass} {init : Py α} {a : α} (h : instantiate mro init = .ok a) :
    init = .ok a := by
  unfold instantiate at h
  split at h
  · exact h
  · cases h

omit [IsStrictOrderedRing K] [Exact R] in
theorem unlimited_of_mk {env : Env R} {a : DynArgs R} {rhs : Fl R → Vec R → Vec R → Py (Vec R)} {d : Dyn R}
    (h : mkOdeDyn env a rhs = .ok d) (h1 : a.stateMin = .scalar .ninf) (h2 : a.stateMax = .scalar .pinf)
    (h3 : a.stateDotMin = .scalar .ninf) (h4 : a.stateDotMax = .scalar .pinf) (h5 : a.angleWrapCenters = none) :
    Unlimited d := by
  obtain ⟨n, -, -, rfl⟩ := mkOdeDyn_ok h
  exact ⟨rfl, h1, h2, h3, h4, h5⟩

theorem arrIs_pm_one {k : Nat} {e : Entity R} (hlo : e.controlMin = .scalar (-1)) (hhi : e.controlMax = .scalar 1) :
    ArrIs e.controlMin (fun _ : Fin k => loFl (some (-1))) ∧ ArrIs e.controlMax (fun _ : Fin k => hiFl (some 1)) := by
  constructor
  · exact .inr ⟨_, hlo, fun _ => by simp [loFl]⟩
  · exact .inr ⟨_, hhi, fun _ => by simp [hiFl]⟩

theorem cwhSpacecraft_realised {env : Env R} {a : CwhArgs R} {m n : K} (hm : a.m = .fin m) (hn : a.n = .fin n) {e : Entity R}
    (h : newCwhSpacecraft env a = .ok e) : Realises e (cwModel m n) ∧ m ≠ 0 ∧
      e.dynamics.integrationMethod = a.integrationMethod ∧ some e.dynamics.trajectorySamples = a.trajectorySamples := by
  have h := instantiate_ok h
  unfold initCwhSpacecraft at h
  obtain ⟨d, hd, h⟩ := Except.bind_ok.1 h
  obtain ⟨h1, -, h3, h4, -⟩ := baseInit_ok h
  rw [hm, hn] at hd
  have hd' := hd
  unfold mkCwhDynamics at hd'
  obtain ⟨AB, -, hd'⟩ := Except.bind_ok.1 hd'
  have hu := unlimited_of_mk (mkLinearDyn_ok hd') rfl rfl rfl rfl rfl
  obtain ⟨hr, hm⟩ := cwh_realised hd hu
  obtain ⟨k, hk, -, hd2⟩ := mkOdeDyn_ok (mkLinearDyn_ok hd')
  obtain ⟨a1, a2⟩ := arrIs_pm_one (k := 3) h3 h4
  exact ⟨⟨h1 ▸ hr, a1, a2⟩, hm, by rw [h1, hd2], by rw [h1, hd2]; exact hk.symm⟩

theorem integratorEntity_realised {env : Env R} {a : IntegratorArgs R} {m c : K} (hm : a.m = .fin m) (hc : a.damping = .fin c)
    {k : Nat} {e : Entity R} (h : initIntegrator env a k = .ok e) : Realises e (pointModel k m c) ∧
      e.dynamics.integrationMethod = a.integrationMethod ∧ some e.dynamics.trajectorySamples = a.trajectorySamples := by
  have key : ∀ (k : Nat) (mode : String) (fields : List (CfgField R)) (layout : List String) (cd : Vec R)
      (cm : Option (List (String × Nat))), ((mode, k) = ("1d", 1) ∨ (mode, k) = ("2d", 2) ∨ (mode, k) = ("3d", 3)) →
      (do let d ← mkIntegratorDynamics env a.m a.damping mode a.dyn
          baseInit fields layout d cd (.scalar (-1)) (.scalar 1) cm a.kwargs) = .ok e →
      Realises e (pointModel k m c) ∧
      e.dynamics.integrationMethod = a.integrationMethod ∧ some e.dynamics.trajectorySamples = a.trajectorySamples := by
    intro k mode fields layout cd cm hk h
    obtain ⟨d, hd, h⟩ := Except.bind_ok.1 h
    obtain ⟨h1, -, h3, h4, -⟩ := baseInit_ok h
    rw [hm, hc] at hd
    have hd' := hd
    unfold mkIntegratorDynamics at hd'
    obtain ⟨AB, -, hd'⟩ := Except.bind_ok.1 hd'
    have hu := unlimited_of_mk (mkLinearDyn_ok hd') rfl rfl rfl rfl rfl
    obtain ⟨r1, r2, r3⟩ := integrator_realised hd hu
    obtain ⟨j, hj, -, hd2⟩ := mkOdeDyn_ok (mkLinearDyn_ok hd')
    obtain ⟨a1, a2⟩ := arrIs_pm_one (k := k) h3 h4
    refine ⟨⟨?_, a1, a2⟩, by rw [h1, hd2]; rfl, by rw [h1, hd2]; exact hj.symm⟩
    rw [h1]
    rcases hk with hk | hk | hk <;> cases hk
    · exact r1 rfl
    · exact r2 rfl
    · exact r3 rfl
  match k, h with
  | 1, h => exact key 1 "1d" _ _ _ _ (by simp) h
  | 2, h => exact key 2 "2d" _ _ _ _ (by simp) h
  | 3, h => exact key 3 "3d" _ _ _ _ (by simp) h

theorem pointModel_sat (k : Nat) (m c : K) (u : Fin k → K) : (pointModel k m c).sat u = fun i => min (max (u i) (-1)) 1 := rfl
theorem cwModel_sat (m n : K) (u : Fin 3 → K) : (cwModel m n).sat u = fun i => min (max (u i) (-1)) 1 := rfl

theorem pointModel_field (k : Nat) (m c : K) (u : Fin k → K) (t : K) (y : Fin (k + k) → K) :
    (pointModel k m c).field u t y = Fin.append (fun i => y (Fin.natAdd k i)) (fun i => -c * y (Fin.natAdd k i) + u i / m) := by
  funext i; simp [KModel.field, pointModel, klimit_free]
theorem cwModel_field (m n : K) (u : Fin 3 → K) (t : K) (y : Fin 6 → K) :
    (cwModel m n).field u t y = ![y 3, y 4, y 5, 3 * n ^ 2 * y 0 + 2 * n * y 4 + u 0 / m, -2 * n * y 3 + u 1 / m, -n ^ 2 * y 2 + u 2 / m] := by
  funext i; simp only [KModel.field, cwModel, klimit_free]

theorem pointModel_post [FloorRing K] (k : Nat) (m c pi : K) (y : Fin (k + k) → K) : (pointModel k m c).post pi y = y := by
  funext i; simp [KModel.post, pointModel, kclip]
theorem cwModel_post [FloorRing K] (m n pi : K) (y : Fin 6 → K) : (cwModel m n).post pi y = y := by
  funext i; simp [KModel.post, cwModel, kclip]

end
end SAD
