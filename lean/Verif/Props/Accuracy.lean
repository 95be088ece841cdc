import Verif.Lemmas.Accuracy
import Verif.Props.Cwh
import Verif.Props.Linear

/-!
# C81: order of accuracy on linear models

In exact real arithmetic. The Dormand-Prince steps may be chosen in any way, so the bounds hold for every step size control.
-/

set_option linter.unusedSectionVars false

namespace SAD
open Spec

/-- the sizes of the steps actually taken by one call of duration `T`: one for Euler, the schedule of the solver for RK45 -/
noncomputable def Spec.stepSizes (method : String) (ws : List ℝ) (T : ℝ) : List ℝ := if method = "Euler" then [T] else schedule T ws

/-- order of accuracy of the integration methods: 5 for RK45, 1 for Euler -/
def Spec.HasOrder (d : Dyn realFmt) (p : ℕ) : Prop :=
  (d.integrationMethod = "RK45" ∧ p = 5) ∨ (d.integrationMethod = "Euler" ∧ d.trajectorySamples ≤ 0 ∧ p = 1)

theorem hasOrder_plain {d : Dyn realFmt} {p : ℕ} (h : HasOrder d p) : PlainMethod d :=
  h.imp (·.1) (fun h => ⟨h.1, h.2.1⟩)

theorem hasOrder_tab {d : Dyn realFmt} {p : ℕ} (h : HasOrder d p) : Order (flowTab d) p := by
  unfold Order flowTab
  rcases h with ⟨h, rfl⟩ | ⟨h, -, rfl⟩
  · exact .inl ⟨by rw [h]; simp, rfl⟩
  · exact .inr ⟨by rw [h]; simp, rfl⟩

theorem realFmt_pi_pos : 0 < realFmt.pi := Real.pi_pos

/-- One call of `step` of an unlimited linear model `x' = A x + B u`, in real arithmetic. Let `f` be the exact solution with the same
constant control, off by at most `ε` from the state of the model at the beginning. If every step actually taken is at most `η` long, then
at the end the model is off by at most `exp (2 a T) (ε + 2 a^p T exp (a T) δ η^p)`, where the order `p` is 5 for RK45 and 1 for Euler, `a`
bounds the absolute row sums of `A` and `δ` bounds the initial rate of change. -/
theorem C81_linear {n m : ℕ} (ws : List ℝ) (args : DynArgs realFmt) (d : Dyn realFmt) (A : Fin n → Fin n → ℝ) (B : Fin n → Fin m → ℝ)
    (hd : mkLinearDyn (scheduled ws) args (toMat A) (toMat B) = .ok d) (hu : Unlimited d) (p : ℕ) (hp : HasOrder d p)
    (x : Fin n → ℝ) (u : Fin m → ℝ) (f : ℝ → Fin n → ℝ)
    (hf : ∀ t, HasDerivAt f (fun i => ∑ j, A i j * f t j + ∑ j, B i j * u j) t)
    (a δ ε η T : ℝ) (ha : 0 ≤ a) (hδ0 : 0 ≤ δ) (hε0 : 0 ≤ ε) (hT : 0 ≤ T)
    (hrow : ∀ i, ∑ j, |A i j| ≤ a) (hδ : ∀ i, |∑ j, A i j * f 0 j + ∑ j, B i j * u j| ≤ δ) (hε : ∀ i, |x i - f 0 i| ≤ ε)
    (hη : ∀ h ∈ stepSizes d.integrationMethod ws T, h ≤ η) :
    ∃ x' sd : Fin n → ℝ, (d.step (scheduled ws) (.fin T) (toFl x) (toFl u)).2 = .ok (toFl x', toFl sd) ∧
      ∀ i, |x' i - f T i| ≤ Real.exp (2 * a * T) * (ε + 2 * a ^ p * T * Real.exp (a * T) * δ * η ^ p) := by
  have hr := linModel_realised hd hu
  have hm := hasOrder_plain hp
  have step := dynStep_lift realFmt_pi_pos hr
    (rawStep_fixed ws hr.custom hm (hr.liftsOn u (S := fun _ => True) (fun _ _ => trivial)) (Stable.univ _) T x trivial)
  have hpost : ∀ y : Fin n → ℝ, (linModel A B).post realFmt.pi y = y := by
    intro y; funext i; simp [KModel.post, linModel, kclip]
  have hfield : (linModel A B).field u = fun _ y => mulVec A y + mulVec B u := by
    funext t y i; simp [KModel.field, linModel, klimit_free]
  rw [hpost, hfield] at step
  have hrun := flow_run hm ws T
  refine ⟨_, _, step, fun i => ?_⟩
  have := linear_accuracy (hasOrder_tab hp) ha hrow (w := mulVec B u) (f := f) hf hδ0 hδ hε0 hε (flowHs d ws T)
    (fun h hh => ⟨hrun.nonneg hT h hh, hη h hh⟩) i
  rw [hrun.sum] at this
  exact this

/-- the matrix of the Clohessy-Wiltshire equations -/
def cwMat (n : ℝ) : Fin 6 → Fin 6 → ℝ :=
  ![![0, 0, 0, 1, 0, 0], ![0, 0, 0, 0, 1, 0], ![0, 0, 0, 0, 0, 1], ![3 * n ^ 2, 0, 0, 0, 2 * n, 0], ![0, 0, 0, -2 * n, 0, 0], ![0, 0, -n ^ 2, 0, 0, 0]]

theorem cwMat_eq (m n : ℝ) (y : Fin 6 → ℝ) (F : Fin 3 → ℝ) : mulVec (cwMat n) y + ![0, 0, 0, F 0 / m, F 1 / m, F 2 / m] = cw m n y F := by
  funext i
  fin_cases i <;> simp [mulVec, cwMat, cw, Fin.sum_univ_succ, Matrix.cons_val]

theorem cwMat_rows (n : ℝ) (i : Fin 6) : ∑ j, |cwMat n i j| ≤ 1 + 2 * |n| + 3 * n ^ 2 := by
  have h1 := abs_nonneg n
  have h2 := sq_nonneg n
  fin_cases i <;> simp [cwMat, Fin.sum_univ_succ, Matrix.cons_val, abs_mul] <;> nlinarith

/-- A point-mass spacecraft stepped any number of times with a constant requested thrust (however expressed), against the exact solution of
the Clohessy-Wiltshire equations with that thrust, saturated, from the same state. If every step actually taken is at most `η` long, then
after the total time `T` every component is off by at most `2 a^p T exp (3 a T) δ η^p`, with `a = 1 + 2 |n| + 3 n²`, `δ` a bound on the
initial rate of change and `p` 5 for RK45, 1 for Euler. -/
theorem C81_cwh (env : Env realFmt) (args : CwhArgs realFmt) (m n : ℝ) (hm : args.m = .fin m) (hn : args.n = .fin n) (e0 : Entity realFmt)
    (h0 : newCwhSpacecraft env args = .ok e0) (p : ℕ) (hp : HasOrder e0.dynamics p) (s : Fin 6 → ℝ)
    (hist : List (List ℝ × ℝ × Action realFmt)) (u : Fin 3 → ℝ) (hreq : ∀ h ∈ hist, Asks (scheduled h.1) e0 h.2.2 u)
    (f : ℝ → Fin 6 → ℝ) (hf0 : f 0 = s) (hf : ∀ t, HasDerivAt f (cw m n (f t) fun i => min (max (u i) (-1)) 1) t)
    (a δ η T : ℝ) (ha : a = 1 + 2 * |n| + 3 * n ^ 2) (hδ0 : 0 ≤ δ) (hδ : ∀ i, |cw m n s (fun i => min (max (u i) (-1)) 1) i| ≤ δ)
    (hT : T = (hist.map (fun h => h.2.1)).sum)
    (hη : ∀ h ∈ hist, 0 ≤ h.2.1 ∧ ∀ x ∈ stepSizes e0.dynamics.integrationMethod h.1 h.2.1, x ≤ η) :
    ∃ s' : Fin 6 → ℝ, (runScheduled { e0 with state := toFl s } hist).state = toFl s' ∧
      ∀ i, |s' i - f T i| ≤ 2 * a ^ p * T * Real.exp (3 * a * T) * δ * η ^ p := by
  have r := (cwhSpacecraft_realised hm hn h0).1
  have hc : SameConfig e0 { e0 with state := toFl s } := ⟨rfl, rfl, rfl, rfl, rfl, rfl⟩
  have hpl := hasOrder_plain hp
  have hfield : (cwModel m n).field ((cwModel m n).sat u)
      = fun _ y => mulVec (cwMat n) y + ![0, 0, 0, min (max (u 0) (-1)) 1 / m, min (max (u 1) (-1)) 1 / m, min (max (u 2) (-1)) 1 / m] := by
    funext t y
    rw [cwMat_eq m n y (fun i => min (max (u i) (-1)) 1), cwModel_field, cwModel_sat]
    rfl
  have hrun := Realises.run_chain realFmt_pi_pos (M := cwModel m n) (u := u) (fun _ => trivial) (fun y => cwModel_post m n _ y)
    (fun t t' y => by rw [hfield]) (d := e0.dynamics) hist (r.congr hc) (plain_congr hc hpl) rfl
    (fun h hh => requests_congr hc (hreq h hh)) (y := s) rfl
  refine ⟨_, hrun, fun i => ?_⟩
  rw [hfield]
  have hsum : (hist.flatMap fun h => flowHs e0.dynamics h.1 h.2.1).sum = T := by
    rw [hT, List.flatMap, List.sum_flatten, List.map_map]
    congr 1
    exact List.map_congr_left fun h _ => (flow_run hpl h.1 h.2.1).sum
  have ha0 : 0 ≤ a := by rw [ha]; positivity
  have hT0 : 0 ≤ T := by
    rw [hT]
    refine List.sum_nonneg fun x hx => ?_
    obtain ⟨h, hh, rfl⟩ := List.mem_map.1 hx
    exact (hη h hh).1
  have key := linear_accuracy (hasOrder_tab hp) ha0 (fun i => ha ▸ cwMat_rows n i) (f := f)
    (w := ![0, 0, 0, min (max (u 0) (-1)) 1 / m, min (max (u 1) (-1)) 1 / m, min (max (u 2) (-1)) 1 / m])
    (fun t => by rw [cwMat_eq m n (f t) (fun i => min (max (u i) (-1)) 1)]; exact hf t) hδ0
    (fun i => by rw [cwMat_eq m n (f 0) (fun i => min (max (u i) (-1)) 1), hf0]; exact hδ i) (y := s) (ε := 0) le_rfl
    (fun i => by simp [hf0]) (hist.flatMap fun h => flowHs e0.dynamics h.1 h.2.1) (η := η)
    (fun x hx => by
      obtain ⟨h, hh, hx⟩ := List.mem_flatMap.1 hx
      exact ⟨(flow_run hpl h.1 h.2.1).nonneg (hη h hh).1 x hx, (hη h hh).2 x hx⟩) i
  rw [hsum] at key
  refine key.trans (le_of_eq ?_)
  rw [show 3 * a * T = 2 * a * T + a * T by ring, Real.exp_add]
  ring

/-- Without thrust: the distance from the textbook closed-form solution. -/
theorem C81_coasting (env : Env realFmt) (args : CwhArgs realFmt) (m n : ℝ) (hm : args.m = .fin m) (hn : args.n = .fin n) (hn0 : n ≠ 0)
    (e0 : Entity realFmt) (h0 : newCwhSpacecraft env args = .ok e0) (p : ℕ) (hp : HasOrder e0.dynamics p) (s : Fin 6 → ℝ)
    (hist : List (List ℝ × ℝ × Action realFmt)) (hreq : ∀ h ∈ hist, Asks (scheduled h.1) e0 h.2.2 (0 : Fin 3 → ℝ))
    (a δ η T : ℝ) (ha : a = 1 + 2 * |n| + 3 * n ^ 2) (hδ0 : 0 ≤ δ) (hδ : ∀ i, |cw m n s 0 i| ≤ δ)
    (hT : T = (hist.map (fun h => h.2.1)).sum)
    (hη : ∀ h ∈ hist, 0 ≤ h.2.1 ∧ ∀ x ∈ stepSizes e0.dynamics.integrationMethod h.1 h.2.1, x ≤ η) :
    ∃ s' : Fin 6 → ℝ, (runScheduled { e0 with state := toFl s } hist).state = toFl s' ∧
      ∀ i, |s' i - cwSolution n s T i| ≤ 2 * a ^ p * T * Real.exp (3 * a * T) * δ * η ^ p := by
  have hsat : (fun i => min (max ((0 : Fin 3 → ℝ) i) (-1)) 1) = 0 := by funext i; simp
  refine C81_cwh env args m n hm hn e0 h0 p hp s hist 0 hreq (cwSolution n s) (cwSolution_zero n s) (fun t => ?_) a δ η T ha hδ0 ?_ hT hη
  · rw [hsat]; exact cwSolution_deriv n hn0 m s t
  · rw [hsat]; exact hδ

/-- Refining the steps makes the result converge to the exact solution: for every tolerance there is a step size (not depending on the
solver's choices, nor on how the time is divided into calls) below which the error is within the tolerance. -/
theorem C81_converges (env : Env realFmt) (args : CwhArgs realFmt) (m n : ℝ) (hm : args.m = .fin m) (hn : args.n = .fin n) (hn0 : n ≠ 0)
    (e0 : Entity realFmt) (h0 : newCwhSpacecraft env args = .ok e0) (p : ℕ) (hp : HasOrder e0.dynamics p) (s : Fin 6 → ℝ) (T tol : ℝ)
    (htol : 0 < tol) :
    ∃ η > 0, ∀ hist : List (List ℝ × ℝ × Action realFmt), (hist.map (fun h => h.2.1)).sum = T →
      (∀ h ∈ hist, Asks (scheduled h.1) e0 h.2.2 (0 : Fin 3 → ℝ)) →
      (∀ h ∈ hist, 0 ≤ h.2.1 ∧ ∀ x ∈ stepSizes e0.dynamics.integrationMethod h.1 h.2.1, x ≤ η) →
      ∃ s' : Fin 6 → ℝ, (runScheduled { e0 with state := toFl s } hist).state = toFl s' ∧ ∀ i, |s' i - cwSolution n s T i| ≤ tol := by
  by_cases hT0 : 0 ≤ T
  · obtain ⟨δ, hδ0, hδ⟩ : ∃ δ, 0 ≤ δ ∧ ∀ i, |cw m n s 0 i| ≤ δ :=
      ⟨‖cw m n s 0‖, norm_nonneg _, fun i => norm_le_pi_norm (cw m n s 0) i⟩
    have hp1 : 1 ≤ p := by rcases hp with ⟨-, rfl⟩ | ⟨-, -, rfl⟩ <;> norm_num
    have hC0 : 0 ≤ 2 * (1 + 2 * |n| + 3 * n ^ 2) ^ p * T * Real.exp (3 * (1 + 2 * |n| + 3 * n ^ 2) * T) * δ := by positivity
    generalize hC : 2 * (1 + 2 * |n| + 3 * n ^ 2) ^ p * T * Real.exp (3 * (1 + 2 * |n| + 3 * n ^ 2) * T) * δ = C at hC0
    refine ⟨min 1 (tol / (C + 1)), lt_min one_pos (by positivity), fun hist hT hreq hη => ?_⟩
    obtain ⟨s', h1, h2⟩ := C81_coasting env args m n hm hn hn0 e0 h0 p hp s hist hreq _ δ _ T rfl hδ0 hδ hT.symm hη
    refine ⟨s', h1, fun i => (h2 i).trans ?_⟩
    rw [hC]
    have hmin0 : 0 ≤ min 1 (tol / (C + 1)) := le_min zero_le_one (by positivity)
    calc _ ≤ C * (min 1 (tol / (C + 1))) ^ 1 :=
          mul_le_mul_of_nonneg_left (pow_le_pow_of_le_one hmin0 (min_le_left _ _) hp1) hC0
      _ ≤ C * (tol / (C + 1)) := by rw [pow_one]; exact mul_le_mul_of_nonneg_left (min_le_right _ _) hC0
      _ ≤ tol := by
        rw [← mul_div_assoc, div_le_iff₀ (by positivity)]
        nlinarith
  · refine ⟨1, one_pos, fun hist hT _ hη => absurd ?_ hT0⟩
    rw [← hT]
    refine List.sum_nonneg fun x hx => ?_
    obtain ⟨h, hh, rfl⟩ := List.mem_map.1 hx
    exact (hη h hh).1

/-- the default spacecraft and two calls of one second each, the first in one step, the second in two, meet the hypotheses -/
example (env : Env realFmt) : ∃ e0 : Entity realFmt,
    newCwhSpacecraft env { m := .fin 12, n := .fin 0.001027, kwargs := [("name", .str "chief")] } = .ok e0 ∧ HasOrder e0.dynamics 5 ∧
    ∀ h ∈ ([([], 1, .none), ([1], 1, .none)] : List (List ℝ × ℝ × Action realFmt)),
      Asks (scheduled h.1) e0 h.2.2 (0 : Fin 3 → ℝ) ∧ 0 ≤ h.2.1 ∧ ∀ x ∈ stepSizes "RK45" h.1 h.2.1, x ≤ 1 := by
  have h : abstractMethods mroCWHSpacecraft = [] := by decide
  simp only [newCwhSpacecraft, instantiate, h, if_true, initCwhSpacecraft, mkCwhDynamics, generateCwhMatrices]
  simp [pyDiv, Fl.eqb, bind, Except.bind, mkLinearDyn, mkOdeDyn, linearShapeCheck, pure, Except.pure, baseInit, validate, lookup, fieldValues,
      cwhFields, buildState, Config.get, HasOrder, asks_iff, stepSizes, schedule, Entity.resolve]
  norm_num [toFl, List.ofFn_succ]

end SAD
