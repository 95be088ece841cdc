import Verif.Props.Accuracy
import Verif.Props.Reach

/-!
# C117: relative orbits and station keeping

What the Clohessy-Wiltshire dynamics are used for: free relative orbits, which close after an orbital period exactly when the along-track
drift vanishes, and the thrust that holds a spacecraft at a place off the reference orbit.
-/

set_option linter.unusedSectionVars false

namespace SAD
open Spec

/-- where a coasting spacecraft is after `k` periods of the reference orbit: everything is as it was but for the along-track drift -/
noncomputable def Spec.afterOrbits (n : ℝ) (k : ℕ) (s : Fin 6 → ℝ) : Fin 6 → ℝ :=
  ![s 0, s 1 - k * (6 * Real.pi * (2 * s 0 + s 4 / n)), s 2, s 3, s 4, s 5]

/-- a history of calls of total duration `T` that ask for no thrust, none of them and no step of the solver longer than `η` -/
def Spec.Coasts (e0 : Entity realFmt) (T η : ℝ) (hist : List (List ℝ × ℝ × Action realFmt)) : Prop :=
  (hist.map (fun h => h.2.1)).sum = T ∧ (∀ h ∈ hist, Asks (scheduled h.1) e0 h.2.2 (0 : Fin 3 → ℝ)) ∧
  ∀ h ∈ hist, 0 ≤ h.2.1 ∧ ∀ x ∈ stepSizes e0.dynamics.integrationMethod h.1 h.2.1, x ≤ η

theorem cwSolution_orbits (n : ℝ) (hn : n ≠ 0) (s : Fin 6 → ℝ) (k : ℕ) : cwSolution n s (k * (2 * Real.pi / n)) = afterOrbits n k s := by
  have e : n * (k * (2 * Real.pi / n)) = k * (2 * Real.pi) := by field_simp
  have hc : Real.cos (k * (2 * Real.pi)) = 1 := by simp
  have hs : Real.sin (k * (2 * Real.pi)) = 0 := by
    have := Real.sin_nat_mul_pi (k * 2)
    push_cast at this
    rwa [mul_assoc] at this
  funext i
  fin_cases i <;> simp [cwSolution, afterOrbits, e, hc, hs] <;> field_simp <;> ring

/-- C117: a coasting spacecraft simulated for `k` orbital periods `2 pi / n` in calls, and steps of the solver, that are short enough ends
within any tolerance of the state it had, displaced along the track by `-k 6 pi (2 x + y_dot / n)`. -/
theorem C117_orbits (env : Env realFmt) (args : CwhArgs realFmt) (m n : ℝ) (hm : args.m = .fin m) (hn : args.n = .fin n) (hn0 : 0 < n)
    (e0 : Entity realFmt) (h0 : newCwhSpacecraft env args = .ok e0) (p : ℕ) (hp : HasOrder e0.dynamics p) (s : Fin 6 → ℝ) (k : ℕ) (tol : ℝ)
    (htol : 0 < tol) :
    ∃ η > 0, ∀ hist, Coasts e0 (k * (2 * Real.pi / n)) η hist →
      ∃ s' : Fin 6 → ℝ, (runScheduled { e0 with state := toFl s } hist).state = toFl s' ∧ ∀ i, |s' i - afterOrbits n k s i| ≤ tol := by
  rw [← cwSolution_orbits n hn0.ne']
  obtain ⟨η, hη, h⟩ := C81_converges env args m n hm hn hn0.ne' e0 h0 p hp s (k * (2 * Real.pi / n)) tol htol
  exact ⟨η, hη, fun hist hc => h hist hc.1 hc.2.1 hc.2.2⟩

theorem afterOrbits_closed (n : ℝ) (hn0 : 0 < n) (s : Fin 6 → ℝ) (k : ℕ) (hk : k ≠ 0) : afterOrbits n k s = s ↔ s 4 = -2 * n * s 0 := by
  have h : afterOrbits n k s = s ↔ (k : ℝ) * (6 * Real.pi * (2 * s 0 + s 4 / n)) = 0 := by
    constructor
    · intro h
      have := congrFun h 1
      simp only [afterOrbits, Matrix.cons_val_one, Matrix.cons_val_zero] at this
      linarith
    · intro h
      funext i
      fin_cases i <;> simp [afterOrbits, h]
  have hk' : (k : ℝ) ≠ 0 := by exact_mod_cast hk
  rw [h, mul_eq_zero, or_iff_right hk', mul_eq_zero, or_iff_right (by positivity)]
  constructor
  · intro h; field_simp at h; linarith
  · intro h; field_simp; rw [h]; ring

/-- C117: the relative orbit closes, up to any tolerance, when `y_dot = -2 n x`. -/
theorem C117_closes (env : Env realFmt) (args : CwhArgs realFmt) (m n : ℝ) (hm : args.m = .fin m) (hn : args.n = .fin n) (hn0 : 0 < n)
    (e0 : Entity realFmt) (h0 : newCwhSpacecraft env args = .ok e0) (p : ℕ) (hp : HasOrder e0.dynamics p) (s : Fin 6 → ℝ)
    (hs : s 4 = -2 * n * s 0) (k : ℕ) (tol : ℝ) (htol : 0 < tol) :
    ∃ η > 0, ∀ hist, Coasts e0 (k * (2 * Real.pi / n)) η hist →
      ∃ s' : Fin 6 → ℝ, (runScheduled { e0 with state := toFl s } hist).state = toFl s' ∧ ∀ i, |s' i - s i| ≤ tol := by
  have h := C117_orbits env args m n hm hn hn0 e0 h0 p hp s k tol htol
  rcases eq_or_ne k 0 with rfl | hk
  · rwa [show afterOrbits n 0 s = s by funext i; fin_cases i <;> simp [afterOrbits]] at h
  · rwa [(afterOrbits_closed n hn0 s k hk).2 hs] at h

/-- C117: otherwise it does not: after one or more periods every simulation that is fine enough ends away from where it started. -/
theorem C117_drifts (env : Env realFmt) (args : CwhArgs realFmt) (m n : ℝ) (hm : args.m = .fin m) (hn : args.n = .fin n) (hn0 : 0 < n)
    (e0 : Entity realFmt) (h0 : newCwhSpacecraft env args = .ok e0) (p : ℕ) (hp : HasOrder e0.dynamics p) (s : Fin 6 → ℝ)
    (hs : s 4 ≠ -2 * n * s 0) (k : ℕ) (hk : k ≠ 0) :
    ∃ d > 0, ∃ η > 0, ∀ hist, Coasts e0 (k * (2 * Real.pi / n)) η hist →
      ∃ s' : Fin 6 → ℝ, (runScheduled { e0 with state := toFl s } hist).state = toFl s' ∧ d ≤ |s' 1 - s 1| := by
  have hne : afterOrbits n k s 1 - s 1 ≠ 0 := by
    intro h
    refine hs ((afterOrbits_closed n hn0 s k hk).1 ?_)
    funext i
    fin_cases i
    · rfl
    · exact sub_eq_zero.1 h
    all_goals rfl
  have hd : 0 < |afterOrbits n k s 1 - s 1| / 2 := by have := abs_pos.2 hne; positivity
  obtain ⟨η, hη, h⟩ := C117_orbits env args m n hm hn hn0 e0 h0 p hp s k _ hd
  refine ⟨_, hd, η, hη, fun hist hc => ?_⟩
  obtain ⟨s', g1, g2⟩ := h hist hc
  refine ⟨s', g1, ?_⟩
  have := abs_sub_abs_le_abs_sub (afterOrbits n k s 1 - s 1) (afterOrbits n k s 1 - s' 1)
  rw [show afterOrbits n k s 1 - s 1 - (afterOrbits n k s 1 - s' 1) = s' 1 - s 1 by ring, abs_sub_comm (afterOrbits n k s 1) (s' 1)] at this
  linarith [g2 1]

section
variable {K : Type} {R : Fmt K} [Field K] [LinearOrder K] [IsStrictOrderedRing K] [FloorRing K] [Exact R]

/-- C117: a spacecraft at rest anywhere stays there, through every history of calls of any durations with either method, when every call asks
for the thrust `(-3 m n^2 x, 0, m n^2 z)`, provided this is within the limits of the thrusters. -/
theorem C117_hold (hpi : 0 < R.pi) (env : Env R) (henv : IsRk dopri env) (args : CwhArgs R) (m n : K) (hm : args.m = .fin m)
    (hn : args.n = .fin n) (e0 : Entity R) (h0 : newCwhSpacecraft env args = .ok e0) (hp : PlainMethod e0.dynamics)
    (ops : List (Op R)) (x y z : K) (hx : |3 * m * n ^ 2 * x| ≤ 1) (hz : |m * n ^ 2 * z| ≤ 1)
    (hs : (e0.run env ops).state = toFl ![x, y, z, 0, 0, 0]) (hist : List (K × Action R))
    (hreq : ∀ h ∈ hist, Asks env (e0.run env ops) h.2 ![-(3 * m * n ^ 2 * x), 0, m * n ^ 2 * z]) :
    ((e0.run env ops).run env (stepsOf hist)).state = toFl ![x, y, z, 0, 0, 0] := by
  obtain ⟨r, hm0, -⟩ := cwhSpacecraft_realised hm hn h0
  have hc := run_sameConfig env ops e0
  obtain ⟨z', g1, g2⟩ := Realises.run_inv henv hpi (M := cwModel m n) (fun s => s = ![x, y, z, 0, 0, 0]) (fun u => u = ![-(3 * m * n ^ 2 * x), 0, m * n ^ 2 * z])
    (S := fun _ => True) (D := ⊤) (fun _ _ => trivial) (fun _ _ => Stable.univ _) (fun _ _ => trivial) (d := (e0.run env ops).dynamics)
    (by
      rintro u rfl T tab hs s hr rfl
      rw [cwModel_post]
      have hsat : (cwModel m n).sat ![-(3 * m * n ^ 2 * x), 0, m * n ^ 2 * z] = ![-(3 * m * n ^ 2 * x), 0, m * n ^ 2 * z] := by
        rw [cwModel_sat]
        funext i
        fin_cases i
        · exact sat_id (by simpa using hx)
        · exact sat_id (by simp)
        · exact sat_id (by simpa using hz)
      rw [hsat]
      refine rkChain_inv tab _ (fun s => s = ![x, y, z, 0, 0, 0]) ⊥ ?_ ?_ 0 _ hs rfl
      · rintro t z rfl
        rw [Submodule.mem_bot, cwModel_field]
        funext i
        fin_cases i <;> simp <;> field_simp <;> ring
      · rintro s d rfl hd
        rw [Submodule.mem_bot] at hd
        simp [hd])
    hist (r.congr hc) (plain_congr hc hp) rfl (fun h hh => ⟨_, hreq h hh, rfl⟩) hs rfl
  rw [g1, g2]

end

/-- The hypotheses are met by the default spacecraft, for one orbit in equal calls as short as one likes. -/
example (env : Env realFmt) (η : ℝ) (hη : 0 < η) : ∃ e0 : Entity realFmt,
    newCwhSpacecraft env { m := .fin 12, n := .fin 0.001027, kwargs := [("name", .str "chief")] } = .ok e0 ∧ HasOrder e0.dynamics 5 ∧
    ∃ hist, Coasts e0 ((1 : ℕ) * (2 * Real.pi / 0.001027)) η hist := by
  obtain ⟨N, hN⟩ := exists_nat_gt (2 * Real.pi / 0.001027 / η)
  have hN0 : (0 : ℝ) < N := lt_trans (by positivity) hN
  rw [div_lt_iff₀ hη] at hN
  have hc : 2 * Real.pi / 0.001027 / N ≤ η := by rw [div_le_iff₀ hN0]; linarith
  have hc0 : 0 ≤ 2 * Real.pi / 0.001027 / N := by positivity
  have hsum : (N : ℝ) * (2 * Real.pi / 0.001027 / N) = 2 * Real.pi / 0.001027 := by field_simp
  generalize 2 * Real.pi / 0.001027 = P at hc hc0 hsum
  obtain ⟨e0, h1, h2, h3⟩ : ∃ e0 : Entity realFmt,
      newCwhSpacecraft env { m := .fin 12, n := .fin 0.001027, kwargs := [("name", .str "chief")] } = .ok e0 ∧
      e0.dynamics.integrationMethod = "RK45" ∧ Asks (scheduled []) e0 .none (0 : Fin 3 → ℝ) := by
    have h : abstractMethods mroCWHSpacecraft = [] := by decide
    simp only [newCwhSpacecraft, instantiate, h, if_true, initCwhSpacecraft, mkCwhDynamics, generateCwhMatrices]
    simp [pyDiv, Fl.eqb, bind, Except.bind, mkLinearDyn, mkOdeDyn, linearShapeCheck, pure, Except.pure, baseInit, validate, lookup, fieldValues,
      cwhFields, buildState, Config.get, asks_iff, Entity.resolve]
    norm_num [toFl, List.ofFn_succ]
  refine ⟨e0, h1, .inl ⟨h2, rfl⟩, List.replicate N ([], P / N, .none), by simpa using hsum, fun h hh => ?_, fun h hh => ?_⟩
  · rw [List.eq_of_mem_replicate hh]
    exact h3
  · rw [List.eq_of_mem_replicate hh, h2]
    simpa [stepSizes, schedule, hc0, show ¬ (1 : ℝ) < 0 by norm_num] using hc

/-- a spacecraft of 12 kg held 5 behind, 4 above and 3 to the side of the reference orbit -/
example : ∃ e0 : Entity ratFmt,
    newCwhSpacecraft (R := ratFmt) (rkEnv dopri (fun _ _ _ => [1, 2])) { m := 12, n := .fin (1/100), kwargs := [("name", .str "a"), ("x", .num 4), ("y", .num (-5)), ("z", .num 3)] } = .ok e0 ∧
    PlainMethod e0.dynamics ∧ e0.state = toFl ![4, -5, 3, 0, 0, 0] ∧ |3 * 12 * (1/100 : ℚ) ^ 2 * 4| ≤ 1 ∧ |12 * (1/100 : ℚ) ^ 2 * 3| ≤ 1 ∧
    Asks (rkEnv dopri (fun _ _ _ => [1, 2])) e0 (.ndarray .f64 [.fin (-9/625), .fin 0, .fin (9/2500)]) ![-(3 * 12 * (1/100 : ℚ) ^ 2 * 4), 0, 12 * (1/100 : ℚ) ^ 2 * 3] :=
  ⟨_, rfl, .inl rfl, by decide +kernel, by decide +kernel, by decide +kernel, asks_iff.2 ⟨.f64, by decide +kernel⟩⟩

end SAD
