import Verif.Lemmas.Timed
import Verif.Props.Integrators
import Verif.Props.Cwh
import Mathlib.Data.Fintype.Order
import Mathlib.Tactic.Linarith

/-!
# C87: what the point-mass integrators can reach
-/

set_option linter.unusedSectionVars false

namespace SAD
open Spec

section
variable {K : Type} {R : Fmt K} [Field K] [LinearOrder K] [IsStrictOrderedRing K] [FloorRing K] [Exact R] {n m : Nat}

/-- one call of the undamped point mass, by either method -/
theorem pointModel_call (k : Nat) (m : K) (u : Fin k → K) {d : Dyn R} {T : K} {tab : KTab K} {hs : List K} (hr : Run d T tab hs)
    (y : Fin (k + k) → K) (i : Fin k) :
    rkChain tab ((pointModel k m 0).field u) 0 y hs (Fin.natAdd k i) = y (Fin.natAdd k i) + u i / m * T ∧
    rkChain tab ((pointModel k m 0).field u) 0 y hs (Fin.castAdd k i)
      = y (Fin.castAdd k i) + y (Fin.natAdd k i) * T + (if d.integrationMethod = "Euler" then 0 else u i / m * T ^ 2 / 2) := by
  have hy : y = Fin.append (fun i => y (Fin.castAdd k i)) (fun i => y (Fin.natAdd k i)) := by
    funext j
    refine Fin.addCases (fun i => ?_) (fun i => ?_) j <;> simp [-Fin.natAdd_eq_addNat]
  rcases hr.kind with ⟨hk, rfl⟩ | ⟨hk, rfl, rfl⟩
  · have hne : d.integrationMethod ≠ "Euler" := by rw [hk]; decide
    rw [if_neg hne, hy, pointModel_chain, hr.sum]
    simp [uniform, -Fin.natAdd_eq_addNat]
  · rw [if_pos hk, rkChain_keuler, pointModel_field]
    simp [mul_comm T, -Fin.natAdd_eq_addNat]

theorem sat_abs (u : K) : |min (max u (-1)) 1| ≤ 1 := by
  rw [abs_le]
  exact ⟨le_min (le_max_right _ _) (by linarith [zero_lt_one (α := K)]), min_le_right _ _⟩

theorem sat_id {u : K} (h : |u| ≤ 1) : min (max u (-1)) 1 = u := by
  rw [abs_le] at h
  rw [max_eq_left h.1, min_eq_left h.2]

/-- C87: thrust is limited, so is what an undamped integrator can reach: over any history of calls with any finite requests, by
either method, the velocity on each axis changes by at most the time over the mass, and the position departs from the unforced
motion by at most half the squared time over the mass. -/
theorem C87_reach (hpi : 0 < R.pi) (env : Env R) (henv : IsRk dopri env) (k : Nat) (args : IntegratorArgs R) (m : K)
    (hm : args.m = .fin m) (hpos : 0 < m) (hc : args.damping = 0) (e0 : Entity R)
    (h0 : initIntegrator env args k = .ok e0) (hp : PlainMethod e0.dynamics) (x v : Fin k → K)
    (hs : e0.state = toFl (Fin.append x v)) (hist : List (K × Action R)) (hT : ∀ h ∈ hist, 0 ≤ h.1)
    (ha : ∀ h ∈ hist, ∃ u : Fin k → K, Asks env e0 h.2 u) :
    ∃ x' v' : Fin k → K, (e0.run env (stepsOf hist)).state = toFl (Fin.append x' v') ∧ ∀ i,
      |v' i - v i| ≤ elapsed env e0 hist / m ∧
      |x' i - (x i + v i * elapsed env e0 hist)| ≤ elapsed env e0 hist ^ 2 / (2 * m) := by
  obtain ⟨r, -, -⟩ := integratorEntity_realised hm (hc.trans Fl.zero_fin) h0
  obtain ⟨y', g1, -, g2⟩ := Realises.run_timed henv hpi (M := pointModel k m 0) (d := e0.dynamics)
    (fun τ y => 0 ≤ τ ∧ ∀ i, |y (Fin.natAdd k i) - v i| ≤ τ / m ∧
      |y (Fin.castAdd k i) - (x i + v i * τ)| ≤ τ ^ 2 / (2 * m))
    (fun T _ => 0 ≤ T) (S := fun _ => True) (D := ⊤) (fun _ _ => trivial) (fun _ _ _ => Stable.univ _) (fun _ _ _ => trivial)
    (by
      rintro τ T u hT tab hs y hr ⟨hτ, hy⟩
      refine ⟨add_nonneg hτ hT, fun i => ?_⟩
      obtain ⟨h1, h2⟩ := hy i
      rw [pointModel_post]
      obtain ⟨c1, c2⟩ := pointModel_call k m ((pointModel k m 0).sat u) hr y i
      rw [c1, c2]
      simp only [pointModel_sat]
      obtain ⟨s1, s2⟩ := abs_le.1 (sat_abs (u i))
      generalize min (max (u i) (-1)) 1 = w at s1 s2
      obtain ⟨w', hw⟩ : ∃ w', w / m = w' := ⟨_, rfl⟩
      have e1 : τ / m = τ * (1 / m) := by ring
      have e2 : τ ^ 2 / (2 * m) = τ ^ 2 / 2 * (1 / m) := by field_simp
      have e3 : (τ + T) / m = (τ + T) * (1 / m) := by ring
      have e4 : (τ + T) ^ 2 / (2 * m) = (τ + T) ^ 2 / 2 * (1 / m) := by field_simp
      have b1 : -(1 / m) ≤ w' := by rw [← hw, ← neg_div]; gcongr
      have b2 : w' ≤ 1 / m := by rw [← hw]; gcongr
      simp only [hw]
      rw [e1] at h1
      rw [e2] at h2
      rw [e3, e4]
      have hq : 0 ≤ 1 / m := by positivity
      generalize 1 / m = q at *
      rw [abs_le] at h1 h2 ⊢
      rw [abs_le]
      have t1 := mul_le_mul_of_nonneg_right b1 hT
      have t2 := mul_le_mul_of_nonneg_right b2 hT
      have t3 := mul_le_mul_of_nonneg_right h1.1 hT
      have t4 := mul_le_mul_of_nonneg_right h1.2 hT
      have t5 := mul_le_mul_of_nonneg_right t1 hT
      have t6 := mul_le_mul_of_nonneg_right t2 hT
      have t7 : 0 ≤ T ^ 2 * q := by positivity
      refine ⟨⟨by linarith, by linarith⟩, ?_⟩
      split
      · constructor <;> nlinarith
      · constructor <;> nlinarith)
    hist r hp rfl (fun h hh => by obtain ⟨u, hu⟩ := ha h hh; exact ⟨u, hu, hT h hh⟩) (τ := 0) hs
    ⟨le_rfl, fun i => by simp [-Fin.natAdd_eq_addNat]⟩
  refine ⟨fun i => y' (Fin.castAdd k i), fun i => y' (Fin.natAdd k i), ?_, ?_⟩
  · rw [g1]
    congr 1
    funext j
    refine Fin.addCases (fun i => ?_) (fun i => ?_) j <;> simp [-Fin.natAdd_eq_addNat]
  · simpa using g2

/-- C87: the bounds are attained: one RK45 step under full thrust. -/
theorem C87_sharp (hpi : 0 < R.pi) (env : Env R) (henv : IsRk dopri env) (k : Nat) (args : IntegratorArgs R) (m : K)
    (hm : args.m = .fin m) (hc : args.damping = 0) (hr : args.integrationMethod = "RK45") (e0 : Entity R)
    (h0 : initIntegrator env args k = .ok e0) (T : K) (a : Action R) (x v u : Fin k → K)
    (hs : e0.state = toFl (Fin.append x v)) (ha : Asks env e0 a u) (hu : ∀ i, 1 ≤ u i)
    (hok : (e0.step env (.fin T) a).outcome = .ok ()) :
    ∃ x' v' : Fin k → K, (e0.run env (stepsOf [(T, a)])).state = toFl (Fin.append x' v') ∧ ∀ i,
      v' i - v i = elapsed env e0 [(T, a)] / m ∧
      x' i - (x i + v i * elapsed env e0 [(T, a)]) = elapsed env e0 [(T, a)] ^ 2 / (2 * m) := by
  have hel : elapsed env e0 [(T, a)] = T := by simp [elapsed, hok]
  have := C25_entity hpi env henv k args m hm hc hr e0 h0 [] T a x v u hs ha hok
  refine ⟨_, _, this, fun i => ?_⟩
  have e : min (max (u i) (-1)) 1 = 1 := by
    rw [max_eq_left (by linarith [hu i, zero_lt_one (α := K)]), min_eq_right (hu i)]
  simp only [hel, e]
  constructor <;> ring

/-- a thrust small enough when the time is long enough -/
theorem thrust_small {m D T a : K} (hm : 0 < m) (hT : 1 + 2 * m * D ≤ T) (hD : 0 ≤ D) (ha : |a| ≤ 2 * D / T) : |m * a| ≤ 1 := by
  have h0 : 0 < T := by nlinarith [mul_nonneg hm.le hD]
  rw [le_div_iff₀ h0] at ha
  rw [abs_mul, abs_of_pos hm]
  by_contra h
  push Not at h
  have h1 : T < m * |a| * T := by nlinarith
  have h2 : m * (|a| * T) ≤ m * (2 * D) := mul_le_mul_of_nonneg_left ha hm.le
  nlinarith

/-- C87: every state is reachable from every other: for an undamped integrator, two calls of equal duration with suitable
thrusts within the limits, the same whatever steps the solver takes, lead exactly from any positions and velocities to any
others, by either method. -/
theorem C87_controllable (hpi : 0 < R.pi) (env : Env R) (k : Nat) (args : IntegratorArgs R) (m : K)
    (hm : args.m = .fin m) (hpos : 0 < m) (hc : args.damping = 0) (e0 : Entity R)
    (h0 : initIntegrator env args k = .ok e0) (hp : PlainMethod e0.dynamics) (x v x' v' : Fin k → K) :
    ∃ (T : K) (u1 u2 : Fin k → K), 0 < T ∧ (∀ i, |u1 i| ≤ 1 ∧ |u2 i| ≤ 1) ∧ ∀ ws1 ws2 : List K,
      (runScheduled { e0 with state := toFl (Fin.append x v) }
        [(ws1, T, .ndarray .f64 (toFl u1)), (ws2, T, .ndarray .f64 (toFl u2))]).state = toFl (Fin.append x' v') := by
  obtain ⟨r, -, -⟩ := integratorEntity_realised hm (hc.trans Fl.zero_fin) h0
  let D : Fin k → K := fun i => |x' i - x i| + 2 * |v i| + |v' i - v i|
  have hD : ∀ i, 0 ≤ D i := fun i => by positivity
  obtain ⟨T0, hT0⟩ : ∃ T0, ∀ i, 1 + 2 * m * D i ≤ T0 := by
    obtain ⟨B, hB⟩ := Set.Finite.bddAbove (Set.finite_range (fun i => 1 + 2 * m * D i))
    exact ⟨B, fun i => hB ⟨i, rfl⟩⟩
  obtain ⟨T, hT1, hT⟩ : ∃ T : K, 1 ≤ T ∧ ∀ i, 1 + 2 * m * D i ≤ T :=
    ⟨max 1 T0, le_max_left _ _, fun i => (hT0 i).trans (le_max_right _ _)⟩
  have hTpos : 0 < T := lt_of_lt_of_le zero_lt_one hT1
  let E : Prop := e0.dynamics.integrationMethod = "Euler"
  let a1 : Fin k → K := fun i => (x' i - x i - 2 * v i * T) / T ^ 2 - (if E then 0 else (v' i - v i) / (2 * T))
  let a2 : Fin k → K := fun i => (v' i - v i) / T - a1 i
  have b0 : ∀ i, |(x' i - x i - 2 * v i * T) / T ^ 2| ≤ (|x' i - x i| + 2 * |v i|) / T := by
    intro i
    have h1 : (x' i - x i - 2 * v i * T) / T ^ 2 = ((x' i - x i) / T - 2 * v i) / T := by field_simp
    have h2 : |(x' i - x i) / T| ≤ |x' i - x i| := by
      rw [abs_div, abs_of_pos hTpos]
      exact div_le_self (abs_nonneg _) hT1
    rw [h1, abs_div, abs_of_pos hTpos]
    gcongr
    calc _ ≤ |(x' i - x i) / T| + |2 * v i| := abs_sub _ _
      _ ≤ _ := by rw [abs_mul, abs_two]; gcongr
  have bv : ∀ i, |(v' i - v i) / T| = |v' i - v i| / T := fun i => by rw [abs_div, abs_of_pos hTpos]
  have b1 : ∀ i, |a1 i| ≤ D i / T := by
    intro i
    by_cases hE : E
    · simp only [a1, hE, if_true, sub_zero, D]
      refine (b0 i).trans ((div_le_div_iff_of_pos_right hTpos).2 ?_)
      linarith [abs_nonneg (v' i - v i)]
    · simp only [a1, hE, if_false, D]
      have e : (v' i - v i) / (2 * T) = (v' i - v i) / T / 2 := by field_simp
      refine (abs_sub _ _).trans ?_
      have eD : (|x' i - x i| + 2 * |v i| + |v' i - v i|) / T = (|x' i - x i| + 2 * |v i|) / T + |v' i - v i| / T := add_div _ _ _
      rw [e, abs_div _ (2 : K), bv, abs_two, eD]
      have := b0 i
      have h3 : 0 ≤ |v' i - v i| / T := by positivity
      linarith
  have b2 : ∀ i, |a2 i| ≤ 2 * D i / T := by
    intro i
    refine (abs_sub _ _).trans ?_
    rw [bv]
    have h3 : |v' i - v i| / T ≤ D i / T := by
      gcongr
      simp only [D]
      linarith [abs_nonneg (x' i - x i), abs_nonneg (v i)]
    have := b1 i
    have e : 2 * D i / T = D i / T + D i / T := by ring
    rw [e]; linarith
  have l1 : ∀ i, |m * a1 i| ≤ 1 := fun i => thrust_small hpos (hT i) (hD i) ((b1 i).trans (by
    gcongr; linarith [hD i]))
  have l2 : ∀ i, |m * a2 i| ≤ 1 := fun i => thrust_small hpos (hT i) (hD i) (b2 i)
  refine ⟨T, fun i => m * a1 i, fun i => m * a2 i, hTpos, fun i => ⟨l1 i, l2 i⟩, fun ws1 ws2 => ?_⟩
  have hm0 := hpos.ne'
  have one : ∀ (e : Entity R), SameConfig e0 e → ∀ (ws : List K) (y : Fin (k + k) → K) (a : Fin k → K), (∀ i, |m * a i| ≤ 1) →
      e.state = toFl y → (e.step (scheduled ws) (.fin T) (.ndarray .f64 (toFl (fun i => m * a i)))).entity.state
        = toFl (Fin.append (fun i => y (Fin.castAdd k i) + y (Fin.natAdd k i) * T + (if E then 0 else a i * T ^ 2 / 2))
            (fun i => y (Fin.natAdd k i) + a i * T)) := by
    intro e hcfg ws y a ha he
    have hp' := plain_congr hcfg hp
    have h := ((r.congr hcfg).step_fixed ws hpi hp' (u := fun i => m * a i) ⟨.f64, .array _ _⟩ (S := fun _ => True) (D := ⊤)
      (fun _ _ => trivial) (Stable.univ _) he trivial T).2.1
    rw [h, pointModel_post]
    congr 1
    have hsat : (pointModel k m 0).sat (fun i => m * a i) = fun i => m * a i := by
      funext i; rw [pointModel_sat]; exact sat_id (ha i)
    rw [hsat]
    have hme := (sameConfig_method hcfg).1
    funext j
    refine Fin.addCases (fun i => ?_) (fun i => ?_) j
    · rw [(pointModel_call k m _ (flow_run hp' ws T) y i).2, Fin.append_left, hme, mul_div_cancel_left₀ _ hm0]
    · rw [(pointModel_call k m _ (flow_run hp' ws T) y i).1, Fin.append_right, mul_div_cancel_left₀ _ hm0]
  have c1 : SameConfig e0 { e0 with state := toFl (Fin.append x v) } := ⟨rfl, rfl, rfl, rfl, rfl, rfl⟩
  have s1 := one _ c1 ws1 (Fin.append x v) a1 l1 rfl
  have c2 := step_sameConfig (scheduled ws1) { e0 with state := toFl (Fin.append x v) } (.fin T) (.ndarray .f64 (toFl (fun i => m * a1 i)))
  have c3 : SameConfig e0 _ := run_sameConfig (scheduled ws1) [.step (.fin T) (.ndarray .f64 (toFl (fun i => m * a1 i)))] { e0 with state := toFl (Fin.append x v) }
  have s2 := one _ c3 ws2 _ a2 l2 s1
  refine s2.trans ?_
  congr 1
  funext j
  refine Fin.addCases (fun i => ?_) (fun i => ?_) j
  · simp only [Fin.append_left, Fin.append_right, a2, a1]
    split <;> field_simp <;> ring
  · simp only [Fin.append_right, a2, a1]
    field_simp
    ring

/-- C87: over any history of calls the along-track integral `y' + 2 n x` of a point-mass spacecraft changes by at most the time
over the mass, by either method. -/
theorem C87_along_track (hpi : 0 < R.pi) (env : Env R) (henv : IsRk dopri env) (args : CwhArgs R) (m n : K) (hm : args.m = .fin m)
    (hn : args.n = .fin n) (hpos : 0 < m) (e0 : Entity R) (h0 : newCwhSpacecraft env args = .ok e0) (hp : PlainMethod e0.dynamics)
    (s : Fin 6 → K) (hs : e0.state = toFl s) (hist : List (K × Action R)) (hT : ∀ h ∈ hist, 0 ≤ h.1)
    (ha : ∀ h ∈ hist, ∃ u : Fin 3 → K, Asks env e0 h.2 u) :
    ∃ s' : Fin 6 → K, (e0.run env (stepsOf hist)).state = toFl s' ∧
      |(s' 4 + 2 * n * s' 0) - (s 4 + 2 * n * s 0)| ≤ elapsed env e0 hist / m := by
  have r := (cwhSpacecraft_realised hm hn h0).1
  obtain ⟨y', g1, g2⟩ := Realises.run_timed henv hpi (M := cwModel m n) (d := e0.dynamics)
    (fun τ y => |alongTrack n y - alongTrack n s| ≤ τ / m) (fun T _ => 0 ≤ T) (S := fun _ => True) (D := ⊤) (fun _ _ => trivial) (fun _ _ _ => Stable.univ _) (fun _ _ _ => trivial)
    (by
      intro τ T u hT tab hs y hr hy
      rw [cwModel_post, cwModel_alongTrack tab hr.b.1 hr.b.2, hr.sum, cwModel_sat]
      simp only
      have h1 := sat_abs (u 1)
      generalize min (max (u 1) (-1)) 1 = w at h1
      have h2 : |w / m * T| ≤ T / m := by
        rw [abs_mul, abs_div, abs_of_pos hpos, abs_of_nonneg hT]
        calc |w| / m * T ≤ 1 / m * T := by gcongr
          _ = T / m := by ring
      rw [add_div, add_sub_right_comm]
      exact (abs_add_le _ _).trans (add_le_add hy h2))
    hist r hp rfl (fun h hh => by obtain ⟨u, hu⟩ := ha h hh; exact ⟨u, hu, hT h hh⟩) (τ := 0) hs (by simp)
  exact ⟨y', g1, by simpa [alongTrack] using g2⟩

/-- a 2-d integrator that meets the hypotheses, and a spacecraft -/
example : ∃ e0 : Entity ratFmt, initIntegrator (rkEnv dopri (fun _ _ _ => [3])) { m := 2, damping := 0, kwargs := [("name", .str "a"), ("x", .num 1)] } 2 = .ok e0 ∧
    PlainMethod e0.dynamics ∧ e0.state = toFl (Fin.append ![1, 0] ![0, 0]) ∧
    Asks (rkEnv dopri (fun _ _ _ => [3])) e0 (.ndarray .f64 [.fin 2, .fin 1]) ![2, 1] ∧ (∀ i, 1 ≤ (![2, 1] : Fin 2 → ℚ) i) ∧
    (e0.step (rkEnv dopri (fun _ _ _ => [3])) (.fin 2) (.ndarray .f64 [.fin 2, .fin 1])).outcome = .ok () ∧
    elapsed (rkEnv dopri (fun _ _ _ => [3])) e0 [(2, .ndarray .f64 [.fin 2, .fin 1])] = 2 :=
  ⟨_, rfl, .inl rfl, by decide +kernel, ⟨.f64, .array _ _⟩, by decide +kernel, by decide +kernel, by decide +kernel⟩

example : ∃ e0 : Entity ratFmt, newCwhSpacecraft (R := ratFmt) (rkEnv dopri (fun _ _ _ => [3])) { m := 2, n := .fin (1/1000), kwargs := [("name", .str "a"), ("x", .num 1)] } = .ok e0 ∧
    PlainMethod e0.dynamics ∧ e0.state = toFl ![1, 0, 0, 0, 0, 0] :=
  ⟨_, rfl, .inl rfl, by decide +kernel⟩

end
end SAD
