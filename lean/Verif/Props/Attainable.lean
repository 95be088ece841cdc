import Verif.Props.Reach
import Mathlib.Tactic.LinearCombination

/-!
# C131: exactly which states an integrator can reach in a given time
-/

set_option linter.unusedSectionVars false

namespace SAD
open Spec

section
variable {K : Type} {R : Fmt K} [Field K] [LinearOrder K] [IsStrictOrderedRing K] [FloorRing K] [Exact R] {n m : Nat}

/-- The positions and velocities `x', v'` on an axis that a mass `m` can have a time `t` after `x, v` under forces between -1 and 1: with `p` the
momentum gained, `p` is at most `t` in size, and the position differs from that under the constant force `p / t` by at most
`(t ^ 2 - p ^ 2) / (4 m)`. -/
def Spec.Attainable (m t x v x' v' : K) : Prop :=
  |m * (v' - v)| ≤ t ∧ |4 * m * (x' - x - v * t) - 2 * t * (m * (v' - v))| ≤ t ^ 2 - (m * (v' - v)) ^ 2

theorem attainable_call {m τ T x v x1 v1 w : K} (hpos : 0 < m) (hT : 0 ≤ T) (hw : |w| ≤ 1) (h : Attainable m τ x v x1 v1) :
    Attainable m (τ + T) x v (x1 + v1 * T + w / m * T ^ 2 / 2) (v1 + w / m * T) := by
  obtain ⟨h1, h2⟩ := h
  have hm0 := hpos.ne'
  have hp : m * (v1 + w / m * T - v) = m * (v1 - v) + w * T := by field_simp; ring
  have hx : 4 * m * (x1 + v1 * T + w / m * T ^ 2 / 2 - x - v * (τ + T)) = 4 * m * (x1 - x - v * τ) + 4 * (m * (v1 - v)) * T + 2 * w * T ^ 2 := by
    field_simp; ring
  unfold Attainable
  rw [hp, hx]
  generalize m * (v1 - v) = p at *
  generalize 4 * m * (x1 - x - v * τ) = X at *
  rw [abs_le] at h1 h2 hw
  have a1 : 0 ≤ (τ - p) * (1 + w) := mul_nonneg (by linarith) (by linarith)
  have a2 : 0 ≤ (τ + p) * (1 - w) := mul_nonneg (by linarith) (by linarith)
  have a3 : 0 ≤ (1 - w) * (1 + w) := mul_nonneg (by linarith) (by linarith)
  have b1 := mul_nonneg a1 hT
  have b2 := mul_nonneg a2 hT
  have b3 := mul_nonneg (mul_nonneg a3 hT) hT
  have c1 := mul_le_mul_of_nonneg_right hw.1 hT
  have c2 := mul_le_mul_of_nonneg_right hw.2 hT
  refine ⟨abs_le.2 ⟨by linarith, by linarith⟩, abs_le.2 ⟨?_, ?_⟩⟩
  · linarith [h2.1]
  · linarith [h2.2]

/-- C131: whatever is asked of an undamped integrator with RK45, and whatever steps the solver takes, after any history of calls of non-negative
durations the state is one that forces within the limits can produce in the time elapsed. -/
theorem C131_within (hpi : 0 < R.pi) (env : Env R) (henv : IsRk dopri env) (k : Nat) (args : IntegratorArgs R) (m : K)
    (hm : args.m = .fin m) (hpos : 0 < m) (hc : args.damping = 0) (hrk : args.integrationMethod = "RK45") (e0 : Entity R)
    (h0 : initIntegrator env args k = .ok e0) (ops : List (Op R)) (e : Entity R) (he : e = e0.run env ops) (x v : Fin k → K)
    (hs : e.state = toFl (Fin.append x v)) (hist : List (K × Action R)) (hT : ∀ h ∈ hist, 0 ≤ h.1)
    (ha : ∀ h ∈ hist, ∃ u : Fin k → K, Asks env e h.2 u) :
    ∃ x' v' : Fin k → K, (e.run env (stepsOf hist)).state = toFl (Fin.append x' v') ∧
      ∀ i, Attainable m (elapsed env e hist) (x i) (v i) (x' i) (v' i) := by
  obtain ⟨r, r2, -⟩ := integratorEntity_realised hm (hc.trans Fl.zero_fin) h0
  have hcf := run_sameConfig env ops e0
  rw [← he] at hcf
  have hmeth : e.dynamics.integrationMethod = "RK45" := by rw [(sameConfig_method hcf).1, r2, hrk]
  have hE : e.dynamics.integrationMethod ≠ "Euler" := by rw [hmeth]; decide
  obtain ⟨y', g1, g2⟩ := Realises.run_timed henv hpi (M := pointModel k m 0) (d := e.dynamics)
    (fun τ y => ∀ i, Attainable m τ (x i) (v i) (y (Fin.castAdd k i)) (y (Fin.natAdd k i)))
    (fun T _ => 0 ≤ T) (S := fun _ => True) (D := ⊤) (fun _ _ => trivial) (fun _ _ _ => Stable.univ _) (fun _ _ _ => trivial)
    (by
      intro τ T u hT tab hs y hr hy i
      rw [pointModel_post]
      obtain ⟨c1, c2⟩ := pointModel_call k m ((pointModel k m 0).sat u) hr y i
      rw [c1, c2, if_neg hE]
      simp only [pointModel_sat]
      exact attainable_call hpos hT (sat_abs (u i)) (hy i))
    hist (r.congr hcf) (.inl hmeth) rfl (fun h hh => by obtain ⟨u, hu⟩ := ha h hh; exact ⟨u, hu, hT h hh⟩) (τ := 0) hs
    (fun i => by simp [Attainable, -Fin.natAdd_eq_addNat])
  rw [zero_add] at g2
  refine ⟨fun i => y' (Fin.castAdd k i), fun i => y' (Fin.natAdd k i), ?_, g2⟩
  rw [g1]
  congr 1
  funext j
  refine Fin.addCases (fun i => ?_) (fun i => ?_) j <;> simp [-Fin.natAdd_eq_addNat]

/-- thrust `w` on axis `i` alone -/
def Spec.alone {k : Nat} (i : Fin k) (w : K) : Fin k → K := fun j => if j = i then w else 0

theorem alone_call (hpi : 0 < R.pi) {k : Nat} {m : K} {e : Entity R} (hr : Realises e (pointModel k m 0))
    (hmeth : e.dynamics.integrationMethod = "RK45") (ws : List K) (T : K) (i : Fin k) {w : K} (hw : |w| ≤ 1) {x v : Fin k → K}
    (he : e.state = toFl (Fin.append x v)) :
    ∃ x' v' : Fin k → K, (e.step (scheduled ws) (.fin T) (.ndarray .f64 (toFl (alone i w)))).entity.state = toFl (Fin.append x' v') ∧
      x' i = x i + v i * T + w / m * T ^ 2 / 2 ∧ v' i = v i + w / m * T := by
  have hp : PlainMethod e.dynamics := .inl hmeth
  have hE : e.dynamics.integrationMethod ≠ "Euler" := by rw [hmeth]; decide
  have h := (hr.step_fixed ws hpi hp (u := alone i w) ⟨.f64, .array _ _⟩ (S := fun _ => True) (D := ⊤)
    (fun _ _ => trivial) (Stable.univ _) he trivial T).2.1
  rw [pointModel_post] at h
  obtain ⟨c1, c2⟩ := pointModel_call k m ((pointModel k m 0).sat (alone i w)) (flow_run hp ws T) (Fin.append x v) i
  have hsat : (pointModel k m 0).sat (alone i w) i = w := by rw [pointModel_sat]; simp only [alone, if_true]; exact sat_id hw
  rw [hsat] at c1 c2
  rw [if_neg hE] at c2
  simp only [Fin.append_left, Fin.append_right] at c1 c2
  generalize rkChain (flowTab e.dynamics) ((pointModel k m 0).field ((pointModel k m 0).sat (alone i w))) 0 (Fin.append x v)
    (flowHs e.dynamics ws T) = y' at h c1 c2
  refine ⟨fun i => y' (Fin.castAdd k i), fun i => y' (Fin.natAdd k i), ?_, c2, c1⟩
  refine h.trans ?_
  congr 1
  funext j
  refine Fin.addCases (fun i => ?_) (fun i => ?_) j <;> simp [-Fin.natAdd_eq_addNat]

/-- C131: conversely every such state is reached, by three calls: for every axis and every attainable position and velocity there are three durations
that add up to the time and three thrusts within the limits with which the integrator, whatever steps the solver takes, is exactly there. -/
theorem C131_reached (hpi : 0 < R.pi) (env : Env R) (k : Nat) (args : IntegratorArgs R) (m : K)
    (hm : args.m = .fin m) (hpos : 0 < m) (hc : args.damping = 0) (hrk : args.integrationMethod = "RK45") (e0 : Entity R)
    (h0 : initIntegrator env args k = .ok e0) (ops : List (Op R)) (e : Entity R) (he : e = e0.run env ops) (x v : Fin k → K)
    (hs : e.state = toFl (Fin.append x v)) (i : Fin k) (t x1 v1 : K) (h : Attainable m t (x i) (v i) x1 v1) :
    ∃ T1 T2 T3 w1 w2 w3 : K, 0 ≤ T1 ∧ 0 ≤ T2 ∧ 0 ≤ T3 ∧ T1 + T2 + T3 = t ∧ |w1| ≤ 1 ∧ |w2| ≤ 1 ∧ |w3| ≤ 1 ∧ ∀ ws1 ws2 ws3 : List K,
      ∃ x' v' : Fin k → K, (runScheduled e [(ws1, T1, .ndarray .f64 (toFl (alone i w1))), (ws2, T2, .ndarray .f64 (toFl (alone i w2))),
        (ws3, T3, .ndarray .f64 (toFl (alone i w3)))]).state = toFl (Fin.append x' v') ∧ x' i = x1 ∧ v' i = v1 := by
  obtain ⟨r, r2, -⟩ := integratorEntity_realised hm (hc.trans Fl.zero_fin) h0
  have hcf := run_sameConfig env ops e0
  rw [← he] at hcf
  have hmeth : e.dynamics.integrationMethod = "RK45" := by rw [(sameConfig_method hcf).1, r2, hrk]
  replace r := r.congr hcf
  obtain ⟨h1, h2⟩ := h
  have hm0 := hpos.ne'
  obtain ⟨p, hp⟩ : ∃ p, m * (v1 - v i) = p := ⟨_, rfl⟩
  obtain ⟨X, hX⟩ : ∃ X, 4 * m * (x1 - x i - v i * t) = X := ⟨_, rfl⟩
  rw [hp, hX] at h2
  rw [hp] at h1
  -- the thrust of the outer calls
  obtain ⟨q, hq, hqX⟩ : ∃ q : K, |q| ≤ 1 ∧ X = 2 * t * p + q * (t ^ 2 - p ^ 2) := by
    by_cases hz : t ^ 2 - p ^ 2 = 0
    · refine ⟨0, by simp, ?_⟩
      rw [hz] at h2
      have := abs_nonpos_iff.1 h2
      rw [zero_mul, add_zero]
      exact sub_eq_zero.1 this
    · have hpos' : 0 < t ^ 2 - p ^ 2 := lt_of_le_of_ne ((abs_nonneg _).trans h2) (Ne.symm hz)
      refine ⟨(X - 2 * t * p) / (t ^ 2 - p ^ 2), ?_, ?_⟩
      · rw [abs_div, abs_of_pos hpos', div_le_one hpos']; exact h2
      · field_simp; ring
  -- that of the middle one
  obtain ⟨s, hs1, hs2, hs3⟩ : ∃ s : K, |s| ≤ 1 ∧ s * |p| = p ∧ s * p = |p| := by
    rcases le_total 0 p with h | h
    · exact ⟨1, by simp, by rw [abs_of_nonneg h, one_mul], by rw [abs_of_nonneg h, one_mul]⟩
    · exact ⟨-1, by simp, by rw [abs_of_nonpos h]; ring, by rw [abs_of_nonpos h]; ring⟩
  have hd : 0 ≤ (t - |p|) / 2 := by linarith
  refine ⟨(t - |p|) / 2, |p|, (t - |p|) / 2, q, s, -q, hd, abs_nonneg _, hd, by ring, hq, hs1, by rwa [abs_neg], fun ws1 ws2 ws3 => ?_⟩
  obtain ⟨xa, va, a1, a2, a3⟩ := alone_call hpi r hmeth ws1 ((t - |p|) / 2) i hq hs
  have c1 := step_sameConfig (scheduled ws1) e (.fin ((t - |p|) / 2)) (.ndarray .f64 (toFl (alone i q)))
  obtain ⟨xb, vb, b1, b2, b3⟩ := alone_call hpi (r.congr c1) ((sameConfig_method c1).1.trans hmeth) ws2 |p| i hs1 a1
  have c2 := SAD.SameConfig.trans c1 (step_sameConfig (scheduled ws2) _ (.fin |p|) (.ndarray .f64 (toFl (alone i s))))
  obtain ⟨xc, vc, d1, d2, d3⟩ := alone_call hpi (r.congr c2) ((sameConfig_method c2).1.trans hmeth) ws3 ((t - |p|) / 2) i (w := -q) (by rwa [abs_neg]) b1
  have hpv : v1 = v i + p / m := by rw [← hp]; field_simp; ring
  have hxv : x1 = x i + v i * t + X / (4 * m) := by rw [← hX]; field_simp; ring
  have hsq : |p| ^ 2 = p ^ 2 := sq_abs p
  refine ⟨xc, vc, d1, ?_, ?_⟩
  · rw [d2, b2, b3, a2, a3, hxv, hqX]
    field_simp
    generalize |p| = P at *
    linear_combination 16 * t * hs2 - 8 * q * hsq
  · rw [d3, b3, a3, hpv]
    have e1 : s / m * |p| = p / m := by rw [div_mul_eq_mul_div, hs2]
    rw [e1]
    ring

theorem attainable_rest {m t x x' : K} (hpos : 0 < m) : Attainable m t x 0 x' 0 ↔ 0 ≤ t ∧ 4 * m * |x' - x| ≤ t ^ 2 := by
  unfold Attainable
  have : |4 * m * (x' - x - 0 * t) - 2 * t * (m * (0 - 0))| = 4 * m * |x' - x| := by
    rw [show 4 * m * (x' - x - 0 * t) - 2 * t * (m * (0 - 0)) = 4 * m * (x' - x) by ring, abs_mul, abs_of_pos (by positivity)]
  rw [this]
  simp

/-- C131: in particular an integrator that is seen at rest on an axis, and at rest again a distance `D` away, has taken at least the time
`2 sqrt (m D)`, in whatever way it was controlled. -/
theorem C131_rest_to_rest (hpi : 0 < R.pi) (env : Env R) (henv : IsRk dopri env) (k : Nat) (args : IntegratorArgs R) (m : K)
    (hm : args.m = .fin m) (hpos : 0 < m) (hc : args.damping = 0) (hrk : args.integrationMethod = "RK45") (e0 : Entity R)
    (h0 : initIntegrator env args k = .ok e0) (ops : List (Op R)) (e : Entity R) (he : e = e0.run env ops) (x v : Fin k → K)
    (hs : e.state = toFl (Fin.append x v)) (hist : List (K × Action R)) (hT : ∀ h ∈ hist, 0 ≤ h.1)
    (ha : ∀ h ∈ hist, ∃ u : Fin k → K, Asks env e h.2 u) :
    ∃ x' v' : Fin k → K, (e.run env (stepsOf hist)).state = toFl (Fin.append x' v') ∧
      ∀ i, v i = 0 → v' i = 0 → 4 * m * |x' i - x i| ≤ elapsed env e hist ^ 2 := by
  obtain ⟨x', v', g1, g2⟩ := C131_within hpi env henv k args m hm hpos hc hrk e0 h0 ops e he x v hs hist hT ha
  refine ⟨x', v', g1, fun i hv hv' => ?_⟩
  have := g2 i
  rw [hv, hv'] at this
  exact ((attainable_rest hpos).1 this).2

end

/-- a vehicle of 2 kg at rest can be at rest 2 m away after 4 seconds, not sooner; here it is, after two seconds of thrust each way -/
example : Attainable (2 : ℚ) 4 0 0 2 0 ∧ ¬ Attainable (2 : ℚ) (39 / 10) 0 0 2 0 := by
  constructor
  · rw [attainable_rest (by norm_num)]; norm_num
  · rw [attainable_rest (by norm_num)]; norm_num

example : ∃ e0 : Entity ratFmt, initIntegrator (rkEnv dopri (fun _ _ _ => [3])) { m := 2, damping := 0, kwargs := [("name", .str "a")] } 1 = .ok e0 ∧
    e0.state = toFl (Fin.append ![0] ![0]) ∧
    Asks (rkEnv dopri (fun _ _ _ => [3])) e0 (.ndarray .f64 [.fin 1]) ![1] ∧ Asks (rkEnv dopri (fun _ _ _ => [3])) e0 (.ndarray .f64 [.fin (-5)]) ![-5] ∧
    elapsed (rkEnv dopri (fun _ _ _ => [3])) e0 [(2, .ndarray .f64 [.fin 1]), (2, .ndarray .f64 [.fin (-5)])] = 4 ∧
    (e0.run (rkEnv dopri (fun _ _ _ => [3])) (stepsOf [(2, .ndarray .f64 [.fin 1]), (2, .ndarray .f64 [.fin (-5)])])).state = toFl (Fin.append ![2] ![0]) :=
  ⟨_, rfl, by decide +kernel, ⟨.f64, .array _ _⟩, ⟨.f64, .array _ _⟩, by decide +kernel, by decide +kernel⟩

end SAD
