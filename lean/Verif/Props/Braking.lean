import Verif.Props.Reach
import Verif.Lemmas.Timed
import Mathlib.Tactic.LinearCombination

/-!
# C128: the braking distance of the point-mass integrators
-/

set_option linter.unusedSectionVars false

namespace SAD
open Spec

section
variable {K : Type} {R : Fmt K} [Field K] [LinearOrder K] [IsStrictOrderedRing K] [FloorRing K] [Exact R] {n m : Nat}

/-- At the start and after every call of the history the velocity on axis `i`, counted in the direction `σ` (`1` or `-1`), is not negative: the
vehicle has not been seen to turn round. -/
def Spec.KeepsDirection (env : Env R) (e : Entity R) (k : Nat) (i : Fin k) (σ : K) (hist : List (K × Action R)) : Prop :=
  ∀ before after, hist = before ++ after → ∀ x v : Fin k → K, (e.run env (stepsOf before)).state = toFl (Fin.append x v) → 0 ≤ σ * v i

/-- the distance still needed to stop never falls faster than the distance is covered: one call -/
theorem braking_call {m x v w T σ c : K} (hpos : 0 < m) (hσ : σ ^ 2 = 1) (hw : |w| ≤ 1) (hT : 0 ≤ T) (hv : 0 ≤ σ * v)
    (hv' : 0 ≤ σ * (v + w / m * T)) (hc : c = 0 ∨ c = w / m * T ^ 2 / 2) :
    σ * x + m * v ^ 2 / 2 ≤ σ * (x + v * T + c) + m * (v + w / m * T) ^ 2 / 2 := by
  have hσw : 0 ≤ 1 + σ * w := by
    obtain ⟨w1, w2⟩ := abs_le.1 hw
    rcases sq_eq_one_iff.1 hσ with rfl | rfl <;> linarith
  have hm0 := hpos.ne'
  rcases hc with rfl | rfl
  · have e : σ * (x + v * T + 0) + m * (v + w / m * T) ^ 2 / 2
        = σ * x + m * v ^ 2 / 2 + ((1 + σ * w) * (σ * v) * T + (w * T) ^ 2 / (2 * m)) := by
      field_simp
      linear_combination (-2 * m * v * w * T) * hσ
    rw [e]
    have h1 : 0 ≤ (1 + σ * w) * (σ * v) * T := by positivity
    have h2 : 0 ≤ (w * T) ^ 2 / (2 * m) := by positivity
    linarith
  · have e : σ * (x + v * T + w / m * T ^ 2 / 2) + m * (v + w / m * T) ^ 2 / 2
        = σ * x + m * v ^ 2 / 2 + (1 + σ * w) * (σ * v + σ * (v + w / m * T)) * T / 2 := by
      field_simp
      linear_combination (-2 * m * v * w * T - w ^ 2 * T ^ 2) * hσ
    rw [e]
    have h1 : 0 ≤ (1 + σ * w) * (σ * v + σ * (v + w / m * T)) * T / 2 := by
      have := add_nonneg hv hv'
      positivity
    linarith

theorem braking_run {env : Env R} (henv : IsRk dopri env) (hpi : 0 < R.pi) {k : Nat} {m σ : K} (hpos : 0 < m) (hσ : σ ^ 2 = 1) (i : Fin k)
    (hist : List (K × Action R)) : ∀ {e : Entity R}, Realises e (pointModel k m 0) → PlainMethod e.dynamics →
      (∀ h ∈ hist, 0 ≤ h.1) → (∀ h ∈ hist, ∃ u : Fin k → K, Asks env e h.2 u) → KeepsDirection env e k i σ hist →
      ∀ {y : Fin (k + k) → K}, e.state = toFl y →
      ∃ y' : Fin (k + k) → K, (e.run env (stepsOf hist)).state = toFl y' ∧
        σ * y (Fin.castAdd k i) + m * y (Fin.natAdd k i) ^ 2 / 2 ≤ σ * y' (Fin.castAdd k i) + m * y' (Fin.natAdd k i) ^ 2 / 2 := by
  induction hist with
  | nil => intro e _ _ _ _ _ y hy; exact ⟨y, hy, le_rfl⟩
  | cons h hist ih =>
    intro e hr hp hT ha hk y hy
    obtain ⟨T, a⟩ := h
    have hcf : SameConfig e (e.step env (.fin T) a).entity := step_sameConfig env e _ _
    have split : ∀ y : Fin (k + k) → K, y = Fin.append (fun i => y (Fin.castAdd k i)) (fun i => y (Fin.natAdd k i)) := by
      intro y
      funext j
      refine Fin.addCases (fun i => ?_) (fun i => ?_) j <;> simp [-Fin.natAdd_eq_addNat]
    have hrun : e.run env (stepsOf ((T, a) :: hist)) = (e.step env (.fin T) a).entity.run env (stepsOf hist) := rfl
    have hk' : KeepsDirection env (e.step env (.fin T) a).entity k i σ hist := by
      intro b c hbc x v hs
      exact hk ((T, a) :: b) c (by rw [hbc]; rfl) x v hs
    have ha' : ∀ h ∈ hist, ∃ u : Fin k → K, Asks env (e.step env (.fin T) a).entity h.2 u := by
      intro g hg
      obtain ⟨u, hu⟩ := ha g (by simp [hg])
      exact ⟨u, requests_congr hcf hu⟩
    have hT' : ∀ h ∈ hist, 0 ≤ h.1 := fun g hg => hT g (by simp [hg])
    rw [hrun]
    cases ho : (e.step env (.fin T) a).outcome with
    | error x => exact ih (hr.congr hcf) (plain_congr hcf hp) hT' ha' hk' (by rw [(step_error ho).1, hy])
    | ok _ =>
      obtain ⟨u, hu⟩ := ha (T, a) (by simp)
      obtain ⟨tab, hs', h1, h2, -⟩ := hr.step henv hpi hp hu (S := fun _ => True) (fun _ _ => trivial) (Stable.univ _) hy trivial ho
      rw [pointModel_post] at h2
      obtain ⟨c1, c2⟩ := pointModel_call k m ((pointModel k m 0).sat u) h1 y i
      obtain ⟨y', g1, g2⟩ := ih (hr.congr hcf) (plain_congr hcf hp) hT' ha' hk' h2
      refine ⟨y', g1, le_trans ?_ g2⟩
      have hv := hk [] ((T, a) :: hist) rfl _ _ (by rw [← split y]; exact hy)
      have hv' := hk' [] hist rfl _ _ (by rw [← split]; exact h2)
      rw [c1] at hv'
      rw [c1, c2]
      simp only [pointModel_sat] at hv' ⊢
      refine braking_call hpos hσ (sat_abs (u i)) (hT (T, a) (by simp)) hv hv' ?_
      split
      · exact .inl rfl
      · exact .inr rfl

/-- C128: no sequence of actions stops an undamped integrator in less than its braking distance. As long as the vehicle is not seen to turn round on
an axis, its position there, counted in the direction of motion, plus half the mass times the squared speed never falls: by either method, for any
solver steps, any requests and any durations, failed calls included. -/
theorem C128_braking (hpi : 0 < R.pi) (env : Env R) (henv : IsRk dopri env) (k : Nat) (args : IntegratorArgs R) (m : K)
    (hm : args.m = .fin m) (hpos : 0 < m) (hc : args.damping = 0) (e0 : Entity R)
    (h0 : initIntegrator env args k = .ok e0) (hp : PlainMethod e0.dynamics) (ops : List (Op R)) (e : Entity R) (he : e = e0.run env ops)
    (x v : Fin k → K) (hs : e.state = toFl (Fin.append x v)) (hist : List (K × Action R)) (hT : ∀ h ∈ hist, 0 ≤ h.1)
    (ha : ∀ h ∈ hist, ∃ u : Fin k → K, Asks env e h.2 u) (i : Fin k) (σ : K) (hσ : σ = 1 ∨ σ = -1)
    (hk : KeepsDirection env e k i σ hist) :
    ∃ x' v' : Fin k → K, (e.run env (stepsOf hist)).state = toFl (Fin.append x' v') ∧
      σ * x i + m * v i ^ 2 / 2 ≤ σ * x' i + m * v' i ^ 2 / 2 ∧
      (v' i = 0 → m * v i ^ 2 / 2 ≤ σ * (x' i - x i)) ∧
      (∀ wall, wall < σ * x i + m * v i ^ 2 / 2 → σ * x' i ≤ wall → 0 < σ * v' i) := by
  obtain ⟨r, -, -⟩ := integratorEntity_realised hm (hc.trans Fl.zero_fin) h0
  have hcf := run_sameConfig env ops e0
  rw [← he] at hcf
  obtain ⟨y', g1, g2⟩ := braking_run henv hpi hpos (σ := σ) (by rcases hσ with rfl | rfl <;> ring) i hist (r.congr hcf) (plain_congr hcf hp) hT ha hk hs
  simp only [Fin.append_left, Fin.append_right] at g2
  have sp : y' = Fin.append (fun i => y' (Fin.castAdd k i)) (fun i => y' (Fin.natAdd k i)) := by
    funext j
    refine Fin.addCases (fun i => ?_) (fun i => ?_) j <;> simp [-Fin.natAdd_eq_addNat]
  have g1' := g1
  rw [sp] at g1'
  refine ⟨_, _, g1', g2, fun h => ?_, fun wall hw hx => ?_⟩
  · rw [h] at g2
    linarith
  · have hv := hk hist [] (by simp) _ _ g1'
    refine lt_of_le_of_ne hv (fun h => ?_)
    have hz : y' (Fin.natAdd k i) = 0 := by
      rcases hσ with rfl | rfl
      · simpa using h.symm
      · simpa using h.symm
    rw [hz] at g2
    linarith

/-- C128: the braking distance is attained: one RK45 call of `m |v|` seconds under full opposite thrust brings the vehicle to rest on the axis after
exactly half the mass times the squared speed, whatever the solver steps; the same call by Euler takes twice that distance. -/
theorem C128_attained (hpi : 0 < R.pi) (env : Env R) (henv : IsRk dopri env) (k : Nat) (args : IntegratorArgs R) (m : K)
    (hm : args.m = .fin m) (hpos : 0 < m) (hc : args.damping = 0) (e0 : Entity R)
    (h0 : initIntegrator env args k = .ok e0) (hp : PlainMethod e0.dynamics) (ops : List (Op R)) (e : Entity R) (he : e = e0.run env ops)
    (x v u : Fin k → K) (hs : e.state = toFl (Fin.append x v)) (i : Fin k) (σ : K) (hσ : σ = 1 ∨ σ = -1) (a : Action R)
    (ha : Asks env e a u) (hu : σ * u i ≤ -1) (hok : (e.step env (.fin (m * (σ * v i))) a).outcome = .ok ()) :
    ∃ x' v' : Fin k → K, (e.step env (.fin (m * (σ * v i))) a).entity.state = toFl (Fin.append x' v') ∧ v' i = 0 ∧
      σ * (x' i - x i) = (if args.integrationMethod = "Euler" then 2 else 1) * (m * v i ^ 2 / 2) := by
  obtain ⟨r, r2, -⟩ := integratorEntity_realised hm (hc.trans Fl.zero_fin) h0
  have hcf := run_sameConfig env ops e0
  rw [← he] at hcf
  obtain ⟨tab, hs', h1, h2, -⟩ := (r.congr hcf).step henv hpi (plain_congr hcf hp) ha (S := fun _ => True) (fun _ _ => trivial)
    (Stable.univ _) hs trivial hok
  rw [pointModel_post] at h2
  obtain ⟨c1, c2⟩ := pointModel_call k m ((pointModel k m 0).sat u) h1 (Fin.append x v) i
  have hm0 := hpos.ne'
  have hw : min (max (u i) (-1)) 1 = -σ := by
    have := zero_lt_one (α := K)
    rcases hσ with rfl | rfl
    · rw [max_eq_right (by linarith), min_eq_left (by linarith)]
    · rw [max_eq_left (by linarith), min_eq_right (by linarith), neg_neg]
  have hσ2 : σ ^ 2 = 1 := by rcases hσ with rfl | rfl <;> ring
  generalize rkChain tab ((pointModel k m 0).field ((pointModel k m 0).sat u)) 0 (Fin.append x v) hs' = y' at h2 c1 c2
  rw [(sameConfig_method hcf).1, r2] at c2
  simp only [pointModel_sat, hw, Fin.append_left, Fin.append_right] at c1 c2
  have sp : y' = Fin.append (fun i => y' (Fin.castAdd k i)) (fun i => y' (Fin.natAdd k i)) := by
    funext j
    refine Fin.addCases (fun i => ?_) (fun i => ?_) j <;> simp [-Fin.natAdd_eq_addNat]
  rw [sp] at h2
  refine ⟨_, _, h2, ?_, ?_⟩
  · rw [c1]
    field_simp
    linear_combination (-v i) * hσ2
  · rw [c2]
    split
    · linear_combination (m * v i ^ 2) * hσ2
    · field_simp
      linear_combination (m * v i ^ 2 * (2 - (σ ^ 2 + 1))) * hσ2

/-- C128: so a wall is avoided by braking in time: under full opposite thrust (or larger requests) at every call, an undamped integrator with RK45 is
never seen more than the braking distance ahead, for calls of any durations and any solver steps. -/
theorem C128_safe (hpi : 0 < R.pi) (env : Env R) (henv : IsRk dopri env) (k : Nat) (args : IntegratorArgs R) (m : K)
    (hm : args.m = .fin m) (hpos : 0 < m) (hc : args.damping = 0) (hrk : args.integrationMethod = "RK45") (e0 : Entity R)
    (h0 : initIntegrator env args k = .ok e0) (ops : List (Op R)) (e : Entity R) (he : e = e0.run env ops)
    (x v : Fin k → K) (hs : e.state = toFl (Fin.append x v)) (i : Fin k) (σ : K) (hσ : σ = 1 ∨ σ = -1) (hist : List (K × Action R))
    (ha : ∀ h ∈ hist, ∃ u : Fin k → K, Asks env e h.2 u ∧ σ * u i ≤ -1) :
    ∃ x' v' : Fin k → K, (e.run env (stepsOf hist)).state = toFl (Fin.append x' v') ∧ σ * (x' i - x i) ≤ m * v i ^ 2 / 2 := by
  obtain ⟨r, r2, -⟩ := integratorEntity_realised hm (hc.trans Fl.zero_fin) h0
  have hcf := run_sameConfig env ops e0
  rw [← he] at hcf
  have hmeth : e.dynamics.integrationMethod = "RK45" := by rw [(sameConfig_method hcf).1, r2, hrk]
  have hE : e.dynamics.integrationMethod ≠ "Euler" := by rw [hmeth]; decide
  have hm0 := hpos.ne'
  have hσ2 : σ ^ 2 = 1 := by rcases hσ with rfl | rfl <;> ring
  obtain ⟨y', g1, g2, g3⟩ := Realises.run_timed henv hpi (M := pointModel k m 0) (d := e.dynamics)
    (fun τ y => y (Fin.natAdd k i) = v i - σ / m * τ ∧ y (Fin.castAdd k i) = x i + v i * τ - σ / m * τ ^ 2 / 2)
    (fun _ u => σ * u i ≤ -1) (S := fun _ => True) (D := ⊤) (fun _ _ => trivial) (fun _ _ _ => Stable.univ _) (fun _ _ _ => trivial)
    (by
      rintro τ T u hu tab hs y hr ⟨h1, h2⟩
      rw [pointModel_post]
      obtain ⟨c1, c2⟩ := pointModel_call k m ((pointModel k m 0).sat u) hr y i
      have hw : min (max (u i) (-1)) 1 = -σ := by
        have := zero_lt_one (α := K)
        rcases hσ with rfl | rfl
        · rw [max_eq_right (by linarith), min_eq_left (by linarith)]
        · rw [max_eq_left (by linarith), min_eq_right (by linarith), neg_neg]
      rw [c1, c2, if_neg hE]
      simp only [pointModel_sat, hw, h1, h2]
      constructor <;> ring)
    hist (r.congr hcf) (.inl hmeth) rfl ha (τ := 0) hs
    (by simp [-Fin.natAdd_eq_addNat])
  have sp : y' = Fin.append (fun i => y' (Fin.castAdd k i)) (fun i => y' (Fin.natAdd k i)) := by
    funext j
    refine Fin.addCases (fun i => ?_) (fun i => ?_) j <;> simp [-Fin.natAdd_eq_addNat]
  rw [sp] at g1
  refine ⟨_, _, g1, ?_⟩
  rw [zero_add] at g3
  rw [g3]
  generalize elapsed env e hist = τ
  have e1 : m * v i ^ 2 / 2 - σ * (x i + v i * τ - σ / m * τ ^ 2 / 2 - x i) = (m * v i - σ * τ) ^ 2 / (2 * m) := by
    field_simp
    ring
  have : 0 ≤ (m * v i - σ * τ) ^ 2 / (2 * m) := by positivity
  linarith

end

/-- a vehicle of 2 kg moving at 1 m/s: two seconds of full opposite thrust stop it after 1 m by RK45, and after 2 m by Euler; every hypothesis
holds -/
example : ∃ e0 : Entity ratFmt, initIntegrator (rkEnv dopri (fun _ _ _ => [3])) { m := 2, damping := 0, kwargs := [("name", .str "a"), ("xdot", .num 1)] } 1 = .ok e0 ∧
    PlainMethod e0.dynamics ∧ e0.state = toFl (Fin.append ![0] ![1]) ∧
    Asks (rkEnv dopri (fun _ _ _ => [3])) e0 (.ndarray .f64 [.fin (-1)]) ![-1] ∧
    (e0.step (rkEnv dopri (fun _ _ _ => [3])) (.fin 2) (.ndarray .f64 [.fin (-1)])).outcome = .ok () ∧
    (e0.step (rkEnv dopri (fun _ _ _ => [3])) (.fin 2) (.ndarray .f64 [.fin (-1)])).entity.state = toFl (Fin.append ![1] ![0]) ∧
    KeepsDirection (rkEnv dopri (fun _ _ _ => [3])) e0 1 0 1 [(2, .ndarray .f64 [.fin (-1)])] := by
  refine ⟨_, rfl, .inl rfl, by decide +kernel, ⟨.f64, .array _ _⟩, by decide +kernel, by decide +kernel, ?_⟩
  intro b c hbc x v hs
  rcases b with _ | ⟨h, _ | ⟨_, _⟩⟩
  · have h1 : toFl (R := ratFmt) (Fin.append ![0] ![1]) = toFl (Fin.append x v) := by rw [← hs]; decide +kernel
    have h2 := congrFun (toFl_inj h1) 1
    have h3 : (1 : ℚ) = v 0 := h2
    rw [← h3]; simp
  · simp only [List.cons_append, List.nil_append, List.cons.injEq] at hbc
    obtain ⟨rfl, -⟩ := hbc
    have h1 : toFl (R := ratFmt) (Fin.append ![1] ![0]) = toFl (Fin.append x v) := by rw [← hs]; decide +kernel
    have h2 := congrFun (toFl_inj h1) 1
    have h3 : (0 : ℚ) = v 0 := h2
    rw [← h3]; simp
  · simp at hbc

example : ∃ e0 : Entity ratFmt, initIntegrator (rkEnv dopri (fun _ _ _ => [3])) { m := 2, damping := 0, integrationMethod := "Euler", kwargs := [("name", .str "a"), ("xdot", .num 1)] } 1 = .ok e0 ∧
    (e0.step (rkEnv dopri (fun _ _ _ => [3])) (.fin 2) (.ndarray .f64 [.fin (-1)])).entity.state = toFl (Fin.append ![2] ![0]) :=
  ⟨_, rfl, by decide +kernel⟩

end SAD
