import Verif.Lemmas.CwhRkError
import Verif.Props.Precision
import Mathlib.Analysis.Complex.ExponentialBounds

/-!
# C86: a whole RK45 simulation in double precision against the exact solution
-/

set_option linter.unusedSectionVars false

namespace SAD
open Spec

theorem rk45Step_unlimited {K : Type} {R : Fmt K} [Field K] [LinearOrder K] [FloorRing K] [IsStrictOrderedRing K] {d : Dyn R} (hu : Unlimited d)
    (hm : d.integrationMethod = "RK45") {n : ℕ} {u : Vec R} {y v y' : Fin n → K} {T : Fl R} {env : Env R} {sol : Sol R}
    (h : env.solveIvp (fun t y => d.computeStateDot t y u) T (toFl y) (d.tEval T) = .ok sol) (hl : sol.y.getLast? = some (toFl y'))
    (h' : d.computeStateDot T (toFl y') u = .ok (toFl v)) :
    d.step env T (toFl y) u = ({ d with trajectory := some sol.y, trajectoryT := some sol.t }, .ok (toFl y', toFl v)) := by
  have hclip : npClip (toFl y' : Vec R) d.stateMin d.stateMax = .ok (toFl y') := by
    have := npClip_toFl (R := R) y' (lo := d.stateMin) (hi := d.stateMax) (l := fun _ => none) (h := fun _ => none)
      (.inr ⟨_, hu.stateMin, fun i => rfl⟩) (.inr ⟨_, hu.stateMax, fun i => rfl⟩)
    simpa [kclip] using this
  simp only [Dyn.step, Dyn.rawStep, hu.custom, Dyn.odeStep, hm]
  simp only [if_true, h, lastRow, hl, h', bind, Except.bind, pure, Except.pure, hclip, Dyn.wrapAngles, hu.wrap]

/-- everything fixed during a simulation -/
structure CwSim (libm : Fmt ℚ) (d : Dyn (b64Of libm)) (m n ω a μ η : ℚ) (F : Fin 3 → ℚ) (Φ Tmax : ℝ) (f : ℝ → Fin 6 → ℝ) : Prop where
  dyn : ∃ env args, mkCwhDynamics env (.fin m) (.fin n) args = .ok d
  unl : Unlimited d
  m1 : |m⁻¹| ≤ 2 ^ 200
  n1 : |n| ≤ 2 ^ 200
  omega : 2⁻¹ ^ 100 ≤ ω
  a1 : ω ≤ a
  a2 : 3 * n ^ 2 + 2 * |n| * ω ≤ a * ω
  a3 : a ≤ 2 ^ 50
  F1 : ∀ i, |F i| ≤ 1
  mu : ∀ i, |F i / m| ≤ ω * μ
  mu0 : 0 ≤ μ
  mu1 : μ ≤ 2 ^ 50
  eta0 : 0 ≤ η
  eta : η ≤ 2 ^ 50
  aeta : 2 * a * η ≤ 1
  Phi0 : 0 ≤ Φ
  sol : ∀ t, HasDerivAt f (cw (m : ℝ) n (f t) (fun i => (F i : ℝ))) t
  Phi : ∀ t, 0 ≤ t → t ≤ Tmax → ∀ i, |f t i| ≤ posVel (ω : ℝ) i * Φ

/-- error per unit of time -/
noncomputable def rateP (a μ η : ℚ) (Φ : ℝ) : ℝ := 2⁻¹ ^ 46 * (74 * (a * Φ + μ)) + 2 * (a : ℝ) ^ 5 * (a * Φ + μ) * (η : ℝ) ^ 5

/-- error per step -/
noncomputable def rateQ (Φ : ℝ) : ℝ := 2⁻¹ ^ 46 * (Φ + 2⁻¹ ^ 500)

/-- error bound after the time `T` and `N` steps, from the error `E` -/
noncomputable def simB (a μ η : ℚ) (Φ T N E : ℝ) : ℝ := grow (2 * a) (2⁻¹ ^ 40) (rateP a μ η Φ) (rateQ Φ) T N E

theorem posVel_cast (ω : ℚ) (i : Fin 6) : ((posVel ω i : ℚ) : ℝ) = posVel (ω : ℝ) i := by fin_cases i <;> simp [posVel]

theorem times_le {η t T : ℚ} {ts : List ℚ} (h : Times η t ts T) : t ≤ T := by
  induction ts generalizing t with
  | nil => exact le_of_eq h
  | cons t' ts ih => exact h.1.trans (ih h.2.2)

section
variable {libm : Fmt ℚ} {d : Dyn (b64Of libm)} {m n ω a μ η : ℚ} {F : Fin 3 → ℚ} {Φ Tmax : ℝ} {f : ℝ → Fin 6 → ℝ}

theorem CwSim.consts (S : CwSim libm d m n ω a μ η F Φ Tmax f) :
    (0 : ℝ) < ω ∧ (0 : ℝ) ≤ a ∧ (0 : ℝ) ≤ μ ∧ (0 : ℝ) ≤ η ∧ 0 ≤ rateP a μ η Φ ∧ 0 ≤ rateQ Φ ∧ (0 : ℝ) ≤ 2⁻¹ ^ 40 := by
  have h1 : 0 < ω := lt_of_lt_of_le (pow_pos (by norm_num) _) S.omega
  have h1' : (0 : ℝ) < ω := by exact_mod_cast h1
  have h2 : (0 : ℝ) ≤ a := by exact_mod_cast h1.le.trans S.a1
  have h3 : (0 : ℝ) ≤ μ := by exact_mod_cast S.mu0
  have h4 : (0 : ℝ) ≤ η := by exact_mod_cast S.eta0
  have h5 := S.Phi0
  have hκ : (0 : ℝ) ≤ 2⁻¹ ^ 500 := pow_nonneg (by norm_num) _
  refine ⟨h1', h2, h3, h4, by unfold rateP; positivity, ?_, by positivity⟩
  unfold rateQ
  exact mul_nonneg (by positivity) (by linarith)

theorem cast_a2 (S : CwSim libm d m n ω a μ η F Φ Tmax f) : (ω : ℝ) ≤ a ∧ 3 * (n : ℝ) ^ 2 + 2 * |(n : ℝ)| * ω ≤ a * ω ∧ ∀ i, |(F i : ℝ) / m| ≤ ω * μ := by
  refine ⟨by exact_mod_cast S.a1, by exact_mod_cast S.a2, fun i => by exact_mod_cast S.mu i⟩

/-- the size of a state close to the solution -/
theorem CwSim.size (S : CwSim libm d m n ω a μ η F Φ Tmax f) {y : Fin 6 → ℚ} {t E : ℝ} (ht0 : 0 ≤ t) (ht1 : t ≤ Tmax)
    (hy : ∀ i, |(y i : ℝ) - f t i| ≤ posVel (ω : ℝ) i * E) (hbig : (1 + (ω : ℝ)) * (Φ + E) ≤ 2 ^ 100) (hE : 0 ≤ E) :
    ∃ X : ℚ, 0 ≤ X ∧ X ≤ 2 ^ 100 ∧ (X : ℝ) ≤ Φ + E ∧ (∀ i, |y i| ≤ posVel ω i * X) ∧ ∀ i, |y i| ≤ 2 ^ 100 := by
  obtain ⟨hω, -⟩ := S.consts
  have hω' : 0 < ω := by exact_mod_cast hω
  have hΦ0 := S.Phi0
  have hyR : ∀ i, |(y i : ℝ)| ≤ posVel (ω : ℝ) i * (Φ + E) := fun i => by
    have h1 := S.Phi t ht0 ht1 i
    have h2 := hy i
    have := abs_add_le ((y i : ℝ) - f t i) (f t i)
    rw [sub_add_cancel] at this
    linarith
  have h100 : Φ + E ≤ 2 ^ 100 := le_trans (le_mul_of_one_le_left (by positivity) (by linarith)) hbig
  obtain ⟨j, -, hj⟩ := Finset.exists_mem_eq_sup' (Finset.univ_nonempty (α := Fin 6)) (fun i => |y i| / posVel ω i)
  set X := Finset.univ.sup' (Finset.univ_nonempty (α := Fin 6)) (fun i => |y i| / posVel ω i) with hX
  have hXle : (X : ℝ) ≤ Φ + E := by
    rw [hj]
    push_cast
    rw [posVel_cast, div_le_iff₀ (posVel_pos hω j), mul_comm]
    exact_mod_cast hyR j
  refine ⟨X, ?_, ?_, hXle, fun i => ?_, fun i => ?_⟩
  · rw [hj]; exact div_nonneg (abs_nonneg _) (posVel_pos hω' j).le
  · have := hXle.trans h100
    exact_mod_cast this
  · rw [mul_comm, ← div_le_iff₀ (posVel_pos hω' i)]
    exact Finset.le_sup' (fun i => |y i| / posVel ω i) (Finset.mem_univ i)
  · have h1 := ((hyR i).trans (mul_le_mul_of_nonneg_right (posVel_le hω i) (by positivity))).trans hbig
    exact_mod_cast h1

/-- one accepted step -/
theorem CwSim.step (S : CwSim libm d m n ω a μ η F Φ Tmax f) {y : Fin 6 → ℚ} {t0 E : ℝ} {t t' h : ℚ} (hE0 : 0 ≤ E)
    (hy : ∀ i, |(y i : ℝ) - f (t0 + t) i| ≤ posVel (ω : ℝ) i * E) (ht0 : 0 ≤ t0 + t) (ht1 : t0 + t' ≤ Tmax) (hh : h = t' - t) (hh0 : 0 ≤ h) (hhη : h ≤ η)
    (hbig : (1 + (ω : ℝ)) * (Φ + E) ≤ 2 ^ 100) :
    ∃ y' : Fin 6 → ℚ, rkStepFl dopri (fun t y => d.computeStateDot t y (toFl F)) (.fin t) (.fin t' - .fin t) (toFl y) = .ok (toFl y') ∧
      ∀ i, |(y' i : ℝ) - f (t0 + t') i| ≤ posVel (ω : ℝ) i * simB a μ η Φ h 1 E := by
  obtain ⟨hω, ha0, hμ0, hη0, hp, hq, hc⟩ := S.consts
  obtain ⟨ha1, ha2, hμ⟩ := cast_a2 S
  have hΦ0 := S.Phi0
  have hhR : (0 : ℝ) ≤ h := by exact_mod_cast hh0
  have hhηR : (h : ℝ) ≤ η := by exact_mod_cast hhη
  have htt : t0 + (t' : ℝ) = t0 + t + h := by rw [hh]; push_cast; ring
  obtain ⟨X, hX0, hX1, hX2, hX3, -⟩ := S.size ht0 (by linarith) hy hbig hE0
  obtain ⟨env, args, hd⟩ := S.dyn
  obtain ⟨y', h1, h2⟩ := b64_cw_rkStep hd S.unl S.m1 S.n1 S.omega S.a1 S.a2 S.a3 S.F1 S.mu S.mu0 S.mu1 S.eta S.aeta hX0 hX1 hX3 hh hh0 hhη
  refine ⟨y', h1, fun i => ?_⟩
  have hpw := (posVel_pos hω i).le
  have e := cw_rk_error (m := (m : ℝ)) hω ha1 ha2 S.sol (t := t0 + t) (h := h) (δ := a * Φ + μ) hhR (by positivity)
    (fun s hs0 hs1 i => (cw_le_sizes _ _ _ _ i).trans (cwSizes_weighted hω ha1 ha2 hΦ0 hμ0 (S.Phi _ (by linarith) (by linarith)) hμ i)) hE0
    (y := castV y) hy i
  have ec : ((rkStep kdopri (fun _ y => cw m n y F) 0 h y i : ℚ) : ℝ) = rkStep (kdopri : KTab ℝ) (fun _ y => cw (m : ℝ) n y (fun i => (F i : ℝ))) 0 (h : ℝ) (castV y) i := by
    have := congrFun (rkStep_cast kdopri (F := fun _ y => cw m n y F) (G := fun _ y => cw (m : ℝ) n y (fun i => (F i : ℝ)))
      (fun t y => funext fun i => cw_cast m n y F i) 0 h y) i
    rw [kdopri_cast, Rat.cast_zero] at this
    exact this
  have r1 : |(y' i : ℝ) - rkStep (kdopri : KTab ℝ) (fun _ y => cw (m : ℝ) n y (fun i => (F i : ℝ))) 0 (h : ℝ) (castV y) i|
      ≤ posVel (ω : ℝ) i * (2⁻¹ ^ 46 * (X + 74 * h * (a * X + μ) + 2⁻¹ ^ 500)) := by
    have h3 : ((|y' i - rkStep kdopri (fun _ y => cw m n y F) 0 h y i| : ℚ) : ℝ)
        ≤ ((posVel ω i * (2⁻¹ ^ 46 * (X + 74 * h * (a * X + μ) + 2⁻¹ ^ 500)) : ℚ) : ℝ) := Rat.cast_le.2 (h2 i)
    rw [Rat.cast_abs, Rat.cast_sub, ec] at h3
    push_cast at h3
    rw [posVel_cast] at h3
    exact h3
  rw [htt]
  obtain ⟨κ, hκ⟩ : ∃ κ : ℝ, κ = 2⁻¹ ^ 500 := ⟨_, rfl⟩
  obtain ⟨γ, hγ⟩ : ∃ γ : ℝ, γ = 2⁻¹ ^ 46 := ⟨_, rfl⟩
  obtain ⟨c, hc'⟩ : ∃ c : ℝ, c = 2⁻¹ ^ 40 := ⟨_, rfl⟩
  have hκ0 : 0 ≤ κ := by rw [hκ]; exact pow_nonneg (by norm_num) _
  have hγ0 : 0 ≤ γ := by rw [hγ]; positivity
  have hγc : 38 * γ ≤ c := by rw [hγ, hc']; norm_num
  rw [← hκ, ← hγ] at r1
  have k1 : |(y' i : ℝ) - f (t0 + t + h) i| ≤ posVel (ω : ℝ) i * (γ * (X + 74 * h * (a * X + μ) + κ) + (Real.exp (2 * (a * h)) * E + 2 * a ^ 5 * (a * Φ + μ) * h ^ 6)) := by
    rw [mul_add]
    refine le_trans ?_ (add_le_add r1 e)
    have := abs_add_le ((y' i : ℝ) - rkStep (kdopri : KTab ℝ) (fun _ y => cw (m : ℝ) n y (fun i => (F i : ℝ))) 0 (h : ℝ) (castV y) i)
      (rkStep (kdopri : KTab ℝ) (fun _ y => cw (m : ℝ) n y (fun i => (F i : ℝ))) 0 (h : ℝ) (castV y) i - f (t0 + t + h) i)
    rwa [sub_add_sub_cancel] at this
  refine k1.trans (mul_le_mul_of_nonneg_left ?_ hpw)
  have k2 := grow_step (b := 2 * (a : ℝ)) (c := 2⁻¹ ^ 40) (p := rateP a μ η Φ) (q := rateQ Φ) (T := h) (E := E) (by positivity) hc hp hq hhR hE0
  refine le_trans ?_ k2
  rw [rateP, rateQ, ← hκ, ← hγ, ← hc']
  have hah : (a : ℝ) * h ≤ 1 / 2 := by
    have h1 : (2 : ℝ) * a * η ≤ 1 := by exact_mod_cast S.aeta
    have : (a : ℝ) * h ≤ a * η := mul_le_mul_of_nonneg_left hhηR ha0
    linarith
  have m1 : γ * (X + 74 * h * (a * X + μ) + κ) ≤ γ * ((Φ + E) + 74 * h * (a * (Φ + E) + μ) + κ) := by gcongr
  have m2 : γ * ((1 + 74 * (a * h)) * E) ≤ c * E := by
    rw [← mul_assoc]
    refine mul_le_mul_of_nonneg_right ?_ hE0
    calc γ * (1 + 74 * (a * h)) ≤ γ * 38 := mul_le_mul_of_nonneg_left (by linarith) hγ0
      _ ≤ c := by linarith
  have x1 : 1 ≤ Real.exp (2 * a * h) := Real.one_le_exp (by positivity)
  have m3 : c * E ≤ Real.exp (2 * a * h) * (c * E) := le_mul_of_one_le_left (mul_nonneg (by linarith) hE0) x1
  have m4 : 2 * (a : ℝ) ^ 5 * (a * Φ + μ) * h ^ 6 ≤ 2 * (a : ℝ) ^ 5 * (a * Φ + μ) * η ^ 5 * h := by
    rw [show 2 * (a : ℝ) ^ 5 * (a * Φ + μ) * h ^ 6 = 2 * (a : ℝ) ^ 5 * (a * Φ + μ) * h ^ 5 * h by ring]
    gcongr
  rw [show 2 * ((a : ℝ) * h) = 2 * a * h by ring]
  have e1 : γ * ((Φ + E) + 74 * h * (a * (Φ + E) + μ) + κ) = γ * (74 * (a * Φ + μ)) * h + γ * (Φ + κ) + γ * ((1 + 74 * (a * h)) * E) := by ring
  have e2 : Real.exp (2 * a * h) * (1 + c) * E = Real.exp (2 * a * h) * E + Real.exp (2 * a * h) * (c * E) := by ring
  rw [e2]
  linarith

/-- the steps of one call of the solver -/
theorem CwSim.chain (S : CwSim libm d m n ω a μ η F Φ Tmax f) {t0 : ℝ} : ∀ (ts : List ℚ) (t T : ℚ) (y : Fin 6 → ℚ) (E : ℝ), Times η t ts T → 0 ≤ E →
    (∀ i, |(y i : ℝ) - f (t0 + t) i| ≤ posVel (ω : ℝ) i * E) → 0 ≤ t0 + t → t0 + T ≤ Tmax →
    (1 + (ω : ℝ)) * (Φ + simB a μ η Φ (T - t) ts.length E) ≤ 2 ^ 100 →
    ∃ y' : Fin 6 → ℚ, rkTimesFl dopri (fun t y => d.computeStateDot t y (toFl F)) (.fin t) (toFl y) (ts.map .fin) = .ok (toFl y') ∧
      ∀ i, |(y' i : ℝ) - f (t0 + T) i| ≤ posVel (ω : ℝ) i * simB a μ η Φ (T - t) ts.length E
  | [], t, T, y, E, hts, hE0, hy, ht0, hT, hbig => by
    have : t = T := hts
    subst this
    refine ⟨y, rfl, ?_⟩
    rw [sub_self]
    simpa [simB, grow_zero] using hy
  | t' :: ts, t, T, y, E, hts, hE0, hy, ht0, hT, hbig => by
    obtain ⟨hω, ha0, hμ0, hη0, hp, hq, hc⟩ := S.consts
    obtain ⟨g1, g2, g3⟩ := hts
    have hT' := times_le g3
    have r1 : (t : ℝ) ≤ t' := by exact_mod_cast g1
    have r2 : (t' : ℝ) ≤ T := by exact_mod_cast hT'
    have hcomp : simB a μ η Φ (T - t') ts.length (simB a μ η Φ (t' - t) 1 E) ≤ simB a μ η Φ (T - t) (t' :: ts).length E := by
      refine (grow_comp (by positivity) hc hp hq (by linarith) (by norm_num) (by linarith) (by positivity)).trans (le_of_eq ?_)
      unfold simB
      congr 1
      · ring
      · push_cast [List.length_cons]; ring
    have hs0 : 0 ≤ simB a μ η Φ (t' - t) 1 E := grow_nonneg hp hq (by linarith) (by norm_num) hE0
    have hEle : E ≤ simB a μ η Φ (T - t) (t' :: ts).length E := le_grow (by positivity) hc hp hq (by linarith) (by positivity) hE0
    have big : ∀ E', E' ≤ simB a μ η Φ (T - t) (t' :: ts).length E → (1 + (ω : ℝ)) * (Φ + E') ≤ 2 ^ 100 := fun E' h =>
      le_trans (mul_le_mul_of_nonneg_left (by linarith) (by positivity)) hbig
    obtain ⟨y1, h1, h2⟩ := S.step hE0 hy ht0 (t' := t') (by linarith) rfl (by linarith) g2 (big E hEle)
    rw [Rat.cast_sub] at h2
    obtain ⟨y', h3, h4⟩ := S.chain ts t' T y1 _ g3 hs0 h2 (by linarith) hT (big _ hcomp)
    refine ⟨y', ?_, fun i => (h4 i).trans (mul_le_mul_of_nonneg_left hcomp (posVel_pos hω i).le)⟩
    simp only [List.map_cons, rkTimesFl, h1, bind, Except.bind]
    exact h3

end

section history
variable {libm : Fmt ℚ} {env' : Env (b64Of libm)} {m n ω a μ η : ℚ} {F u : Fin 3 → ℚ} {Φ Tmax : ℝ} {f : ℝ → Fin 6 → ℝ} {e0 : Entity (b64Of libm)} {ν : ℕ}

/-- a whole simulation -/
theorem CwSim.run (S : CwSim libm e0.dynamics m n ω a μ η F Φ Tmax f) (hlo : e0.controlMin = .scalar (.fin (-1))) (hhi : e0.controlMax = .scalar (.fin 1))
    (hmeth : e0.dynamics.integrationMethod = "RK45") (hF : ∀ i, F i = min (max (u i) (-1)) 1) :
    ∀ (hist : List (ℚ × Action (b64Of libm))), (∀ h ∈ hist, Asks env' e0 h.2 u ∧ 0 ≤ h.1 ∧
      Integrates env' 6 (2 ^ 100) η ν (fun t y => e0.dynamics.computeStateDot t y (toFl F)) h.1) →
    ∀ (s : Fin 6 → ℚ) (sd : Vec (b64Of libm)) (tr : Option (List (Vec (b64Of libm)))) (trT : Option (Vec (b64Of libm))) (t E : ℝ), 0 ≤ t →
    t + ((hist.map (·.1)).sum : ℚ) ≤ Tmax → 0 ≤ E → (∀ i, |(s i : ℝ) - f t i| ≤ posVel (ω : ℝ) i * E) →
    (1 + (ω : ℝ)) * (Φ + simB a μ η Φ ((hist.map (·.1)).sum : ℚ) (hist.length * ν) E) ≤ 2 ^ 100 →
    ∃ s' : Fin 6 → ℚ,
      (Entity.run env' { e0 with dynamics := { e0.dynamics with trajectory := tr, trajectoryT := trT }, state := toFl s, stateDot := sd } (stepsOf hist)).state = toFl s' ∧
      ∀ i, |(s' i : ℝ) - f (t + ((hist.map (·.1)).sum : ℚ)) i| ≤ posVel (ω : ℝ) i * simB a μ η Φ ((hist.map (·.1)).sum : ℚ) (hist.length * ν) E
  | [], _, s, sd, tr, trT, t, E, ht0, ht1, hE0, hE, hbig => by
    refine ⟨s, rfl, fun i => ?_⟩
    have := hE i
    simpa [simB, grow_zero] using this
  | (h, act) :: hist, hh, s, sd, tr, trT, t, E, ht0, ht1, hE0, hE, hbig => by
    obtain ⟨hω, ha0, hμ0, hη0, hp, hq, hc⟩ := S.consts
    obtain ⟨g1, g2, g3⟩ := hh (h, act) (by simp)
    simp only at g1 g2 g3
    have gr : (0 : ℝ) ≤ h := by exact_mod_cast g2
    have hsum : (0 : ℝ) ≤ ((hist.map (·.1)).sum : ℚ) := by
      have : (0 : ℚ) ≤ (hist.map (·.1)).sum := List.sum_nonneg fun x hx => by
        obtain ⟨q, hq, rfl⟩ := List.mem_map.1 hx
        exact (hh q (by simp [hq])).2.1
      exact_mod_cast this
    simp only [List.map_cons, List.sum_cons, Rat.cast_add, List.length_cons, Nat.cast_add, Nat.cast_one] at ht1 hbig ⊢
    set T' : ℝ := (((hist.map (·.1)).sum : ℚ) : ℝ) with hT'
    have hcomp : simB a μ η Φ T' (hist.length * ν) (simB a μ η Φ h ν E) ≤ simB a μ η Φ (h + T') ((hist.length + 1) * ν) E := by
      refine (grow_comp (by positivity) hc hp hq gr (by positivity) hsum (by positivity)).trans (le_of_eq ?_)
      unfold simB
      congr 1
      ring
    have hs0 : 0 ≤ simB a μ η Φ h ν E := grow_nonneg hp hq gr (by positivity) hE0
    have hsle : simB a μ η Φ h ν E ≤ simB a μ η Φ (h + T') ((hist.length + 1) * ν) E :=
      le_trans (le_grow (by positivity) hc hp hq hsum (by positivity) hs0) hcomp
    have hEle : E ≤ simB a μ η Φ h ν E := le_grow (by positivity) hc hp hq gr (by positivity) hE0
    have big : ∀ E', E' ≤ simB a μ η Φ (h + T') ((hist.length + 1) * ν) E → (1 + (ω : ℝ)) * (Φ + E') ≤ 2 ^ 100 := fun E' h =>
      le_trans (mul_le_mul_of_nonneg_left (by linarith) (by positivity)) hbig
    -- the solver
    obtain ⟨-, -, -, -, -, hs100⟩ := S.size ht0 (by linarith) hE (big E (hEle.trans hsle)) hE0
    set d : Dyn (b64Of libm) := { e0.dynamics with trajectory := tr, trajectoryT := trT } with hd
    obtain ⟨ts, q1, q2, q3⟩ := g3 s (d.tEval (.fin h)) hs100
    have hts : simB a μ η Φ ((h : ℝ) - ((0 : ℚ) : ℝ)) ts.length E ≤ simB a μ η Φ h ν E := by
      rw [Rat.cast_zero, sub_zero]
      exact grow_mono (by positivity) hc hp hq gr (by positivity) hE0 le_rfl (by exact_mod_cast q1) le_rfl
    obtain ⟨s1, k1, k2⟩ := S.chain (t0 := t) ts 0 h s E q2 hE0 (by simpa using hE) (by simpa using ht0) (by linarith) (big _ (hts.trans hsle))
    obtain ⟨sol, k3, k4⟩ := q3 _ k1
    have k5 : ∀ i, |(s1 i : ℝ) - f (t + h) i| ≤ posVel (ω : ℝ) i * simB a μ η Φ h ν E := fun i =>
      (k2 i).trans (mul_le_mul_of_nonneg_left hts (posVel_pos hω i).le)
    -- the derivative recorded at the end
    obtain ⟨X, x0, x1, -, x3, -⟩ := S.size (t := t + h) (by linarith) (by linarith) k5 (big _ hsle) hs0
    obtain ⟨env, args, hdd⟩ := S.dyn
    obtain ⟨z, z1, z2⟩ := b64_field hdd S.unl S.m1 S.n1 S.omega S.a1 S.a2 S.a3 S.F1 S.mu S.mu0 rfl (.fin h) 0 (toFl s1) s1 X (by norm_num)
      (nearV_toFl (by positivity) x3) x0 (x1.trans (by norm_num))
    obtain ⟨v, rfl, -⟩ := z2.toFl
    have hu : Unlimited d := ⟨S.unl.custom, S.unl.stateMin, S.unl.stateMax, S.unl.stateDotMin, S.unl.stateDotMax, S.unl.wrap⟩
    have hstep : d.step env' (.fin h) (toFl s) (toFl F) = ({ d with trajectory := some sol.y, trajectoryT := some sol.t }, .ok (toFl s1, toFl v)) :=
      rk45Step_unlimited hu hmeth k3 k4 z1
    have hFe : F = fun i => min (max (u i) (-1)) 1 := funext hF
    rw [hFe] at hstep
    obtain ⟨c1, c2⟩ := b64_cast32 libm
    have hask : Asks env' ({ e0 with dynamics := d, state := toFl s, stateDot := sd } : Entity (b64Of libm)) act u := by
      obtain ⟨ty, g⟩ := g1
      refine ⟨ty, resolve_iff.1 ?_⟩
      rw [← resolve_iff.2 g]
      cases act <;> rfl
    obtain ⟨w, hw⟩ := step_pm_one (env := env') (e := { e0 with dynamics := d, state := toFl s, stateDot := sd }) hlo hhi c1 c2 hask (.fin h) hstep
    obtain ⟨s', h3, h4⟩ := S.run hlo hhi hmeth hF hist (fun q hq => hh q (by simp [hq])) s1 (toFl v) (some sol.y) (some sol.t) (t + h) _ (by linarith)
      (by rw [← hT']; linarith) hs0 k5 (by rw [← hT']; exact big _ hcomp)
    rw [← hT'] at h4
    refine ⟨s', ?_, fun i => ?_⟩
    · rw [stepsOf_cons, run_cons]
      simp only [Entity.op]
      rw [hw]
      exact h3
    · have := h4 i
      rw [show t + h + T' = t + (h + T') by ring] at this
      exact this.trans (mul_le_mul_of_nonneg_left hcomp (posVel_pos hω i).le)

end history

/-- A point-mass spacecraft stepped any number of times with RK45, the default method, in IEEE double precision, with a constant requested
thrust (however expressed), against the exact solution `f` of the Clohessy-Wiltshire equations with that thrust, saturated, from the same state.
The solver is any Dormand-Prince solver that divides each step of the simulation in at most `ν` steps of duration at most `η`, chosen in any way;
`N` is the total number of such steps and `T` the total time. If the exact positions stay below `Φ`, the exact velocities below `ω Φ` and the
acceleration by the thrust below `ω μ`, then at the end the positions are off by at most `B` and the velocities by at most `ω B`. The first
summand of `B` is the effect of rounding, the second, of the fifth order in `η`, that of the method. -/
theorem C86_thrust (libm : Fmt ℚ) (env env' : Env (b64Of libm)) (args : CwhArgs (b64Of libm)) (m n : ℚ) (hm : args.m = .fin m) (hn : args.n = .fin n)
    (e0 : Entity (b64Of libm)) (h0 : newCwhSpacecraft env args = .ok e0) (hmeth : e0.dynamics.integrationMethod = "RK45") (hm1 : |m⁻¹| ≤ 2 ^ 200)
    (hn1 : |n| ≤ 2 ^ 200) (s : Fin 6 → ℚ) (hist : List (ℚ × Action (b64Of libm))) (u F : Fin 3 → ℚ) (hF : ∀ i, F i = min (max (u i) (-1)) 1)
    (ω a μ η : ℚ) (ν : ℕ) (Φ T N B : ℝ)
    (hhist : ∀ h ∈ hist, Asks env' e0 h.2 u ∧ 0 ≤ h.1 ∧
      Integrates env' 6 (2 ^ 100) η ν (fun t y => e0.dynamics.computeStateDot t y (toFl F)) h.1)
    (hT : T = ((hist.map (·.1)).sum : ℚ)) (hN : N = hist.length * ν) (hη0 : 0 ≤ η) (hη : η ≤ 2 ^ 50) (haη : 2 * a * η ≤ 1)
    (hω : 2⁻¹ ^ 100 ≤ ω) (ha1 : ω ≤ a) (ha2 : 3 * n ^ 2 + 2 * |n| * ω ≤ a * ω) (ha3 : a ≤ 2 ^ 50)
    (f : ℝ → Fin 6 → ℝ) (hf0 : ∀ i, f 0 i = s i) (hf : ∀ t, HasDerivAt f (cw (m : ℝ) n (f t) (fun i => (F i : ℝ))) t)
    (hΦ : ∀ t, 0 ≤ t → t ≤ T → ∀ i, |f t i| ≤ posVel (ω : ℝ) i * Φ) (hμ : ∀ i, |F i / m| ≤ ω * μ) (hμ1 : μ ≤ 2 ^ 50)
    (hB : B = Real.exp (2 * a * T + N * 2⁻¹ ^ 40) *
      (2⁻¹ ^ 46 * ((N + 74 * a * T) * Φ + 74 * T * μ + N * 2⁻¹ ^ 500) + 2 * (a : ℝ) ^ 5 * (a * Φ + μ) * (η : ℝ) ^ 5 * T))
    (hbig : (1 + (ω : ℝ)) * (Φ + B) ≤ 2 ^ 100) :
    ∃ s' : Fin 6 → ℚ, (Entity.run env' { e0 with state := toFl s } (stepsOf hist)).state = toFl s' ∧
      ∀ i, |(s' i : ℝ) - f T i| ≤ posVel (ω : ℝ) i * B := by
  obtain ⟨⟨dargs, hd⟩, hu, hlo, hhi⟩ := cwhSpacecraft_parts h0
  rw [hm, hn] at hd
  have hω0 : 0 < ω := lt_of_lt_of_le (pow_pos (by norm_num) _) hω
  have hT0 : 0 ≤ T := by
    rw [hT]
    have : (0 : ℚ) ≤ (hist.map (·.1)).sum := List.sum_nonneg fun x hx => by
      obtain ⟨q, hq, rfl⟩ := List.mem_map.1 hx
      exact (hhist q hq).2.1
    exact_mod_cast this
  have hΦ0 : 0 ≤ Φ := by
    have := (abs_nonneg _).trans (hΦ 0 le_rfl hT0 0)
    simpa [posVel] using this
  have hμ0 : 0 ≤ μ := nonneg_of_mul_nonneg_right ((abs_nonneg _).trans (hμ 0)) hω0
  have hF1 : ∀ i, |F i| ≤ 1 := fun i => by rw [hF, abs_le]; constructor <;> simp
  have S : CwSim libm e0.dynamics m n ω a μ η F Φ T f :=
    ⟨⟨env, dargs, hd⟩, hu, hm1, hn1, hω, ha1, ha2, ha3, hF1, hμ, hμ0, hμ1, hη0, hη, haη, hΦ0, hf, hΦ⟩
  have eB : simB a μ η Φ T (hist.length * ν) 0 = B := by
    obtain ⟨κ, hκ⟩ : ∃ κ : ℝ, κ = 2⁻¹ ^ 500 := ⟨_, rfl⟩
    rw [hB, ← hN]
    unfold simB grow rateP rateQ
    rw [← hκ]
    congr 1
    · congr 1; ring
    · ring
  obtain ⟨s', h1, h2⟩ := S.run (ν := ν) hlo hhi hmeth hF hist hhist s e0.stateDot e0.dynamics.trajectory e0.dynamics.trajectoryT 0 0 le_rfl
    (by rw [hT]; simp) le_rfl (fun i => by simp [hf0]) (by rw [← hT, eB]; exact hbig)
  rw [← hT, eB, zero_add] at h2
  exact ⟨s', h1, h2⟩

/-- Without thrust, with the scale `ω = |n|`: the distance of the simulated positions and velocities from the textbook closed-form solution. -/
theorem C86_coasting (libm : Fmt ℚ) (env env' : Env (b64Of libm)) (args : CwhArgs (b64Of libm)) (m n : ℚ) (hm : args.m = .fin m) (hn : args.n = .fin n)
    (e0 : Entity (b64Of libm)) (h0 : newCwhSpacecraft env args = .ok e0) (hmeth : e0.dynamics.integrationMethod = "RK45") (hm1 : |m⁻¹| ≤ 2 ^ 200)
    (hn1 : |n| ≤ 2 ^ 40) (hn2 : 2⁻¹ ^ 100 ≤ |n|) (s : Fin 6 → ℚ) (hist : List (ℚ × Action (b64Of libm))) (η : ℚ) (ν : ℕ) (Φ T N B : ℝ)
    (hhist : ∀ h ∈ hist, Asks env' e0 h.2 (0 : Fin 3 → ℚ) ∧ 0 ≤ h.1 ∧
      Integrates env' 6 (2 ^ 100) η ν (fun t y => e0.dynamics.computeStateDot t y (toFl (0 : Fin 3 → ℚ))) h.1)
    (hT : T = ((hist.map (·.1)).sum : ℚ)) (hN : N = hist.length * ν) (hη0 : 0 ≤ η) (hη : η ≤ 2 ^ 50) (haη : 10 * |n| * η ≤ 1)
    (hΦ : ∀ t, 0 ≤ t → t ≤ T → ∀ i, |cwSolution n (fun i => (s i : ℝ)) t i| ≤ posVel |(n : ℝ)| i * Φ)
    (hB : B = Real.exp (10 * |(n : ℝ)| * T + N * 2⁻¹ ^ 40) *
      (2⁻¹ ^ 46 * ((N + 370 * |(n : ℝ)| * T) * Φ + N * 2⁻¹ ^ 500) + 31250 * (n : ℝ) ^ 6 * Φ * (η : ℝ) ^ 5 * T))
    (hbig : (1 + |(n : ℝ)|) * (Φ + B) ≤ 2 ^ 100) :
    ∃ s' : Fin 6 → ℚ, (Entity.run env' { e0 with state := toFl s } (stepsOf hist)).state = toFl s' ∧
      ∀ i, |(s' i : ℝ) - cwSolution n (fun i => (s i : ℝ)) T i| ≤ posVel |(n : ℝ)| i * B := by
  have hn0 : n ≠ 0 := abs_pos.1 (lt_of_lt_of_le (pow_pos (by norm_num) _) hn2)
  have hn0' : (n : ℝ) ≠ 0 := by exact_mod_cast hn0
  have hnn := abs_nonneg n
  have := C86_thrust libm env env' args m n hm hn e0 h0 hmeth hm1 (hn1.trans (by norm_num)) s hist 0 0 (fun i => by simp) |n| (5 * |n|) 0 η ν Φ T N B hhist
    hT hN hη0 hη (by linarith) hn2 (by linarith)
    (by have := sq_abs n; nlinarith) (by linarith) (cwSolution n fun i => (s i : ℝ)) (fun i => by rw [cwSolution_zero]) (fun t => by
      have := cwSolution_deriv n hn0' m (fun i => (s i : ℝ)) t
      refine this.congr_deriv ?_
      congr 1
      funext i
      simp) (by simpa using hΦ) (fun i => by simp) (by norm_num) (by
      rw [hB]
      push_cast
      have h6 : (n : ℝ) ^ 6 = |(n : ℝ)| ^ 6 := by rw [← abs_pow]; exact (abs_of_nonneg (by positivity)).symm
      rw [h6]
      congr 1
      · congr 1; ring
      · obtain ⟨κ, hκ⟩ : ∃ κ : ℝ, κ = 2⁻¹ ^ 500 := ⟨_, rfl⟩
        rw [← hκ]; ring) (by simpa using hbig)
  simpa using this

/-- a solver that always takes a single step -/
def oneStepEnv (libm : Fmt ℚ) : Env (b64Of libm) where
  jaxInstalled := false
  solveIvp := fun f t1 y0 _ => do
    let y ← rkTimesFl dopri f (.fin 0) y0 [t1]
    pure ⟨[.fin 0, t1], [y0, y], true⟩
  odeint := fun _ _ _ => .error .importError

theorem oneStepEnv_integrates (libm : Fmt ℚ) {k : ℕ} {S η T : ℚ} (hT0 : 0 ≤ T) (hT : T ≤ η) (f : Rhs (b64Of libm)) :
    Integrates (oneStepEnv libm) k S η 1 f T := by
  intro y0 te _
  refine ⟨[T], le_rfl, ⟨hT0, by linarith, rfl⟩, fun yf h => ⟨⟨[.fin 0, .fin T], [toFl y0, yf], true⟩, ?_, rfl⟩⟩
  have h' : rkTimesFl dopri f (.fin 0) (toFl y0) [.fin T] = .ok yf := h
  simp only [oneStepEnv, h', bind, Except.bind, pure, Except.pure]

/-- the bound for one second, two steps of half a second, 100 m and `n = 2^-10`: less than a hundredth of a nanometre -/
theorem bound_number : Real.exp (10 * |((1 / 1024 : ℚ) : ℝ)| * 1 + 2 * 2⁻¹ ^ 40) *
      (2⁻¹ ^ 46 * ((2 + 370 * |((1 / 1024 : ℚ) : ℝ)| * 1) * 100 + 2 * 2⁻¹ ^ 500) + 31250 * ((1 / 1024 : ℚ) : ℝ) ^ 6 * 100 * ((1 / 2 : ℚ) : ℝ) ^ 5 * 1) ≤ 10⁻¹ ^ 11 := by
  obtain ⟨κ, hκ⟩ : ∃ κ : ℝ, κ = 2⁻¹ ^ 500 := ⟨_, rfl⟩
  have hκ1 : κ ≤ 1 := by rw [hκ]; exact pow_le_one₀ (by norm_num) (by norm_num)
  have hκ0 : 0 ≤ κ := by rw [hκ]; exact pow_nonneg (by norm_num) _
  rw [← hκ]
  push_cast
  rw [abs_of_pos (by norm_num)]
  have he : Real.exp (10 * (1 / 1024) * 1 + 2 * 2⁻¹ ^ 40) ≤ 2.72 :=
    (Real.exp_le_exp.2 (show _ ≤ (1 : ℝ) by norm_num)).trans (Real.exp_one_lt_d9.le.trans (by norm_num))
  refine (mul_le_mul_of_nonneg_right he (by positivity)).trans ?_
  calc _ ≤ 2.72 * (2⁻¹ ^ 46 * ((2 + 370 * (1 / 1024) * 1) * 100 + 2 * 1) + 31250 * (1 / 1024 : ℝ) ^ 6 * 100 * (1 / 2) ^ 5 * 1) := by gcongr
    _ ≤ _ := by norm_num

/-- A spacecraft 100 m off the orbital plane, stepped twice by half a second, meets the hypotheses. -/
example (libm : Fmt ℚ) : ∃ e0 : Entity (b64Of libm),
    newCwhSpacecraft (oneStepEnv libm) { m := .fin 12, n := .fin (1 / 1024), kwargs := [("name", .str "deputy")] } = .ok e0 ∧
    e0.dynamics.integrationMethod = "RK45" ∧
    (∀ h ∈ ([(1 / 2, .none), (1 / 2, .none)] : List (ℚ × Action (b64Of libm))), Asks (oneStepEnv libm) e0 h.2 (0 : Fin 3 → ℚ) ∧ 0 ≤ h.1 ∧
      Integrates (oneStepEnv libm) 6 (2 ^ 100) (1 / 2) 1 (fun t y => e0.dynamics.computeStateDot t y (toFl (0 : Fin 3 → ℚ))) h.1) ∧
    10 * |(1 / 1024 : ℚ)| * (1 / 2) ≤ 1 ∧ (1 + |((1 / 1024 : ℚ) : ℝ)|) * (100 + 10⁻¹ ^ 11) ≤ 2 ^ 100 ∧
    ∀ t, ∀ i, |cwSolution (1 / 1024 : ℚ) (fun i => ((![0, 0, 100, 0, 0, 0] : Fin 6 → ℚ) i : ℝ)) t i| ≤ posVel |((1 / 1024 : ℚ) : ℝ)| i * 100 := by
  have h : abstractMethods mroCWHSpacecraft = [] := by decide
  obtain ⟨e0, h0⟩ : ∃ e0 : Entity (b64Of libm),
      newCwhSpacecraft (oneStepEnv libm) { m := .fin 12, n := .fin (1 / 1024), kwargs := [("name", .str "deputy")] } = .ok e0 := by
    simp only [newCwhSpacecraft, instantiate, h, if_true, initCwhSpacecraft, mkCwhDynamics, generateCwhMatrices]
    simp [pyDiv, Fl.eqb, bind, Except.bind, mkLinearDyn, mkOdeDyn, linearShapeCheck, pure, Except.pure, baseInit, validate, lookup, fieldValues,
      cwhFields, buildState, Config.get]
  obtain ⟨p1, p2, p3⟩ := cwhSpacecraft_method h0
  simp only [Option.some.injEq] at p1 p2
  refine ⟨e0, h0, p1, ?_, by norm_num [abs_of_pos], by norm_num [abs_of_pos], ?_⟩
  · intro h hh
    simp at hh
    subst hh
    exact ⟨⟨.f64, resolve_iff.1 (by simp [Entity.resolve, toFl, List.ofFn_succ, p3])⟩, by norm_num, oneStepEnv_integrates libm (T := 2⁻¹) (by norm_num) (by norm_num) _⟩
  · intro t i
    have hs := Real.abs_sin_le_one (((1 / 1024 : ℚ) : ℝ) * t)
    have hc := Real.abs_cos_le_one (((1 / 1024 : ℚ) : ℝ) * t)
    push_cast at hs hc ⊢
    fin_cases i <;> simp [cwSolution, posVel, abs_mul] at hs hc ⊢
    · linarith
    · linarith

end SAD
