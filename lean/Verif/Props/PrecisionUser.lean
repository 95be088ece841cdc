import Verif.Lemmas.UserRun

/-!
# C118: models of the user's in double precision
-/

set_option linter.unusedSectionVars false

namespace SAD
open Spec

/-- An exact motion under the calls of a history, from `y` to `z`: during each call the solution of `y' = f U y`, where `U` is the control the call
applies. Along it, the dynamics of the entity computes `f` well (`Shadows`), and neither limits nor wrapping change a state near its end. -/
def Spec.Follows {libm : Fmt ℚ} {n m : ℕ} (env : Env (b64Of libm)) (e : Entity (b64Of libm)) (w : Fin n → ℚ) (f : (Fin m → ℚ) → (Fin n → ℝ) → Fin n → ℝ)
    (L δ ρ : ℝ) (D X : ℚ) : List (ℚ × Action (b64Of libm)) → (Fin n → ℝ) → (Fin n → ℝ) → Prop
  | [], y, z => z = y
  | (T, a) :: hist, y, z => 0 ≤ T ∧ ∃ (U : Fin m → ℚ) (φ : ℝ → Fin n → ℝ), Applied env e a (toFl U) ∧ Shadows w e.dynamics U (f U) φ L δ ρ D X T ∧
      φ 0 = y ∧ (∀ s : Fin n → ℚ, (∀ i, |s i - φ T i| ≤ w i * ρ) → Finished e.dynamics s s) ∧ Spec.Follows env e w f L δ ρ D X hist (φ T) z

section
variable {libm : Fmt ℚ} {n m : ℕ} {env : Env (b64Of libm)} {e : Entity (b64Of libm)} {w : Fin n → ℚ} {f : (Fin m → ℚ) → (Fin n → ℝ) → Fin n → ℝ} {L δ ρ : ℝ} {D X : ℚ}

theorem Spec.Follows.upTo : ∀ {hist : List (ℚ × Action (b64Of libm))} {y z : Fin n → ℝ}, Follows env e w f L δ ρ D X hist y z →
    FollowsUpTo env e w f L δ ρ 0 D X (· = z) hist y ∧ ∀ h ∈ hist, 0 ≤ h.1
  | [], _, _, h => ⟨h.symm, by simp⟩
  | _ :: _, _, _, ⟨h0, U, φ, ha, S, hy, hf, h⟩ =>
    ⟨⟨h0, U, φ, ha, S, hy, fun y1 h1 => ⟨y1, φ _, hf y1 h1, fun E _ hE i => by rw [add_zero]; exact hE i, h.upTo.1⟩⟩, fun p hp => by
      rcases List.mem_cons.1 hp with rfl | hp
      · exact h0
      · exact h.upTo.2 p hp⟩

/-- without limits and wrapping, nothing is changed -/
theorem finished_unlimited {d : Dyn (b64Of libm)} (hu : Unlimited d) (s : Fin n → ℚ) : Finished d s s := by
  refine ⟨toFl s, ?_, by simp only [Dyn.wrapAngles, hu.wrap]⟩
  have := npClip_toFl (R := b64Of libm) s (lo := d.stateMin) (hi := d.stateMax) (l := fun _ => none) (h := fun _ => none)
    (.inr ⟨_, hu.stateMin, fun i => rfl⟩) (.inr ⟨_, hu.stateMax, fun i => rfl⟩)
  simpa [kclip] using this

end

/-- Any model of the user's, simulated with RK45 in IEEE double precision. The history of calls applies any controls; `y` is a state within `ε0` of the
initial one and `z` the end of the exact motion from `y`. The element `i` of a state is measured in the unit `w i`. The solver is any Dormand-Prince solver
that divides each call in at most `ν` steps of at most `η` seconds. The derivative is computed with an error of at most `δ`, and `f` is Lipschitz with
constant `L`. The error after `T` seconds is then at most `E`, provided the assumptions on the derivative hold up to the distance `ρ`, a little more than
`E`. -/
theorem C118_rk45 {libm : Fmt ℚ} {n m : ℕ} (env : Env (b64Of libm)) (e : Entity (b64Of libm)) (hc : e.dynamics.custom = none)
    (hm : e.dynamics.integrationMethod = "RK45") (hist : List (ℚ × Action (b64Of libm))) (w : Fin n → ℚ) (hw : Weights w)
    (f : (Fin m → ℚ) → (Fin n → ℝ) → Fin n → ℝ) (L δ ρ ε0 E T : ℝ) (D X η : ℚ) (ν : ℕ)
    (hint : ∀ h ∈ hist, ∀ U : Fin m → ℚ, Applied env e h.2 (toFl U) →
      Integrates env n (2 ^ 100) η ν (fun t y => e.dynamics.computeStateDot t y (toFl U)) h.1) (hν : 1 ≤ ν)
    (hL : 0 ≤ L) (hδ : 0 ≤ δ) (hX : 0 ≤ X ∧ X ≤ 2 ^ 50) (hD : 0 ≤ D ∧ D ≤ 2 ^ 50) (hη : 0 ≤ η ∧ η ≤ 2 ^ 50) (hηL : η * L ≤ 1 / 2)
    (s : Fin n → ℚ) (hs : e.state = toFl s) (y z : Fin n → ℝ) (hε0 : 0 ≤ ε0) (hy : ∀ i, |s i - y i| ≤ w i * ε0) (hF : Follows env e w f L δ ρ D X hist y z)
    (hT : T = ((hist.map (·.1)).sum : ℚ))
    (hE : E = Real.exp (L * T) * (ε0 + (2 * δ + 46 * L * D * η) * T + 2 * (hist.length * ν) * (2⁻¹ ^ 48 * (X + 26 * η * D + 2⁻¹ ^ 500))))
    (hρ : E + 26 * η * D + 2⁻¹ ^ 48 * (X + 26 * η * D + 2⁻¹ ^ 500) ≤ ρ) :
    ∃ s' : Fin n → ℚ, (e.run env (stepsOf hist)).state = toFl s' ∧ ∀ i, |s' i - z i| ≤ w i * E := by
  have Z : UserSizes L δ D X η := ⟨hX.1, hX.2.trans (by norm_num), hD.1, hD.2, hη.1, hη.2, hL, hδ, hηL⟩
  have hwX : ∀ i, w i * X ≤ 2 ^ 100 := fun i => (mul_le_mul (hw i).2 hX.2 hX.1 (by norm_num)).trans (by norm_num)
  have hE' : E = userB L δ D X η 0 ((hist.map (·.1)).sum : ℚ) (hist.length * ν) ε0 := by rw [hE, userB_eq, hT]; ring
  rw [← userR_eq] at hρ
  obtain ⟨s', z', h1, rfl, h2⟩ := user_run (ν := ν) (ω := 0) hw Z hwX le_rfl hν hc hist (fun h hh => ⟨hF.upTo.2 h hh, fun U hU => .inl ⟨hm, hint h hh U hU⟩⟩) s
    e.stateDot e.dynamics.trajectory e.dynamics.trajectoryT y ε0 hε0 hy hF.upTo.1 (by rw [← hE']; exact hρ)
  refine ⟨s', ?_, fun i => ?_⟩
  · rw [← h1, ← hs]
  · rw [hE']
    exact h2 i

/-- The same with Euler: calls of at most `η` seconds. -/
theorem C118_euler {libm : Fmt ℚ} {n m : ℕ} (env : Env (b64Of libm)) (e : Entity (b64Of libm)) (hc : e.dynamics.custom = none)
    (hm : e.dynamics.integrationMethod = "Euler") (hsamp : e.dynamics.trajectorySamples ≤ 0) (hist : List (ℚ × Action (b64Of libm)))
    (w : Fin n → ℚ) (hw : Weights w) (f : (Fin m → ℚ) → (Fin n → ℝ) → Fin n → ℝ) (L δ ρ ε0 E T : ℝ) (D X η : ℚ) (hh : ∀ h ∈ hist, h.1 ≤ η)
    (hL : 0 ≤ L) (hδ : 0 ≤ δ) (hX : 0 ≤ X ∧ X ≤ 2 ^ 50) (hD : 0 ≤ D ∧ D ≤ 2 ^ 50) (hη : 0 ≤ η ∧ η ≤ 2 ^ 50) (hηL : η * L ≤ 1 / 2)
    (s : Fin n → ℚ) (hs : e.state = toFl s) (y z : Fin n → ℝ) (hε0 : 0 ≤ ε0) (hy : ∀ i, |s i - y i| ≤ w i * ε0) (hF : Follows env e w f L δ ρ D X hist y z)
    (hT : T = ((hist.map (·.1)).sum : ℚ))
    (hE : E = Real.exp (L * T) * (ε0 + (2 * δ + 46 * L * D * η) * T + 2 * hist.length * (2⁻¹ ^ 48 * (X + 26 * η * D + 2⁻¹ ^ 500))))
    (hρ : E + 26 * η * D + 2⁻¹ ^ 48 * (X + 26 * η * D + 2⁻¹ ^ 500) ≤ ρ) :
    ∃ s' : Fin n → ℚ, (e.run env (stepsOf hist)).state = toFl s' ∧ ∀ i, |s' i - z i| ≤ w i * E := by
  have Z : UserSizes L δ D X η := ⟨hX.1, hX.2.trans (by norm_num), hD.1, hD.2, hη.1, hη.2, hL, hδ, hηL⟩
  have hwX : ∀ i, w i * X ≤ 2 ^ 100 := fun i => (mul_le_mul (hw i).2 hX.2 hX.1 (by norm_num)).trans (by norm_num)
  have hE' : E = userB L δ D X η 0 ((hist.map (·.1)).sum : ℚ) (hist.length * (1 : ℕ)) ε0 := by rw [hE, userB_eq, hT, Nat.cast_one]; ring
  rw [← userR_eq] at hρ
  obtain ⟨s', z', h1, rfl, h2⟩ := user_run (ν := 1) (ω := 0) hw Z hwX le_rfl le_rfl hc hist (fun h hh' => ⟨hF.upTo.2 h hh', fun U _ => .inr ⟨hm, hsamp, hh h hh'⟩⟩) s
    e.stateDot e.dynamics.trajectory e.dynamics.trajectoryT y ε0 hε0 hy hF.upTo.1 (by rw [← hE']; exact hρ)
  refine ⟨s', ?_, fun i => ?_⟩
  · rw [← h1, ← hs]
  · rw [hE']
    exact h2 i

/-- a body slowed down by the square of its speed; its control is ignored -/
def Demo.dragEntity (libm : Fmt ℚ) (method : String) : Entity (b64Of libm) where
  name := "a"
  dynamics := {
    stateMin := .scalar .ninf, stateMax := .scalar .pinf, angleWrapCenters := none, useJax := false, trajectorySamples := 0
    stateDotMin := .scalar .ninf, stateDotMax := .scalar .pinf, integrationMethod := method, custom := none, trajectory := none, trajectoryT := none
    rhs := fun _ y _ => match y with | [x] => .ok [-(x * x)] | _ => .error .valueError }
  controlDefault := []
  controlMin := .scalar .ninf
  controlMax := .scalar .pinf
  controlMap := none
  state := [.fin 1]
  stateDot := [0]

theorem Demo.drag_around {y : Fin 1 → ℝ} (h : Around (fun _ => 1) (fun t _ => (1 + t)⁻¹) (1 / 4) (((1 / 1000 : ℚ)) : ℝ) y) : 7 / 10 ≤ y 0 ∧ y 0 ≤ 5 / 4 := by
  obtain ⟨t, ⟨h0, h1⟩, h2⟩ := h
  push_cast at h1
  have h3 := h2 0
  rw [Rat.cast_one, one_mul] at h3
  have h3 := abs_le.1 h3
  have h4 : (1 + t)⁻¹ ≤ 1 := inv_le_one_of_one_le₀ (by linarith)
  have h5 : 99 / 100 ≤ (1 + t)⁻¹ := by
    rw [le_inv_comm₀ (by norm_num) (by linarith)]
    linarith
  constructor <;> linarith [h3.1, h3.2]

theorem Demo.drag_shadows (libm : Fmt ℚ) (method : String) (U : Fin 0 → ℚ) :
    Shadows (fun _ => 1) (Demo.dragEntity libm method).dynamics U (fun (y : Fin 1 → ℝ) _ => -(y 0) ^ 2) (fun t _ => (1 + t)⁻¹) (5 / 2) (2⁻¹ ^ 50) (1 / 4) 2 2 ((1 / 1000 : ℚ) : ℝ) where
  solves := fun t ht => by
    refine (hasDerivAt_pi.2 fun i => ?_).hasDerivWithinAt
    have h1 : 1 + t ≠ 0 := by linarith [ht.1]
    refine (((hasDerivAt_id t).const_add 1).inv h1).congr_deriv ?_
    simp only [id]
    field_simp
  computes := fun t y hy => by
    obtain ⟨h1, h2⟩ := Demo.drag_around hy
    have q1 : (7 / 10 : ℚ) ≤ y 0 := (Rat.cast_le (K := ℝ)).1 (by push_cast; exact h1)
    have q2 : y 0 ≤ (5 / 4 : ℚ) := (Rat.cast_le (K := ℝ)).1 (by push_cast; exact h2)
    have hsq : |y 0 * y 0| ≤ 8 / 5 := by rw [abs_mul_self]; nlinarith
    have hR := b64_rounds libm
    have hn := near_round hR (k := 0) (w := y 0 * y 0) (x := y 0 * y 0) (a := 8 / 5) hsq (by simp) (by
      rw [pow_zero, one_mul]; decide +kernel)
    obtain ⟨-, w, hw, hw2⟩ := hn.neg
    have hτ : (2 : ℚ) ^ (-1022 : ℤ) ≤ 1 / 10 := by decide +kernel
    have hd : |w - -(y 0 * y 0)| ≤ 2⁻¹ ^ 50 := by
      refine hw2.trans ?_
      have : (1 + (2⁻¹ : ℚ) ^ 53) ^ (0 + 1) - 1 = 2⁻¹ ^ 53 := by ring
      rw [this]
      calc _ ≤ (2⁻¹ : ℚ) ^ 53 * (8 / 5 + 1 / 10) := by gcongr
        _ ≤ _ := by norm_num
    refine ⟨fun _ => w, ?_, fun i => ⟨?_, ?_⟩⟩
    · refine computeStateDot_unlimited ⟨rfl, rfl, rfl, rfl, rfl, rfl⟩ ?_
      show Except.ok [-(Fl.fin (y 0) * Fl.fin (y 0) : Fl (b64Of libm))] = _
      have e : (Fl.fin (y 0) * Fl.fin (y 0) : Fl (b64Of libm)) = Fl.round (y 0 * y 0) := rfl
      rw [e, hw]
      rfl
    · have : ((|w - -(y 0 * y 0)| : ℚ) : ℝ) ≤ ((2⁻¹ ^ 50 : ℚ) : ℝ) := Rat.cast_le.2 hd
      push_cast at this
      rw [show -((y 0 : ℝ)) ^ 2 = -((y 0 : ℝ) * y 0) by ring, Rat.cast_one, one_mul]
      exact this
    · have h3 := abs_add_le (w - -(y 0 * y 0)) (-(y 0 * y 0))
      rw [sub_add_cancel, abs_neg] at h3
      have : (2⁻¹ : ℚ) ^ 50 ≤ 1 / 10 := by norm_num
      show |w| ≤ _
      linarith
  lipschitz := fun y z e hy hz he i => by
    obtain ⟨h1, h2⟩ := Demo.drag_around hy
    obtain ⟨h3, h4⟩ := Demo.drag_around hz
    have h5 := he 0
    rw [Rat.cast_one, one_mul] at h5 ⊢
    rw [show -(y 0) ^ 2 - -(z 0) ^ 2 = -((y 0 + z 0) * (y 0 - z 0)) by ring, abs_neg, abs_mul, abs_of_nonneg (by linarith : 0 ≤ y 0 + z 0)]
    exact mul_le_mul (by linarith) h5 (abs_nonneg _) (by norm_num)
  speed := fun y hy i => by
    obtain ⟨h1, h2⟩ := Demo.drag_around hy
    rw [abs_neg, abs_of_nonneg (by positivity)]
    push_cast
    nlinarith
  size := fun y hy i => by
    obtain ⟨h1, h2⟩ := Demo.drag_around hy
    rw [Subsingleton.elim i 0, abs_le]
    push_cast
    constructor <;> linarith

/-- A body slowed down by the square of its speed, during a millisecond, meets the hypotheses of both theorems. -/
example (libm : Fmt ℚ) (method : String) : (Demo.dragEntity libm method).dynamics.custom = none ∧
    (∀ U : Fin 0 → ℚ, Integrates (oneStepEnv libm) 1 (2 ^ 100) (1 / 1000) 1
      (fun t y => (Demo.dragEntity libm method).dynamics.computeStateDot t y (toFl U)) (1 / 1000)) ∧
    Follows (m := 0) (oneStepEnv libm) (Demo.dragEntity libm method) (fun _ => 1) (fun _ y _ => -(y 0) ^ 2) (5 / 2) (2⁻¹ ^ 50) (1 / 4) 2 2 [(1 / 1000, .none)]
      (fun _ : Fin 1 => 1) (fun _ => 1000 / 1001) ∧
    Real.exp (5 / 2 * (1 / 1000)) * (0 + (2 * 2⁻¹ ^ 50 + 46 * (5 / 2) * 2 * (1 / 1000)) * (1 / 1000) + 2 * (1 * 1) * (2⁻¹ ^ 48 * (2 + 26 * (1 / 1000) * 2 + 2⁻¹ ^ 500)))
      + 26 * (1 / 1000) * 2 + 2⁻¹ ^ 48 * (2 + 26 * (1 / 1000) * 2 + 2⁻¹ ^ 500) ≤ (1 / 4 : ℝ) := by
  refine ⟨rfl, fun U => oneStepEnv_integrates libm (by norm_num) le_rfl _, ?_, ?_⟩
  · refine ⟨by norm_num, ![], fun t _ => (1 + t)⁻¹, applied_iff.2 ⟨.f64, [], rfl, rfl⟩, Demo.drag_shadows libm method _, ?_, fun s _ => finished_unlimited ⟨rfl, rfl, rfl, rfl, rfl, rfl⟩ s, ?_⟩
    · simp
    · funext i
      norm_num
  · obtain ⟨κ, hκ⟩ : ∃ κ : ℝ, κ = 2⁻¹ ^ 500 := ⟨_, rfl⟩
    have hκ1 : κ ≤ 1 := by rw [hκ]; exact pow_le_one₀ (by norm_num) (by norm_num)
    have hκ0 : 0 ≤ κ := by rw [hκ]; exact pow_nonneg (by norm_num) _
    rw [← hκ]
    have he : Real.exp (5 / 2 * (1 / 1000)) ≤ 3 :=
      (Real.exp_le_exp.2 (show _ ≤ (1 : ℝ) by norm_num)).trans (Real.exp_one_lt_d9.le.trans (by norm_num))
    calc _ ≤ (3 : ℝ) * (0 + (2 * 2⁻¹ ^ 50 + 46 * (5 / 2) * 2 * (1 / 1000)) * (1 / 1000) + 2 * (1 * 1) * (2⁻¹ ^ 48 * (2 + 26 * (1 / 1000) * 2 + 1)))
          + 26 * (1 / 1000) * 2 + 2⁻¹ ^ 48 * (2 + 26 * (1 / 1000) * 2 + 1) := by gcongr
      _ ≤ _ := by norm_num

end SAD
