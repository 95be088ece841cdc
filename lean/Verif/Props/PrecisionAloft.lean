import Verif.Lemmas.Aloft3
import Verif.Props.PrecisionTurning

/-!
# C121: the aircraft in double precision, with RK45 and Euler
-/

set_option linter.unusedSectionVars false

namespace SAD
open Spec

/-- a motion with a heading, with both methods at once -/
theorem heading_run {libm : Fmt ℚ} {n m : ℕ} {env : Env (b64Of libm)} {e : Entity (b64Of libm)} {w : Fin n → ℚ} {j : Fin n}
    {f : (Fin m → ℚ) → (Fin n → ℝ) → Fin n → ℝ} {L X S η : ℚ} {Δ ρ ω ε0 E T : ℝ} {ν : ℕ} (hw : Weights w) (L0 : 0 ≤ L) (hX : 0 ≤ X ∧ ∀ i, w i * X ≤ 2 ^ 30)
    (hX50 : X ≤ 2 ^ 50) (S0 : 0 ≤ S) (hS : S ≤ 2 ^ 49) (Δ0 : 0 ≤ Δ) (ω0 : 0 ≤ ω) {hist : List (ℚ × Action (b64Of libm))} (h0 : ∀ h ∈ hist, 0 ≤ h.1)
    (hcall : ∀ h ∈ hist, ∀ U : Fin m → ℚ, Applied env e h.2 (toFl U) → UserCall env e.dynamics n η ν U h.1) (hν : 1 ≤ ν)
    (hη : 0 ≤ η ∧ η ≤ 2 ^ 50) (hηL : η * L ≤ 1 / 2) (hcu : e.dynamics.custom = none) {s : Fin n → ℚ} (hs : e.state = toFl s) {y z : Fin n → ℝ} (hε0 : 0 ≤ ε0)
    (hy : ∀ i, |s i - y i| ≤ w i * ε0) (hT : T = ((hist.map (·.1)).sum : ℚ)) (hE : E = userB L Δ ((2 * S : ℚ)) X η ω T (hist.length * ν) ε0)
    (hρ : E + 26 * η * ((2 * S : ℚ)) + userR X (2 * S) η ≤ ρ)
    (hup : 0 ≤ ρ → FollowsUpTo env e w f L Δ ρ ω (2 * S) X (fun z' => ∃ k : ℤ, z' = backBy j z k) hist y) :
    ∃ s' : Fin n → ℚ, (e.run env (stepsOf hist)).state = toFl s' ∧ (∀ i, i ≠ j → |s' i - z i| ≤ w i * E) ∧ ∃ k : ℤ, |s' j - (z j - 2 * Real.pi * k)| ≤ w j * E := by
  have US : UserSizes (L : ℝ) Δ (2 * S) X η :=
    ⟨hX.1, hX50.trans (by norm_num), by linarith, by linarith, hη.1, hη.2, by exact_mod_cast L0, Δ0, by
      have : ((η * L : ℚ) : ℝ) ≤ ((1 / 2 : ℚ) : ℝ) := Rat.cast_le.2 hηL
      push_cast at this
      exact this⟩
  have hT0 : 0 ≤ T := by
    rw [hT]
    refine Rat.cast_nonneg.2 (List.sum_nonneg fun x hx => ?_)
    obtain ⟨p, hp, rfl⟩ := List.mem_map.1 hx
    exact h0 p hp
  have hE0 : 0 ≤ E := by
    rw [hE]
    exact userB_nonneg US ω0 hT0 (by positivity) hε0
  have hρ0 : 0 ≤ ρ := by
    obtain ⟨-, -, hD, hη', hr⟩ := US.parts
    have : 0 ≤ 26 * (η : ℝ) * ((2 * S : ℚ)) := by positivity
    linarith
  obtain ⟨s', z', h1, ⟨k, rfl⟩, h2⟩ := user_run (ν := ν) (ω := ω) hw US (fun i => (hX.2 i).trans (by norm_num)) ω0 hν hcu hist
    (fun h hh => ⟨h0 h hh, hcall h hh⟩) s e.stateDot e.dynamics.trajectory e.dynamics.trajectoryT y ε0 hε0 hy (hup hρ0) (by rw [← hT, ← hE]; exact hρ)
  rw [← hT, ← hE] at h2
  refine ⟨s', by rw [← h1, ← hs], fun i hi => ?_, k, ?_⟩
  · have := h2 i
    rwa [backBy_ne hi] at this
  · have := h2 j
    rwa [backBy_self] at this

/-- An aircraft in the plane simulated with RK45 in IEEE double precision, after any earlier operations, with a sine and cosine off by at most `δ`. `y` is within `ε0` of
the state at the start, and `z` the end of the exact flight from `y`. The solver is any Dormand-Prince solver that divides each call in at most `ν` steps of at most `η`
seconds; calls last at most `H` seconds. Then the state ends within `E` of `z`, the heading up to whole turns. -/
theorem C121_2d_rk45 {libm : Fmt ℚ} (env : Env (b64Of libm)) (args : Dubins2dArgs (b64Of libm)) (e0 e : Entity (b64Of libm)) (h0 : newDubins2d env args = .ok e0)
    (hmeth : args.integrationMethod = "RK45") (ops : List (Op (b64Of libm))) (he : e = e0.run env ops)
    (lo hi : ℚ) (hlo : args.vMin.cast32 = .fin lo) (hhi : args.vMax.cast32 = .fin hi)
    (w : Fin 4 → ℚ) (L X M : ℚ) (Z : AloftUnits2 w L X M) (hLX : L * X + M ≤ 2 ^ 49) (hX : X ≤ 2 ^ 50)
    (δ : ℝ) (hlibm : TrigWithin libm (w 2 * X) δ) (hδ : 0 ≤ δ ∧ δ ≤ 1 / 2) (hist : List (ℚ × Action (b64Of libm))) (ρ ε0 E T D Δ : ℝ) (η H : ℚ) (ν : ℕ)
    (hH : ∀ h ∈ hist, h.1 ≤ H) (hX2 : 7 + w 2 * M * H ≤ w 2 * X)
    (hint : ∀ h ∈ hist, ∀ U : Fin 2 → ℚ, Applied env e h.2 (toFl U) →
      Integrates env 4 (2 ^ 100) η ν (fun t y => e.dynamics.computeStateDot t y (toFl U)) h.1) (hν : 1 ≤ ν)
    (hη : 0 ≤ η ∧ η ≤ 2 ^ 50) (hηL : η * L ≤ 1 / 2)
    (s : Fin 4 → ℚ) (hs : e.state = toFl s) (y z : Fin 4 → ℝ) (hε0 : 0 ≤ ε0) (hy : ∀ i, |s i - y i| ≤ w i * ε0) (hy2 : |y 2| ≤ 6)
    (hF : MovesUnder env e aloft2 (AloftRoom2 w lo hi ρ X M) hist y z) (hT : T = ((hist.map (·.1)).sum : ℚ))
    (hD : D = 2 * (L * X + M)) (hΔ : Δ = (2⁻¹ ^ 50 + δ) * (L * X + M))
    (hE : E = Real.exp (L * T) * (ε0 + (2 * Δ + 46 * L * D * η) * T +
      hist.length * ν * (2 * (2⁻¹ ^ 48 * (X + 26 * η * D + 2⁻¹ ^ 500)) + 2⁻¹ ^ 50 * (X + 20 / w 2))))
    (hρ : E + 26 * η * D + 2⁻¹ ^ 48 * (X + 26 * η * D + 2⁻¹ ^ 500) ≤ ρ) (hρ2 : w 2 * ρ ≤ 1) :
    ∃ s' : Fin 4 → ℚ, (e.run env (stepsOf hist)).state = toFl s' ∧ (∀ i, i ≠ 2 → |s' i - z i| ≤ w i * E) ∧ ∃ k : ℤ, |s' 2 - (z 2 - 2 * Real.pi * k)| ≤ w 2 * E := by
  obtain ⟨hd, hm', -⟩ := dubins2d_flyer (env' := env) h0 hlo hhi ops
  rw [← he] at hd hm'
  rw [hmeth] at hm'
  obtain ⟨L0, M0, L0R, X0R, M0R, -⟩ := Z.real
  have wp := Z.weights.cast_pos 2
  have X0 := Z.size.1
  have eD : D = ((2 * (L * X + M) : ℚ)) := by rw [hD]; push_cast; ring
  refine heading_run (j := 2) (f := aloft2) (Δ := (2⁻¹ ^ 50 + δ) * (L * X + M)) (ω := 2⁻¹ ^ 50 * (X + 20 / w 2)) (ν := ν) (ρ := ρ) (S := L * X + M) Z.weights L0 Z.size hX
    (by positivity) hLX (mul_nonneg (by linarith [hδ.1, (by positivity : (0 : ℝ) ≤ 2⁻¹ ^ 50)]) (by positivity)) (by positivity) hF.nonneg
    (fun h hh U hU => .inl ⟨hm', hint h hh U hU⟩) hν hη hηL hd.custom hs hε0 hy hT ?_ ?_ fun hρ0 => ?_
  · rw [hE, userB_eq, hΔ, eD]
  · rw [userR_eq, ← eD]
    exact hρ
  · exact hd.upTo Z hlibm hδ.1 hδ.2 hρ0 hρ2 hX2 hH hF hy2

/-- The same with Euler: calls of at most `η` seconds. -/
theorem C121_2d_euler {libm : Fmt ℚ} (env : Env (b64Of libm)) (args : Dubins2dArgs (b64Of libm)) (e0 e : Entity (b64Of libm)) (h0 : newDubins2d env args = .ok e0)
    (hmeth : args.integrationMethod = "Euler") (hsamp : args.trajectorySamples = some 0) (ops : List (Op (b64Of libm))) (he : e = e0.run env ops)
    (lo hi : ℚ) (hlo : args.vMin.cast32 = .fin lo) (hhi : args.vMax.cast32 = .fin hi)
    (w : Fin 4 → ℚ) (L X M : ℚ) (Z : AloftUnits2 w L X M) (hLX : L * X + M ≤ 2 ^ 49) (hX : X ≤ 2 ^ 50)
    (δ : ℝ) (hlibm : TrigWithin libm (w 2 * X) δ) (hδ : 0 ≤ δ ∧ δ ≤ 1 / 2) (hist : List (ℚ × Action (b64Of libm))) (ρ ε0 E T D Δ : ℝ) (η : ℚ)
    (hH : ∀ h ∈ hist, h.1 ≤ η) (hX2 : 7 + w 2 * M * η ≤ w 2 * X) (hη : 0 ≤ η ∧ η ≤ 2 ^ 50) (hηL : η * L ≤ 1 / 2)
    (s : Fin 4 → ℚ) (hs : e.state = toFl s) (y z : Fin 4 → ℝ) (hε0 : 0 ≤ ε0) (hy : ∀ i, |s i - y i| ≤ w i * ε0) (hy2 : |y 2| ≤ 6)
    (hF : MovesUnder env e aloft2 (AloftRoom2 w lo hi ρ X M) hist y z) (hT : T = ((hist.map (·.1)).sum : ℚ))
    (hD : D = 2 * (L * X + M)) (hΔ : Δ = (2⁻¹ ^ 50 + δ) * (L * X + M))
    (hE : E = Real.exp (L * T) * (ε0 + (2 * Δ + 46 * L * D * η) * T +
      hist.length * (2 * (2⁻¹ ^ 48 * (X + 26 * η * D + 2⁻¹ ^ 500)) + 2⁻¹ ^ 50 * (X + 20 / w 2))))
    (hρ : E + 26 * η * D + 2⁻¹ ^ 48 * (X + 26 * η * D + 2⁻¹ ^ 500) ≤ ρ) (hρ2 : w 2 * ρ ≤ 1) :
    ∃ s' : Fin 4 → ℚ, (e.run env (stepsOf hist)).state = toFl s' ∧ (∀ i, i ≠ 2 → |s' i - z i| ≤ w i * E) ∧ ∃ k : ℤ, |s' 2 - (z 2 - 2 * Real.pi * k)| ≤ w 2 * E := by
  obtain ⟨hd, hm', hsm'⟩ := dubins2d_flyer (env' := env) h0 hlo hhi ops
  rw [← he] at hd hm' hsm'
  rw [hmeth] at hm'
  rw [hsamp] at hsm'
  obtain ⟨L0, M0, L0R, X0R, M0R, -⟩ := Z.real
  have wp := Z.weights.cast_pos 2
  have X0 := Z.size.1
  have eD : D = ((2 * (L * X + M) : ℚ)) := by rw [hD]; push_cast; ring
  refine heading_run (j := 2) (f := aloft2) (Δ := (2⁻¹ ^ 50 + δ) * (L * X + M)) (ω := 2⁻¹ ^ 50 * (X + 20 / w 2)) (ν := 1) (ρ := ρ) (S := L * X + M) Z.weights L0 Z.size hX
    (by positivity) hLX (mul_nonneg (by linarith [hδ.1, (by positivity : (0 : ℝ) ≤ 2⁻¹ ^ 50)]) (by positivity)) (by positivity) hF.nonneg
    (fun h hh U hU => .inr ⟨hm', (Option.some.inj hsm').le, hH h hh⟩) le_rfl hη hηL hd.custom hs hε0 hy hT ?_ ?_ fun hρ0 => ?_
  · rw [hE, userB_eq, hΔ, eD, Nat.cast_one, mul_one]
  · rw [userR_eq, ← eD]
    exact hρ
  · exact hd.upTo Z hlibm hδ.1 hδ.2 hρ0 hρ2 hX2 hH hF hy2

/-- The aircraft in space simulated with RK45 in IEEE double precision, after any earlier operations, with a sine, cosine and tangent off by at most `δ`. Flight path
angle and roll are limited to ±2 at most, and the flight keeps to rolls of at most `r` and speeds of at least `v`. Then the state ends within `E` of the end `z` of the exact
flight, the heading up to whole turns. -/
theorem C121_3d_rk45 {libm : Fmt ℚ} (env : Env (b64Of libm)) (args : Dubins3dArgs (b64Of libm)) (e0 e : Entity (b64Of libm)) (h0 : newDubins3d env args = .ok e0)
    (hmeth : args.integrationMethod = "RK45") (ops : List (Op (b64Of libm))) (he : e = e0.run env ops) (l : AloftLimits)
    (hlo : args.gammaMin.cast32 = .fin (l.lo 0) ∧ args.rollMin.cast32 = .fin (l.lo 1) ∧ args.vMin.cast32 = .fin (l.lo 2))
    (hhi : args.gammaMax.cast32 = .fin (l.hi 0) ∧ args.rollMax.cast32 = .fin (l.hi 1) ∧ args.vMax.cast32 = .fin (l.hi 2))
    (hl : -2 ≤ l.lo 0 ∧ l.hi 0 ≤ 2 ∧ -2 ≤ l.lo 1 ∧ l.hi 1 ≤ 2) (w : Fin 7 → ℚ) (L X M v t : ℚ) (r : ℝ) (hr : r < Real.pi / 2) (ht : Real.tan r ≤ t)
    (Z : AloftUnits3 w L X M v t) (hLX : L * X + M ≤ 2 ^ 49) (hX : X ≤ 2 ^ 50)
    (δ : ℝ) (hlibm : TrigWithin libm (w 3 * X) δ) (hlibm' : TrigWithin libm (w 4 * X) δ) (htan : Tangent libm r δ) (hδ : 0 ≤ δ ∧ δ ≤ 1 / 8)
    (hist : List (ℚ × Action (b64Of libm))) (ρ ε0 E T D Δ ω : ℝ) (η H : ℚ) (ν : ℕ) (hH : ∀ h ∈ hist, h.1 ≤ H) (hX3 : 7 + w 3 * M * H ≤ w 3 * X)
    (hint : ∀ h ∈ hist, ∀ U : Fin 3 → ℚ, Applied env e h.2 (toFl U) →
      Integrates env 7 (2 ^ 100) η ν (fun t y => e.dynamics.computeStateDot t y (toFl U)) h.1) (hν : 1 ≤ ν)
    (hη : 0 ≤ η ∧ η ≤ 2 ^ 50) (hηL : η * L ≤ 1 / 2)
    (s : Fin 7 → ℚ) (hs : e.state = toFl s) (y z : Fin 7 → ℝ) (hε0 : 0 ≤ ε0) (hy : ∀ i, |s i - y i| ≤ w i * ε0) (hy3 : |y 3| ≤ 6)
    (hF : MovesUnder env e aloft3 (AloftRoom3 w l ρ r X M v) hist y z) (hT : T = ((hist.map (·.1)).sum : ℚ))
    (hD : D = 2 * (L * X + M)) (hΔ : Δ = (2⁻¹ ^ 49 + 3 * δ) * (L * X + M)) (hω : ω = 2⁻¹ ^ 50 * (X + 20 / w 3 + 20 / w 4 + 20 / w 5))
    (hE : E = Real.exp (L * T) * (ε0 + (2 * Δ + 46 * L * D * η) * T + hist.length * ν * (2 * (2⁻¹ ^ 48 * (X + 26 * η * D + 2⁻¹ ^ 500)) + ω)))
    (hρ : E + 26 * η * D + 2⁻¹ ^ 48 * (X + 26 * η * D + 2⁻¹ ^ 500) ≤ ρ) (hρ3 : w 3 * ρ ≤ 1) :
    ∃ s' : Fin 7 → ℚ, (e.run env (stepsOf hist)).state = toFl s' ∧ (∀ i, i ≠ 3 → |s' i - z i| ≤ w i * E) ∧ ∃ k : ℤ, |s' 3 - (z 3 - 2 * Real.pi * k)| ≤ w 3 * E := by
  obtain ⟨hd, hm', -⟩ := dubins3d_flyer (env' := env) h0 hlo hhi ops
  rw [← he] at hd hm'
  rw [hmeth] at hm'
  obtain ⟨M0, X0R, M0R, -⟩ := Z.real
  obtain ⟨L0, L0R⟩ := Z.lip0
  have wp := Z.weights.cast_pos
  have w3 := wp 3
  have w4 := wp 4
  have w5 := wp 5
  have X0 := Z.size.1
  have eD : D = ((2 * (L * X + M) : ℚ)) := by rw [hD]; push_cast; ring
  refine heading_run (j := 3) (f := aloft3) (Δ := (2⁻¹ ^ 49 + 3 * δ) * (L * X + M)) (ω := ω) (ν := ν) (ρ := ρ) (S := L * X + M) Z.weights L0 Z.size hX
    (by positivity) hLX (mul_nonneg (by linarith [hδ.1, (by positivity : (0 : ℝ) ≤ 2⁻¹ ^ 49)]) (by positivity)) (by rw [hω]; positivity) hF.nonneg
    (fun h hh U hU => .inl ⟨hm', hint h hh U hU⟩) hν hη hηL hd.custom hs hε0 hy hT ?_ ?_ fun hρ0 => ?_
  · rw [hE, userB_eq, hΔ, eD]
  · rw [userR_eq, ← eD]
    exact hρ
  · exact hd.upTo Z hr ht hl hlibm hlibm' htan hδ.1 hδ.2 hρ0 hρ3 hX3 hω hH hF hy3

/-- The same with Euler: calls of at most `η` seconds. -/
theorem C121_3d_euler {libm : Fmt ℚ} (env : Env (b64Of libm)) (args : Dubins3dArgs (b64Of libm)) (e0 e : Entity (b64Of libm)) (h0 : newDubins3d env args = .ok e0)
    (hmeth : args.integrationMethod = "Euler") (hsamp : args.trajectorySamples = some 0) (ops : List (Op (b64Of libm))) (he : e = e0.run env ops) (l : AloftLimits)
    (hlo : args.gammaMin.cast32 = .fin (l.lo 0) ∧ args.rollMin.cast32 = .fin (l.lo 1) ∧ args.vMin.cast32 = .fin (l.lo 2))
    (hhi : args.gammaMax.cast32 = .fin (l.hi 0) ∧ args.rollMax.cast32 = .fin (l.hi 1) ∧ args.vMax.cast32 = .fin (l.hi 2))
    (hl : -2 ≤ l.lo 0 ∧ l.hi 0 ≤ 2 ∧ -2 ≤ l.lo 1 ∧ l.hi 1 ≤ 2) (w : Fin 7 → ℚ) (L X M v t : ℚ) (r : ℝ) (hr : r < Real.pi / 2) (ht : Real.tan r ≤ t)
    (Z : AloftUnits3 w L X M v t) (hLX : L * X + M ≤ 2 ^ 49) (hX : X ≤ 2 ^ 50)
    (δ : ℝ) (hlibm : TrigWithin libm (w 3 * X) δ) (hlibm' : TrigWithin libm (w 4 * X) δ) (htan : Tangent libm r δ) (hδ : 0 ≤ δ ∧ δ ≤ 1 / 8)
    (hist : List (ℚ × Action (b64Of libm))) (ρ ε0 E T D Δ ω : ℝ) (η : ℚ) (hH : ∀ h ∈ hist, h.1 ≤ η) (hX3 : 7 + w 3 * M * η ≤ w 3 * X)
    (hη : 0 ≤ η ∧ η ≤ 2 ^ 50) (hηL : η * L ≤ 1 / 2)
    (s : Fin 7 → ℚ) (hs : e.state = toFl s) (y z : Fin 7 → ℝ) (hε0 : 0 ≤ ε0) (hy : ∀ i, |s i - y i| ≤ w i * ε0) (hy3 : |y 3| ≤ 6)
    (hF : MovesUnder env e aloft3 (AloftRoom3 w l ρ r X M v) hist y z) (hT : T = ((hist.map (·.1)).sum : ℚ))
    (hD : D = 2 * (L * X + M)) (hΔ : Δ = (2⁻¹ ^ 49 + 3 * δ) * (L * X + M)) (hω : ω = 2⁻¹ ^ 50 * (X + 20 / w 3 + 20 / w 4 + 20 / w 5))
    (hE : E = Real.exp (L * T) * (ε0 + (2 * Δ + 46 * L * D * η) * T + hist.length * (2 * (2⁻¹ ^ 48 * (X + 26 * η * D + 2⁻¹ ^ 500)) + ω)))
    (hρ : E + 26 * η * D + 2⁻¹ ^ 48 * (X + 26 * η * D + 2⁻¹ ^ 500) ≤ ρ) (hρ3 : w 3 * ρ ≤ 1) :
    ∃ s' : Fin 7 → ℚ, (e.run env (stepsOf hist)).state = toFl s' ∧ (∀ i, i ≠ 3 → |s' i - z i| ≤ w i * E) ∧ ∃ k : ℤ, |s' 3 - (z 3 - 2 * Real.pi * k)| ≤ w 3 * E := by
  obtain ⟨hd, hm', hsm'⟩ := dubins3d_flyer (env' := env) h0 hlo hhi ops
  rw [← he] at hd hm' hsm'
  rw [hmeth] at hm'
  rw [hsamp] at hsm'
  obtain ⟨M0, X0R, M0R, -⟩ := Z.real
  obtain ⟨L0, L0R⟩ := Z.lip0
  have wp := Z.weights.cast_pos
  have w3 := wp 3
  have w4 := wp 4
  have w5 := wp 5
  have X0 := Z.size.1
  have eD : D = ((2 * (L * X + M) : ℚ)) := by rw [hD]; push_cast; ring
  refine heading_run (j := 3) (f := aloft3) (Δ := (2⁻¹ ^ 49 + 3 * δ) * (L * X + M)) (ω := ω) (ν := 1) (ρ := ρ) (S := L * X + M) Z.weights L0 Z.size hX
    (by positivity) hLX (mul_nonneg (by linarith [hδ.1, (by positivity : (0 : ℝ) ≤ 2⁻¹ ^ 49)]) (by positivity)) (by rw [hω]; positivity) hF.nonneg
    (fun h hh U hU => .inr ⟨hm', (Option.some.inj hsm').le, hH h hh⟩) le_rfl hη hηL hd.custom hs hε0 hy hT ?_ ?_ fun hρ0 => ?_
  · rw [hE, userB_eq, hΔ, eD, Nat.cast_one, mul_one]
  · rw [userR_eq, ← eD]
    exact hρ
  · exact hd.upTo Z hr ht hl hlibm hlibm' htan hδ.1 hδ.2 hρ0 hρ3 hX3 hω hH hF hy3

/-- a libm with a sine, a cosine and a tangent as accurate as one likes -/
theorem Demo.trigTan (δ : ℝ) (hδ : 0 < δ) : ∃ libm : Fmt ℚ, (∀ A, TrigWithin libm A δ) ∧ ∀ r, Tangent libm r δ := by
  have near : ∀ r : ℝ, ∃ q : ℚ, |(q : ℝ) - r| ≤ δ := fun r => by
    obtain ⟨q, h1, h2⟩ := exists_rat_btwn (show r - δ < r by linarith)
    exact ⟨q, by rw [abs_le]; constructor <;> linarith⟩
  have near1 : ∀ r : ℝ, |r| ≤ 1 → ∃ q : ℚ, |q| ≤ 1 ∧ |(q : ℝ) - r| ≤ δ := fun r hr => by
    obtain ⟨q, h1, h2⟩ := exists_rat_btwn (show r - δ < r by linarith)
    obtain ⟨r1, r2⟩ := abs_le.1 hr
    refine ⟨max q (-1), abs_le.2 ⟨le_max_right _ _, max_le ?_ (by norm_num)⟩, ?_⟩
    · have : (q : ℝ) ≤ ((1 : ℚ) : ℝ) := by push_cast; linarith
      exact_mod_cast this
    · rw [abs_le]
      push_cast
      constructor
      · linarith [le_max_left (q : ℝ) (-1)]
      · linarith [max_le h2.le r1]
  choose f hf using fun x : ℚ => near1 _ (Real.abs_sin_le_one x)
  choose g hg using fun x : ℚ => near1 _ (Real.abs_cos_le_one x)
  choose k hk using fun x : ℚ => near (Real.tan x)
  exact ⟨{ ratFmt with sin := f, cos := g, tan := k }, fun A x _ => ⟨(hf x).1, (hg x).1, (hf x).2, (hg x).2⟩, fun r x _ => hk x⟩

/-- the error bound of the examples -/
theorem Demo.aloft_bound {E δ a b : ℝ} (ha : 0 ≤ a) (ha1 : a ≤ 1000) (hb : 0 ≤ b) (hb1 : b ≤ 1000) (hδ : δ = 2⁻¹ ^ 50)
    (hE : E = Real.exp (1 * (1 / 65536)) * (0 + (2 * ((2⁻¹ ^ 49 + 3 * δ) * 17) + 46 * 1 * (2 * 17) * (1 / 65536)) * (1 / 65536) +
      1 * (2 * (2⁻¹ ^ 48 * (16 + 26 * (1 / 65536) * (2 * 17) + 2⁻¹ ^ 500)) + 2⁻¹ ^ 50 * (16 + a + b)))) :
    E ≤ 1 / 2097152 ∧ E + 26 * (1 / 65536) * (2 * 17) + 2⁻¹ ^ 48 * (16 + 26 * (1 / 65536) * (2 * 17) + 2⁻¹ ^ 500) ≤ 1 := by
  obtain ⟨κ, hκ⟩ : ∃ κ : ℝ, κ = 2⁻¹ ^ 500 := ⟨_, rfl⟩
  have hκ1 : κ ≤ 1 := by rw [hκ]; exact pow_le_one₀ (by norm_num) (by norm_num)
  have hκ0 : 0 ≤ κ := by rw [hκ]; exact pow_nonneg (by norm_num) _
  rw [← hκ] at hE ⊢
  have he : Real.exp (1 * (1 / 65536)) ≤ 101 / 100 := by
    have h1 := Real.exp_bound_div_one_sub_of_interval (x := 1 / 65536) (by norm_num) (by norm_num)
    rw [one_mul]
    exact h1.trans (by norm_num)
  have h1 : E ≤ 1 / 2097152 := by
    rw [hE, hδ]
    calc _ ≤ (101 / 100 : ℝ) * (0 + (2 * ((2⁻¹ ^ 49 + 3 * 2⁻¹ ^ 50) * 17) + 46 * 1 * (2 * 17) * (1 / 65536)) * (1 / 65536) +
          1 * (2 * (2⁻¹ ^ 48 * (16 + 26 * (1 / 65536) * (2 * 17) + 1)) + 2⁻¹ ^ 50 * (16 + 1000 + 1000))) := by gcongr
      _ ≤ _ := by norm_num
  refine ⟨h1, ?_⟩
  have h2 : (2⁻¹ : ℝ) ^ 48 * (16 + 26 * (1 / 65536) * (2 * 17) + κ) ≤ 2⁻¹ ^ 48 * (16 + 26 * (1 / 65536) * (2 * 17) + 1) := by gcongr
  have h3 : (2⁻¹ : ℝ) ^ 48 * (16 + 26 * (1 / 65536) * (2 * 17) + 1) ≤ 1 / 100 := by norm_num
  linarith

theorem Demo.cast {libm : Fmt ℚ} {q : ℚ} (hq : rndBin 24 (-126) 127 q = .val q) : (Fl.fin q : Fl (b64Of libm)).cast32 = .fin q := by
  show Fl.ofExt (rndBin 24 (-126) 127 q) = _
  rw [hq]
  rfl

def Demo.flyArgs2 (libm : Fmt ℚ) (method : String) : Dubins2dArgs (b64Of libm) where
  integrationMethod := method
  vMin := .fin 200
  vMax := .fin 400
  headingRateMin := .fin (-1)
  headingRateMax := .fin 1
  accMin := .fin (-96)
  accMax := .fin 96
  kwargs := [("name", .str "a")]

theorem Demo.aloft2Units : AloftUnits2 ![1024, 1024, 1, 32] 1 16 1 where
  weights := fun i => by fin_cases i <;> simp <;> norm_num
  size := ⟨by norm_num, fun i => by fin_cases i <;> simp <;> norm_num⟩
  lip := by
    simp only [Matrix.cons_val]
    norm_num
  rates := fun i => by fin_cases i <;> simp <;> norm_num

/-- flying a circle of radius 2400 ft -/
noncomputable def Demo.circle (t : ℝ) : Fin 4 → ℝ := ![2400 * Real.sin (1 / 8 * t), 2400 * (1 - Real.cos (1 / 8 * t)), 1 / 8 * t, 300]

/-- An aircraft at 300 ft/s turns at 1/8 rad/s for 1/65536 s, which takes it 0.0046 ft forward: with either method it ends within 0.0005 ft of the circle. -/
example (method : String) (hm : method = "RK45" ∨ method = "Euler") : ∃ (libm : Fmt ℚ) (e0 : Entity (b64Of libm)),
    newDubins2d (oneStepEnv libm) (Demo.flyArgs2 libm method) = .ok e0 ∧ ∃ s' : Fin 4 → ℚ,
      ((e0.run (oneStepEnv libm) [.setState (toFl ![0, 0, 0, 300])]).run (oneStepEnv libm) (stepsOf [(1 / 65536, .ndarray .f64 [.fin (1 / 8), .fin 0])])).state = toFl s' ∧
      |(s' 0 : ℝ) - 2400 * Real.sin (1 / 8 * (1 / 65536))| ≤ 1024 * (1 / 2097152) := by
  obtain ⟨libm, hlibm, -⟩ := Demo.trigTan (2⁻¹ ^ 50) (by positivity)
  have h0 : ∃ e0 : Entity (b64Of libm), newDubins2d (oneStepEnv libm) (Demo.flyArgs2 libm method) = .ok e0 := ⟨_, rfl⟩
  obtain ⟨e0, h0⟩ := h0
  refine ⟨libm, e0, h0, ?_⟩
  obtain ⟨-, -, -, -, -, -, -, -, -, -, -, c1, c2, -⟩ := dubins2d_config h0
  have hst : (e0.run (oneStepEnv libm) [.setState (toFl ![0, 0, 0, 300])]).state = toFl ![0, 0, 0, 300] := by
    cases h0
    rfl
  have hF : MovesUnder (oneStepEnv libm) (e0.run (oneStepEnv libm) [.setState (toFl ![0, 0, 0, 300])]) aloft2 (AloftRoom2 ![1024, 1024, 1, 32] 200 400 1 16 1)
      [(1 / 65536, .ndarray .f64 [.fin (1 / 8), .fin 0])] (Demo.circle 0) (Demo.circle (1 / 65536)) := by
    refine ⟨by norm_num, ![1 / 8, 0], Demo.circle, (applied_config (run_sameConfig _ _ _)).2 (applied_of (ty := .f64) (u := [.fin (1 / 8), .fin 0]) rfl ?_), ?_, rfl, ?_⟩
    · rw [c1, c2]
      simp [npClip, bcast2, Arr.forDType, Arr.toVec, Demo.flyArgs2, npMax_fin, npMin_fin, bind, Except.bind, toFl]
      norm_num
    · intro t _
      have hid := (hasDerivAt_id t).const_mul (1 / 8 : ℝ)
      refine ⟨hasDerivWithinAt_pi.2 fun i => HasDerivAt.hasDerivWithinAt ?_, ?_, ?_, ?_, ?_⟩
      · fin_cases i
        · refine (hid.sin.const_mul 2400).congr_deriv ?_
          simp [aloft2, Demo.circle]
          ring
        · refine ((hid.cos.const_sub 1).const_mul 2400).congr_deriv ?_
          simp [aloft2, Demo.circle]
          ring
        · exact hid.congr_deriv (by simp [aloft2])
        · exact (hasDerivAt_const t (300 : ℝ)).congr_deriv (by simp [aloft2])
      · simp only [Matrix.cons_val]
        norm_num [abs_of_pos]
      · simp only [Matrix.cons_val]
        norm_num
      · intro i hi
        have s1 := Real.abs_sin_le_one (1 / 8 * t)
        have s2 := Real.abs_cos_le_one (1 / 8 * t)
        rw [abs_le] at s1 s2
        fin_cases i
        · show |2400 * Real.sin (1 / 8 * t)| + ((1024 : ℚ) : ℝ) * 1 ≤ ((1024 : ℚ) : ℝ) * ((16 : ℚ) : ℝ)
          have : |2400 * Real.sin (1 / 8 * t)| ≤ 4800 := abs_le.2 ⟨by linarith, by linarith⟩
          push_cast
          linarith
        · show |2400 * (1 - Real.cos (1 / 8 * t))| + ((1024 : ℚ) : ℝ) * 1 ≤ ((1024 : ℚ) : ℝ) * ((16 : ℚ) : ℝ)
          have : |2400 * (1 - Real.cos (1 / 8 * t))| ≤ 4800 := abs_le.2 ⟨by linarith, by linarith⟩
          push_cast
          linarith
        · exact absurd rfl hi
        · show |(300 : ℝ)| + ((32 : ℚ) : ℝ) * 1 ≤ ((32 : ℚ) : ℝ) * ((16 : ℚ) : ℝ)
          norm_num
      · left
        show ((200 : ℚ) : ℝ) + ((32 : ℚ) : ℝ) * 1 < 300 ∧ (300 : ℝ) + ((32 : ℚ) : ℝ) * 1 < ((400 : ℚ) : ℝ)
        norm_num
    · show Demo.circle (1 / 65536) = Demo.circle (((1 / 65536 : ℚ)) : ℝ)
      norm_num
  have hy : ∀ i, |((![0, 0, 0, 300] : Fin 4 → ℚ) i : ℝ) - Demo.circle 0 i| ≤ (![1024, 1024, 1, 32] : Fin 4 → ℚ) i * 0 := fun i => by
    fin_cases i <;> simp [Demo.circle]
  obtain ⟨E, hE⟩ : ∃ E, E = Real.exp (1 * (1 / 65536)) * (0 + (2 * ((2⁻¹ ^ 50 + 2⁻¹ ^ 50) * 17) + 46 * 1 * (2 * 17) * (1 / 65536)) * (1 / 65536) +
      1 * (2 * (2⁻¹ ^ 48 * (16 + 26 * (1 / 65536) * (2 * 17) + 2⁻¹ ^ 500)) + 2⁻¹ ^ 50 * ((16 : ℝ) + 20))) := ⟨_, rfl⟩
  have hb : E ≤ 1 / 2097152 ∧ E + 26 * (1 / 65536) * (2 * 17) + 2⁻¹ ^ 48 * (16 + 26 * (1 / 65536) * (2 * 17) + 2⁻¹ ^ 500) ≤ 1 := by
    obtain ⟨q1, q2⟩ := Demo.aloft_bound (a := 20) (b := 0) (by norm_num) (by norm_num) le_rfl (by norm_num) rfl rfl
    have q3 : E ≤ Real.exp (1 * (1 / 65536)) * (0 + (2 * ((2⁻¹ ^ 49 + 3 * 2⁻¹ ^ 50) * 17) + 46 * 1 * (2 * 17) * (1 / 65536)) * (1 / 65536) +
      1 * (2 * (2⁻¹ ^ 48 * (16 + 26 * (1 / 65536) * (2 * 17) + 2⁻¹ ^ 500)) + 2⁻¹ ^ 50 * (16 + 20 + 0))) := by
        rw [hE]
        refine mul_le_mul_of_nonneg_left ?_ (Real.exp_pos _).le
        obtain ⟨κ, hκ⟩ : ∃ κ : ℝ, κ = 2⁻¹ ^ 500 := ⟨_, rfl⟩
        rw [← hκ]
        norm_num
    exact ⟨q3.trans q1, by linarith⟩
  have wrap : ∀ s' : Fin 4 → ℚ, (∀ i, i ≠ 2 → |s' i - Demo.circle (1 / 65536) i| ≤ (![1024, 1024, 1, 32] : Fin 4 → ℚ) i * E) →
      |(s' 0 : ℝ) - 2400 * Real.sin (1 / 8 * (1 / 65536))| ≤ 1024 * (1 / 2097152) := fun s' h => by
    have := h 0 (by decide)
    change |(s' 0 : ℝ) - 2400 * Real.sin (1 / 8 * (1 / 65536))| ≤ ((1024 : ℚ) : ℝ) * E at this
    push_cast at this
    linarith [hb.1]
  have v1 : (Demo.flyArgs2 libm method).vMin.cast32 = .fin 200 := Demo.cast (by decide +kernel)
  have v2 : (Demo.flyArgs2 libm method).vMax.cast32 = .fin 400 := Demo.cast (by decide +kernel)
  rcases hm with rfl | rfl
  · obtain ⟨s', h1, h2, -⟩ := C121_2d_rk45 (oneStepEnv libm) _ e0 _ h0 rfl [.setState (toFl ![0, 0, 0, 300])] rfl 200 400 v1 v2 _ 1 16 1 Demo.aloft2Units
      (by norm_num) (by norm_num) (2⁻¹ ^ 50) (hlibm _) ⟨by positivity, by norm_num⟩ [(1 / 65536, .ndarray .f64 [.fin (1 / 8), .fin 0])] 1 0 E (1 / 65536) (2 * 17)
      ((2⁻¹ ^ 50 + 2⁻¹ ^ 50) * 17) (1 / 65536) (1 / 65536) 1 (by simp) (by simp; norm_num)
      (by simp only [List.mem_singleton, forall_eq]; exact fun U _ => oneStepEnv_integrates libm (by norm_num) le_rfl _) le_rfl (by norm_num) (by norm_num)
      _ hst _ _ le_rfl hy (by simp [Demo.circle]) hF (by simp) (by norm_num) (by norm_num) (by rw [hE]; simp) (by push_cast; exact hb.2) (by simp)
    exact ⟨s', h1, wrap s' h2⟩
  · obtain ⟨s', h1, h2, -⟩ := C121_2d_euler (oneStepEnv libm) _ e0 _ h0 rfl rfl [.setState (toFl ![0, 0, 0, 300])] rfl 200 400 v1 v2 _ 1 16 1 Demo.aloft2Units
      (by norm_num) (by norm_num) (2⁻¹ ^ 50) (hlibm _) ⟨by positivity, by norm_num⟩ [(1 / 65536, .ndarray .f64 [.fin (1 / 8), .fin 0])] 1 0 E (1 / 65536) (2 * 17)
      ((2⁻¹ ^ 50 + 2⁻¹ ^ 50) * 17) (1 / 65536) (by simp) (by simp; norm_num) (by norm_num) (by norm_num)
      _ hst _ _ le_rfl hy (by simp [Demo.circle]) hF (by simp) (by norm_num) (by norm_num) (by rw [hE]; simp) (by push_cast; exact hb.2) (by simp)
    exact ⟨s', h1, wrap s' h2⟩

def Demo.flyArgs3 (libm : Fmt ℚ) (method : String) : Dubins3dArgs (b64Of libm) where
  integrationMethod := method
  vMin := .fin 200
  vMax := .fin 400
  gammaMin := .fin (-1 / 2)
  gammaMax := .fin (1 / 2)
  rollMin := .fin (-1 / 2)
  rollMax := .fin (1 / 2)
  gammaRateMin := .fin (-1)
  gammaRateMax := .fin 1
  rollRateMin := .fin (-1)
  rollRateMax := .fin 1
  accMin := .fin (-96)
  accMax := .fin 96
  kwargs := [("name", .str "a")]

def Demo.aloft3W : Fin 7 → ℚ := ![1024, 1024, 1024, 1, 1 / 8, 1 / 8, 32]

theorem Demo.aloft3Units : AloftUnits3 Demo.aloft3W 1 16 1 100 1 where
  weights := fun i => by fin_cases i <;> simp [Demo.aloft3W] <;> norm_num
  size := ⟨by norm_num, fun i => by fin_cases i <;> simp [Demo.aloft3W] <;> norm_num⟩
  lip := by
    simp only [Demo.aloft3W, Matrix.cons_val]
    norm_num
  slow := by
    simp only [Demo.aloft3W, Matrix.cons_val]
    norm_num
  rates := fun i => by fin_cases i <;> simp [Demo.aloft3W] <;> norm_num

/-- the limits of the example -/
def Demo.aloftLimits : AloftLimits := ⟨![-1 / 2, -1 / 2, 200], ![1 / 2, 1 / 2, 400]⟩

/-- pulling up into a loop of radius 4800 ft -/
noncomputable def Demo.loop (t : ℝ) : Fin 7 → ℝ := ![4800 * Real.sin (1 / 16 * t), 0, -(4800 * (1 - Real.cos (1 / 16 * t))), 0, 1 / 16 * t, 0, 300]

theorem Demo.loop_moves {libm : Fmt ℚ} {method : String} {e0 : Entity (b64Of libm)} (h0 : newDubins3d (oneStepEnv libm) (Demo.flyArgs3 libm method) = .ok e0)
    (s : Fin 7 → ℚ) : MovesUnder (oneStepEnv libm) (e0.run (oneStepEnv libm) [.setState (toFl s)]) aloft3
      (AloftRoom3 Demo.aloft3W Demo.aloftLimits 1 (1 / 2) 16 1 100) [(1 / 65536, .ndarray .f64 [.fin (1 / 16), .fin 0, .fin 0])] (Demo.loop 0) (Demo.loop (1 / 65536)) := by
  obtain ⟨-, -, -, -, -, -, -, -, -, -, -, c1, c2, -⟩ := dubins3d_config h0
  refine ⟨by norm_num, ![1 / 16, 0, 0], Demo.loop, (applied_config (run_sameConfig _ _ _)).2 (applied_of (ty := .f64) (u := [.fin (1 / 16), .fin 0, .fin 0]) rfl ?_),
    ?_, rfl, ?_⟩
  · rw [c1, c2]
    simp [npClip, bcast2, Arr.forDType, Arr.toVec, Demo.flyArgs3, npMax_fin, npMin_fin, bind, Except.bind, toFl]
    norm_num
  · intro t ht
    have ht1 : t ≤ 1 := ht.2.trans (by norm_num)
    have ht0 : 0 ≤ t := ht.1
    have hid := (hasDerivAt_id t).const_mul (1 / 16 : ℝ)
    refine ⟨hasDerivWithinAt_pi.2 fun i => HasDerivAt.hasDerivWithinAt ?_, ⟨?_, ?_, ?_⟩, ?_, ?_, ?_, .inl ?_, .inr ?_, .inl ?_⟩
    · fin_cases i
      · refine (hid.sin.const_mul 4800).congr_deriv ?_
        simp [aloft3, Demo.loop]
        ring
      · exact (hasDerivAt_const t (0 : ℝ)).congr_deriv (by simp [aloft3, Demo.loop])
      · refine ((hid.cos.const_sub 1).const_mul 4800).neg.congr_deriv ?_
        simp [aloft3, Demo.loop]
        ring
      · exact (hasDerivAt_const t (0 : ℝ)).congr_deriv (by simp [aloft3, Demo.loop])
      · exact hid.congr_deriv (by simp [aloft3])
      · exact (hasDerivAt_const t (0 : ℝ)).congr_deriv (by simp [aloft3])
      · exact (hasDerivAt_const t (300 : ℝ)).congr_deriv (by simp [aloft3])
    · simp only [Demo.aloft3W, Matrix.cons_val]
      norm_num [abs_of_pos]
    · simp only [Demo.aloft3W, Matrix.cons_val]
      norm_num
    · simp only [Demo.aloft3W, Matrix.cons_val]
      norm_num
    · intro i hi
      have s1 := Real.abs_sin_le_one (1 / 16 * t)
      have s2 := Real.abs_cos_le_one (1 / 16 * t)
      rw [abs_le] at s1 s2
      fin_cases i
      · show |4800 * Real.sin (1 / 16 * t)| + ((1024 : ℚ) : ℝ) * 1 ≤ ((1024 : ℚ) : ℝ) * ((16 : ℚ) : ℝ)
        have : |4800 * Real.sin (1 / 16 * t)| ≤ 9600 := abs_le.2 ⟨by linarith, by linarith⟩
        push_cast
        linarith
      · show |(0 : ℝ)| + ((1024 : ℚ) : ℝ) * 1 ≤ ((1024 : ℚ) : ℝ) * ((16 : ℚ) : ℝ)
        norm_num
      · show |-(4800 * (1 - Real.cos (1 / 16 * t)))| + ((1024 : ℚ) : ℝ) * 1 ≤ ((1024 : ℚ) : ℝ) * ((16 : ℚ) : ℝ)
        have : |-(4800 * (1 - Real.cos (1 / 16 * t)))| ≤ 9600 := abs_le.2 ⟨by linarith, by linarith⟩
        push_cast
        linarith
      · exact absurd rfl hi
      · show |1 / 16 * t| + ((1 / 8 : ℚ) : ℝ) * 1 ≤ ((1 / 8 : ℚ) : ℝ) * ((16 : ℚ) : ℝ)
        rw [abs_of_nonneg (by positivity)]
        push_cast
        linarith
      · show |(0 : ℝ)| + ((1 / 8 : ℚ) : ℝ) * 1 ≤ ((1 / 8 : ℚ) : ℝ) * ((16 : ℚ) : ℝ)
        norm_num
      · show |(300 : ℝ)| + ((32 : ℚ) : ℝ) * 1 ≤ ((32 : ℚ) : ℝ) * ((16 : ℚ) : ℝ)
        norm_num
    · show ((100 : ℚ) : ℝ) + ((32 : ℚ) : ℝ) * 1 ≤ 300
      norm_num
    · show |(0 : ℝ)| + ((1 / 8 : ℚ) : ℝ) * 1 ≤ 1 / 2
      norm_num
    · show ((-1 / 2 : ℚ) : ℝ) + ((1 / 8 : ℚ) : ℝ) * 1 < 1 / 16 * t ∧ 1 / 16 * t + ((1 / 8 : ℚ) : ℝ) * 1 < ((1 / 2 : ℚ) : ℝ)
      push_cast
      constructor <;> linarith
    · refine ⟨rfl, ?_⟩
      show ((-1 / 2 : ℚ) : ℝ) ≤ 0 ∧ (0 : ℝ) ≤ ((1 / 2 : ℚ) : ℝ)
      norm_num
    · show ((200 : ℚ) : ℝ) + ((32 : ℚ) : ℝ) * 1 < 300 ∧ (300 : ℝ) + ((32 : ℚ) : ℝ) * 1 < ((400 : ℚ) : ℝ)
      norm_num
  · show Demo.loop (1 / 65536) = Demo.loop (((1 / 65536 : ℚ)) : ℝ)
    norm_num

/-- An aircraft at 300 ft/s pulls up at 1/16 rad/s for 1/65536 s: with either method it ends within 0.0005 ft of the loop. -/
example (method : String) (hm : method = "RK45" ∨ method = "Euler") : ∃ (libm : Fmt ℚ) (e0 : Entity (b64Of libm)),
    newDubins3d (oneStepEnv libm) (Demo.flyArgs3 libm method) = .ok e0 ∧ ∃ s' : Fin 7 → ℚ,
      ((e0.run (oneStepEnv libm) [.setState (toFl ![0, 0, 0, 0, 0, 0, 300])]).run (oneStepEnv libm)
        (stepsOf [(1 / 65536, .ndarray .f64 [.fin (1 / 16), .fin 0, .fin 0])])).state = toFl s' ∧
      |(s' 0 : ℝ) - 4800 * Real.sin (1 / 16 * (1 / 65536))| ≤ 1024 * (1 / 2097152) := by
  obtain ⟨libm, hlibm, htan⟩ := Demo.trigTan (2⁻¹ ^ 50) (by positivity)
  have h0 : ∃ e0 : Entity (b64Of libm), newDubins3d (oneStepEnv libm) (Demo.flyArgs3 libm method) = .ok e0 := ⟨_, rfl⟩
  obtain ⟨e0, h0⟩ := h0
  refine ⟨libm, e0, h0, ?_⟩
  have hst : (e0.run (oneStepEnv libm) [.setState (toFl ![0, 0, 0, 0, 0, 0, 300])]).state = toFl ![0, 0, 0, 0, 0, 0, 300] := by
    cases h0
    rfl
  have hF := Demo.loop_moves h0 ![0, 0, 0, 0, 0, 0, 300]
  have hy : ∀ i, |((![0, 0, 0, 0, 0, 0, 300] : Fin 7 → ℚ) i : ℝ) - Demo.loop 0 i| ≤ Demo.aloft3W i * 0 := fun i => by
    fin_cases i <;> simp [Demo.loop]
  obtain ⟨E, hE⟩ : ∃ E, E = Real.exp (1 * (1 / 65536)) * (0 + (2 * ((2⁻¹ ^ 49 + 3 * 2⁻¹ ^ 50) * 17) + 46 * 1 * (2 * 17) * (1 / 65536)) * (1 / 65536) +
      1 * (2 * (2⁻¹ ^ 48 * (16 + 26 * (1 / 65536) * (2 * 17) + 2⁻¹ ^ 500)) + 2⁻¹ ^ 50 * ((16 : ℝ) + 20 + 320))) := ⟨_, rfl⟩
  have hb := Demo.aloft_bound (by norm_num) (by norm_num) (by norm_num) (by norm_num) rfl hE
  have wrap : ∀ s' : Fin 7 → ℚ, (∀ i, i ≠ 3 → |s' i - Demo.loop (1 / 65536) i| ≤ Demo.aloft3W i * E) →
      |(s' 0 : ℝ) - 4800 * Real.sin (1 / 16 * (1 / 65536))| ≤ 1024 * (1 / 2097152) := fun s' h => by
    have := h 0 (by decide)
    change |(s' 0 : ℝ) - 4800 * Real.sin (1 / 16 * (1 / 65536))| ≤ ((1024 : ℚ) : ℝ) * E at this
    push_cast at this
    linarith [hb.1]
  have pi3 := Real.pi_gt_three
  have ht : Real.tan (1 / 2) ≤ ((1 : ℚ) : ℝ) := by
    refine le_of_le_of_eq ?_ (Real.tan_pi_div_four.trans Rat.cast_one.symm)
    exact (Real.tan_lt_tan_of_lt_of_lt_pi_div_two (by linarith) (by linarith) (by linarith)).le
  have lo : (Demo.flyArgs3 libm method).gammaMin.cast32 = .fin (Demo.aloftLimits.lo 0) ∧ (Demo.flyArgs3 libm method).rollMin.cast32 = .fin (Demo.aloftLimits.lo 1) ∧
      (Demo.flyArgs3 libm method).vMin.cast32 = .fin (Demo.aloftLimits.lo 2) := ⟨Demo.cast (by decide +kernel), Demo.cast (by decide +kernel), Demo.cast (by decide +kernel)⟩
  have hi : (Demo.flyArgs3 libm method).gammaMax.cast32 = .fin (Demo.aloftLimits.hi 0) ∧ (Demo.flyArgs3 libm method).rollMax.cast32 = .fin (Demo.aloftLimits.hi 1) ∧
      (Demo.flyArgs3 libm method).vMax.cast32 = .fin (Demo.aloftLimits.hi 2) := ⟨Demo.cast (by decide +kernel), Demo.cast (by decide +kernel), Demo.cast (by decide +kernel)⟩
  have hl : -2 ≤ Demo.aloftLimits.lo 0 ∧ Demo.aloftLimits.hi 0 ≤ 2 ∧ -2 ≤ Demo.aloftLimits.lo 1 ∧ Demo.aloftLimits.hi 1 ≤ 2 := by decide +kernel
  have hw : (16 : ℝ) + 20 + 320 = 16 + 20 / ((1 : ℚ) : ℝ) + 20 / ((1 / 8 : ℚ) : ℝ) + 20 / ((1 / 8 : ℚ) : ℝ) := by norm_num
  rcases hm with rfl | rfl
  · obtain ⟨s', h1, h2, -⟩ := C121_3d_rk45 (oneStepEnv libm) _ e0 _ h0 rfl [.setState (toFl ![0, 0, 0, 0, 0, 0, 300])] rfl Demo.aloftLimits lo hi hl _ 1 16 1 100 1
      (1 / 2) (by linarith) ht Demo.aloft3Units
      (by norm_num) (by norm_num) (2⁻¹ ^ 50) (hlibm _) (hlibm _) (htan _) ⟨by positivity, by norm_num⟩ [(1 / 65536, .ndarray .f64 [.fin (1 / 16), .fin 0, .fin 0])] 1 0 E (1 / 65536) (2 * 17)
      ((2⁻¹ ^ 49 + 3 * 2⁻¹ ^ 50) * 17) (2⁻¹ ^ 50 * (16 + 20 + 320)) (1 / 65536) (1 / 65536) 1 (by simp) (by simp [Demo.aloft3W]; norm_num)
      (by simp only [List.mem_singleton, forall_eq]; exact fun U _ => oneStepEnv_integrates libm (by norm_num) le_rfl _) le_rfl (by norm_num) (by norm_num)
      _ hst _ _ le_rfl hy (by simp [Demo.loop]) hF (by simp) (by norm_num) (by norm_num) (by rw [hw]; rfl) (by rw [hE]; simp) (by push_cast; exact hb.2) (by simp [Demo.aloft3W])
    exact ⟨s', h1, wrap s' h2⟩
  · obtain ⟨s', h1, h2, -⟩ := C121_3d_euler (oneStepEnv libm) _ e0 _ h0 rfl rfl [.setState (toFl ![0, 0, 0, 0, 0, 0, 300])] rfl Demo.aloftLimits lo hi hl _ 1 16 1 100 1
      (1 / 2) (by linarith) ht Demo.aloft3Units
      (by norm_num) (by norm_num) (2⁻¹ ^ 50) (hlibm _) (hlibm _) (htan _) ⟨by positivity, by norm_num⟩ [(1 / 65536, .ndarray .f64 [.fin (1 / 16), .fin 0, .fin 0])] 1 0 E (1 / 65536) (2 * 17)
      ((2⁻¹ ^ 49 + 3 * 2⁻¹ ^ 50) * 17) (2⁻¹ ^ 50 * (16 + 20 + 320)) (1 / 65536) (by simp) (by simp [Demo.aloft3W]; norm_num) (by norm_num) (by norm_num)
      _ hst _ _ le_rfl hy (by simp [Demo.loop]) hF (by simp) (by norm_num) (by norm_num) (by rw [hw]; rfl) (by rw [hE]; simp) (by push_cast; exact hb.2) (by simp [Demo.aloft3W])
    exact ⟨s', h1, wrap s' h2⟩

end SAD
