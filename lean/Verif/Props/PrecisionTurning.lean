import Verif.Lemmas.TurningRun

/-!
# C119: the planar rotating spacecraft in double precision
-/

set_option linter.unusedSectionVars false

namespace SAD
open Spec

/-- both methods at once -/
theorem turn_run {libm : Fmt ℚ} (env : Env (b64Of libm)) (args : Rot2dArgs (b64Of libm)) (e0 e : Entity (b64Of libm)) (h0 : newRot2d env args = .ok e0)
    (hcf : SameConfig e0 e) (m n I acc vel : ℚ) (hm : args.m = .fin m) (hn : args.n = .fin n) (hI : args.inertia = .fin I)
    (hacc : Fl.pyMin args.angAccLimit (args.inertiaWheel * args.accLimitWheel / args.inertia) = .fin acc) (ha0 : 0 ≤ acc)
    (hvel : Fl.pyMin args.angVelLimit (args.inertiaWheel * args.velLimitWheel / args.inertia) = .fin vel)
    (w : Fin 6 → ℚ) (L X F J M : ℚ) (Z : TurnUnits w m n I L X F J M) (hLX : L * X + M ≤ 2 ^ 49) (hX : X ≤ 2 ^ 50)
    (δ : ℝ) (hlibm : TrigWithin libm (w 2 * X) δ) (hδ0 : 0 ≤ δ) (hδ : δ ≤ 1 / 2) (hist : List (ℚ × Action (b64Of libm))) (ρ ε0 E T ω : ℝ) (η H : ℚ) (ν : ℕ)
    (hH : ∀ h ∈ hist, h.1 ≤ H) (hX2 : 7 + vel * H ≤ w 2 * X)
    (hcall : ∀ h ∈ hist, ∀ U : Fin 3 → ℚ, Applied env e h.2 (toFl U) → UserCall env e.dynamics 6 η ν U h.1) (hν : 1 ≤ ν)
    (hη : 0 ≤ η ∧ η ≤ 2 ^ 50) (hηL : η * L ≤ 1 / 2)
    (s : Fin 6 → ℚ) (hs : e.state = toFl s) (y z : Fin 6 → ℝ) (hε0 : 0 ≤ ε0) (hy : ∀ i, |s i - y i| ≤ w i * ε0) (hy2 : |y 2| ≤ 6)
    (hF : TurnFollows env e w m n I acc vel ρ X F J hist y z) (hT : T = ((hist.map (·.1)).sum : ℚ)) (hω : ω = 2⁻¹ ^ 50 * (X + 20 / w 2))
    (hE : E = userB L (2⁻¹ ^ 19 * (L * X + M) + δ * M) ((2 * (L * X + M) : ℚ)) X η ω T (hist.length * ν) ε0)
    (hρ : E + 26 * η * ((2 * (L * X + M) : ℚ)) + userR X (2 * (L * X + M)) η ≤ ρ) (hρ2 : w 2 * ρ ≤ 1) :
    ∃ s' : Fin 6 → ℚ, (e.run env (stepsOf hist)).state = toFl s' ∧ (∀ i, i ≠ 2 → |s' i - z i| ≤ w i * E) ∧ ∃ k : ℤ, |s' 2 - (z 2 - 2 * Real.pi * k)| ≤ w 2 * E := by
  have wp := Z.weights.cast_pos
  have L0 : 0 ≤ L := by
    by_contra h'
    nlinarith [Z.weights.pos 3, Z.weights.pos 0, Z.lip.1]
  have M0 : 0 ≤ M := by
    have h1 : (0 : ℚ) ≤ w 0 * M := (by positivity : (0 : ℚ) ≤ 2⁻¹ ^ 40).trans (Z.tiny 0)
    by_contra h'
    nlinarith [Z.weights.pos 0]
  have X0 := Z.size.1
  have S0 : 0 ≤ L * X + M := by positivity
  have S0R : (0 : ℝ) ≤ L * X + M := by exact_mod_cast S0
  have M0R : (0 : ℝ) ≤ M := by exact_mod_cast M0
  have US : UserSizes (L : ℝ) (2⁻¹ ^ 19 * (L * X + M) + δ * M) (2 * (L * X + M)) X η :=
    ⟨X0, hX.trans (by norm_num), by linarith, by linarith, hη.1, hη.2, by exact_mod_cast L0, by positivity, by
      have : ((η * L : ℚ) : ℝ) ≤ ((1 / 2 : ℚ) : ℝ) := Rat.cast_le.2 hηL
      push_cast at this
      exact this⟩
  have hw0 : 0 ≤ ω := by
    have : (0 : ℝ) ≤ X := by exact_mod_cast X0
    have := wp 2
    rw [hω]
    positivity
  have hT0 : 0 ≤ T := by
    rw [hT]
    refine Rat.cast_nonneg.2 (List.sum_nonneg fun x hx => ?_)
    obtain ⟨p, hp, rfl⟩ := List.mem_map.1 hx
    exact hF.nonneg p hp
  have hE0 : 0 ≤ E := by
    rw [hE]
    exact userB_nonneg US hw0 hT0 (by positivity) hε0
  have hρ0 : 0 ≤ ρ := by
    obtain ⟨-, -, hD, hη', hr⟩ := US.parts
    have : 0 ≤ 26 * (η : ℝ) * ((2 * (L * X + M) : ℚ)) := by positivity
    linarith
  have hup := hF.upTo h0 hcf hm hn hI hacc ha0 hvel Z hlibm hδ hρ0 hρ2 hX2 hH 0 (by simpa using hy2)
  have e0' : turnBack y 0 = y := by
    funext i
    unfold turnBack
    simp
  rw [e0', ← hω] at hup
  obtain ⟨-, hcu, -⟩ := rot2d_rhs h0
  rw [← hcf.2.2.2.2.2] at hcu
  obtain ⟨s', z', h1, ⟨k, rfl⟩, h2⟩ := user_run (ν := ν) (ω := ω) Z.weights US (fun i => (Z.size.2 i).trans (by norm_num)) hw0 hν hcu hist
    (fun h hh => ⟨hF.nonneg h hh, hcall h hh⟩) s e.stateDot e.dynamics.trajectory e.dynamics.trajectoryT y ε0 hε0 hy hup (by rw [← hT, ← hE]; exact hρ)
  rw [← hT, ← hE] at h2
  refine ⟨s', by rw [← h1, ← hs], fun i hi => ?_, k, ?_⟩
  · have := h2 i
    rwa [turnBack_ne hi] at this
  · have := h2 2
    rwa [turnBack_two] at this

/-- A planar spacecraft that turns and thrusts, simulated with RK45 in IEEE double precision, after any earlier operations. Its derivative is computed partly in
single precision, and with a sine and cosine off by at most `δ`. `y` is within `ε0` of the state at the start, and `z` the end of the exact motion from `y`.
The solver is any Dormand-Prince solver that divides each call in at most `ν` steps of at most `η` seconds; calls last at most `H` seconds. Then the state ends
within `E` of `z`, the heading up to whole turns. -/
theorem C119_rk45 {libm : Fmt ℚ} (env : Env (b64Of libm)) (args : Rot2dArgs (b64Of libm)) (e0 e : Entity (b64Of libm)) (h0 : newRot2d env args = .ok e0)
    (hmeth : args.integrationMethod = "RK45") (ops : List (Op (b64Of libm))) (he : e = e0.run env ops)
    (m n I acc vel : ℚ) (hm : args.m = .fin m) (hn : args.n = .fin n) (hI : args.inertia = .fin I)
    (hacc : Fl.pyMin args.angAccLimit (args.inertiaWheel * args.accLimitWheel / args.inertia) = .fin acc) (ha0 : 0 ≤ acc)
    (hvel : Fl.pyMin args.angVelLimit (args.inertiaWheel * args.velLimitWheel / args.inertia) = .fin vel)
    (w : Fin 6 → ℚ) (L X F J M : ℚ) (Z : TurnUnits w m n I L X F J M) (hLX : L * X + M ≤ 2 ^ 49) (hX : X ≤ 2 ^ 50)
    (δ : ℝ) (hlibm : TrigWithin libm (w 2 * X) δ) (hδ : 0 ≤ δ ∧ δ ≤ 1 / 2) (hist : List (ℚ × Action (b64Of libm))) (ρ ε0 E T D Δ : ℝ) (η H : ℚ) (ν : ℕ)
    (hH : ∀ h ∈ hist, h.1 ≤ H) (hX2 : 7 + vel * H ≤ w 2 * X)
    (hint : ∀ h ∈ hist, ∀ U : Fin 3 → ℚ, Applied env e h.2 (toFl U) →
      Integrates env 6 (2 ^ 100) η ν (fun t y => e.dynamics.computeStateDot t y (toFl U)) h.1) (hν : 1 ≤ ν)
    (hη : 0 ≤ η ∧ η ≤ 2 ^ 50) (hηL : η * L ≤ 1 / 2)
    (s : Fin 6 → ℚ) (hs : e.state = toFl s) (y z : Fin 6 → ℝ) (hε0 : 0 ≤ ε0) (hy : ∀ i, |s i - y i| ≤ w i * ε0) (hy2 : |y 2| ≤ 6)
    (hF : TurnFollows env e w m n I acc vel ρ X F J hist y z) (hT : T = ((hist.map (·.1)).sum : ℚ))
    (hD : D = 2 * (L * X + M)) (hΔ : Δ = 2⁻¹ ^ 19 * (L * X + M) + δ * M)
    (hE : E = Real.exp (L * T) * (ε0 + (2 * Δ + 46 * L * D * η) * T +
      hist.length * ν * (2 * (2⁻¹ ^ 48 * (X + 26 * η * D + 2⁻¹ ^ 500)) + 2⁻¹ ^ 50 * (X + 20 / w 2))))
    (hρ : E + 26 * η * D + 2⁻¹ ^ 48 * (X + 26 * η * D + 2⁻¹ ^ 500) ≤ ρ) (hρ2 : w 2 * ρ ≤ 1) :
    ∃ s' : Fin 6 → ℚ, (e.run env (stepsOf hist)).state = toFl s' ∧ (∀ i, i ≠ 2 → |s' i - z i| ≤ w i * E) ∧ ∃ k : ℤ, |s' 2 - (z 2 - 2 * Real.pi * k)| ≤ w 2 * E := by
  have hcf : SameConfig e0 e := he ▸ run_sameConfig env ops e0
  obtain ⟨-, -, hm', -⟩ := rot2d_rhs h0
  rw [← hcf.2.2.2.2.2, hmeth] at hm'
  have eD : D = ((2 * (L * X + M) : ℚ)) := by rw [hD]; push_cast; ring
  refine turn_run env args e0 e h0 hcf m n I acc vel hm hn hI hacc ha0 hvel w L X F J M Z hLX hX δ hlibm hδ.1 hδ.2 hist ρ ε0 E T _ η H ν hH hX2
    (fun h hh U hU => .inl ⟨hm', hint h hh U hU⟩) hν hη hηL s hs y z hε0 hy hy2 hF hT rfl ?_ ?_ hρ2
  · rw [hE, userB_eq, hΔ, eD]
  · rw [userR_eq, ← eD]
    exact hρ

/-- The same with Euler: calls of at most `η` seconds. -/
theorem C119_euler {libm : Fmt ℚ} (env : Env (b64Of libm)) (args : Rot2dArgs (b64Of libm)) (e0 e : Entity (b64Of libm)) (h0 : newRot2d env args = .ok e0)
    (hmeth : args.integrationMethod = "Euler") (hsamp : args.trajectorySamples = some 0) (ops : List (Op (b64Of libm))) (he : e = e0.run env ops)
    (m n I acc vel : ℚ) (hm : args.m = .fin m) (hn : args.n = .fin n) (hI : args.inertia = .fin I)
    (hacc : Fl.pyMin args.angAccLimit (args.inertiaWheel * args.accLimitWheel / args.inertia) = .fin acc) (ha0 : 0 ≤ acc)
    (hvel : Fl.pyMin args.angVelLimit (args.inertiaWheel * args.velLimitWheel / args.inertia) = .fin vel)
    (w : Fin 6 → ℚ) (L X F J M : ℚ) (Z : TurnUnits w m n I L X F J M) (hLX : L * X + M ≤ 2 ^ 49) (hX : X ≤ 2 ^ 50)
    (δ : ℝ) (hlibm : TrigWithin libm (w 2 * X) δ) (hδ : 0 ≤ δ ∧ δ ≤ 1 / 2) (hist : List (ℚ × Action (b64Of libm))) (ρ ε0 E T D Δ : ℝ) (η : ℚ)
    (hH : ∀ h ∈ hist, h.1 ≤ η) (hX2 : 7 + vel * η ≤ w 2 * X) (hη : 0 ≤ η ∧ η ≤ 2 ^ 50) (hηL : η * L ≤ 1 / 2)
    (s : Fin 6 → ℚ) (hs : e.state = toFl s) (y z : Fin 6 → ℝ) (hε0 : 0 ≤ ε0) (hy : ∀ i, |s i - y i| ≤ w i * ε0) (hy2 : |y 2| ≤ 6)
    (hF : TurnFollows env e w m n I acc vel ρ X F J hist y z) (hT : T = ((hist.map (·.1)).sum : ℚ))
    (hD : D = 2 * (L * X + M)) (hΔ : Δ = 2⁻¹ ^ 19 * (L * X + M) + δ * M)
    (hE : E = Real.exp (L * T) * (ε0 + (2 * Δ + 46 * L * D * η) * T +
      hist.length * (2 * (2⁻¹ ^ 48 * (X + 26 * η * D + 2⁻¹ ^ 500)) + 2⁻¹ ^ 50 * (X + 20 / w 2))))
    (hρ : E + 26 * η * D + 2⁻¹ ^ 48 * (X + 26 * η * D + 2⁻¹ ^ 500) ≤ ρ) (hρ2 : w 2 * ρ ≤ 1) :
    ∃ s' : Fin 6 → ℚ, (e.run env (stepsOf hist)).state = toFl s' ∧ (∀ i, i ≠ 2 → |s' i - z i| ≤ w i * E) ∧ ∃ k : ℤ, |s' 2 - (z 2 - 2 * Real.pi * k)| ≤ w 2 * E := by
  have hcf : SameConfig e0 e := he ▸ run_sameConfig env ops e0
  obtain ⟨-, -, hm', hsm', -⟩ := rot2d_rhs h0
  rw [← hcf.2.2.2.2.2] at hm' hsm'
  rw [hmeth] at hm'
  rw [hsamp] at hsm'
  have eD : D = ((2 * (L * X + M) : ℚ)) := by rw [hD]; push_cast; ring
  refine turn_run env args e0 e h0 hcf m n I acc vel hm hn hI hacc ha0 hvel w L X F J M Z hLX hX δ hlibm hδ.1 hδ.2 hist ρ ε0 E T _ η η 1 hH hX2
    (fun h hh U hU => .inr ⟨hm', (Option.some.inj hsm').le, hH h hh⟩) le_rfl hη hηL s hs y z hε0 hy hy2 hF hT rfl ?_ ?_ hρ2
  · rw [hE, userB_eq, hΔ, eD, Nat.cast_one, mul_one]
  · rw [userR_eq, ← eD]
    exact hρ

/-- a libm with a sine and a cosine as accurate as one likes, between -1 and 1 -/
theorem Demo.trigWithin (δ : ℝ) (hδ : 0 < δ) (A : ℚ) : ∃ libm : Fmt ℚ, TrigWithin libm A δ := by
  have near : ∀ r : ℝ, |r| ≤ 1 → ∃ q : ℚ, |q| ≤ 1 ∧ |(q : ℝ) - r| ≤ δ := fun r hr => by
    obtain ⟨q, h1, h2⟩ := exists_rat_btwn (show r - δ < r by linarith)
    obtain ⟨r1, r2⟩ := abs_le.1 hr
    refine ⟨max q (-1), abs_le.2 ⟨le_max_right _ _, max_le ?_ (by norm_num)⟩, ?_⟩
    · have : (q : ℝ) ≤ ((1 : ℚ) : ℝ) := by push_cast; linarith
      exact_mod_cast this
    · rw [abs_le]
      push_cast
      constructor
      · linarith [le_max_left (q : ℝ) (-1)]
      · linarith [max_le h2.le r1]
  choose f hf using fun x : ℚ => near _ (Real.abs_sin_le_one x)
  choose g hg using fun x : ℚ => near _ (Real.abs_cos_le_one x)
  exact ⟨{ ratFmt with sin := f, cos := g }, fun x _ => ⟨(hf x).1, (hg x).1, (hf x).2, (hg x).2⟩⟩

/-- a spacecraft that turns at most 1/16 rad/s -/
def Demo.turnArgs (libm : Fmt ℚ) (method : String) : Rot2dArgs (b64Of libm) where
  m := .fin 12
  inertia := .fin (1 / 16)
  angAccLimit := .fin (1 / 64)
  angVelLimit := .fin (1 / 16)
  inertiaWheel := .fin (1 / 1024)
  accLimitWheel := .fin 256
  velLimitWheel := .fin 512
  n := .fin (1 / 1024)
  integrationMethod := method
  kwargs := [("name", .str "a")]

theorem Demo.turnUnits : TurnUnits ![1, 1, 1, 1, 1, 1 / 64] 12 (1 / 1024) (1 / 16) 2 8 1 (1 / 1024) 1 where
  weights := fun i => by fin_cases i <;> simp <;> norm_num
  mass := by norm_num
  inertia := by norm_num
  mean := by norm_num
  force := by norm_num
  moment := by norm_num
  size := ⟨by norm_num, fun i => by fin_cases i <;> simp <;> norm_num⟩
  lip := by
    simp only [Matrix.cons_val]
    norm_num
  push := by
    simp only [Matrix.cons_val]
    norm_num
  tiny := fun i => by fin_cases i <;> simp <;> norm_num

theorem Demo.b64_mul {libm : Fmt ℚ} {a b c : ℚ} (h : rndBin 53 (-1022) 1023 (a * b) = .val c) : (.fin a * .fin b : Fl (b64Of libm)) = .fin c := by
  show Fl.ofExt (rndBin 53 (-1022) 1023 (a * b)) = _
  rw [h]
  rfl

theorem Demo.b64_div {libm : Fmt ℚ} {a b c : ℚ} (hb : b ≠ 0) (h : rndBin 53 (-1022) 1023 (a / b) = .val c) : (.fin a / .fin b : Fl (b64Of libm)) = .fin c := by
  show (if b = 0 then _ else Fl.ofExt (rndBin 53 (-1022) 1023 (a / b))) = _
  rw [if_neg hb, h]
  rfl

theorem Demo.turn_limits (libm : Fmt ℚ) :
    (.fin (1 / 1024) * .fin 256 / .fin (1 / 16) : Fl (b64Of libm)) = .fin 4 ∧ (.fin (1 / 1024) * .fin 512 / .fin (1 / 16) : Fl (b64Of libm)) = .fin 8 := by
  rw [Demo.b64_mul (c := 1 / 4) (by decide +kernel), Demo.b64_mul (c := 1 / 2) (by decide +kernel), Demo.b64_div (c := 4) (by norm_num) (by decide +kernel),
    Demo.b64_div (c := 8) (by norm_num) (by decide +kernel)]
  exact ⟨rfl, rfl⟩

theorem Demo.turn_new (libm : Fmt ℚ) (method : String) : ∃ e0 : Entity (b64Of libm), newRot2d (oneStepEnv libm) (Demo.turnArgs libm method) = .ok e0 := by
  have hd : ∀ x : Fl (b64Of libm), pyDiv x (.fin (1 / 16)) = .ok (x / .fin (1 / 16)) := fun x => by
    have : Fl.eqb (.fin (1 / 16) : Fl (b64Of libm)) (.fin 0) = false := by simp [Fl.eqb]
    rw [pyDiv, this]
    rfl
  have hA : ∃ x, generateCwhMatrices (.fin 12 : Fl (b64Of libm)) (.fin (1 / 1024)) "2d" = .ok x := by
    have hd' : pyDiv (1 : Fl (b64Of libm)) (.fin 12) = .ok (1 / .fin 12) := by simp [pyDiv, Fl.eqb]
    simp only [generateCwhMatrices, hd', bind, Except.bind, pure, Except.pure]
    exact ⟨_, rfl⟩
  obtain ⟨x, hA⟩ := hA
  simp only [newRot2d, instantiate, initRot2d, rot2dLimits, mkRot2dDynamics, mkOdeDyn, Demo.turnArgs, hd, hA, bind, Except.bind, pure, Except.pure]
  exact ⟨_, rfl⟩

/-- A spacecraft at the origin that turns at 1/64 rad/s and is made to turn faster for a millisecond meets the hypotheses of both theorems. -/
example (method : String) : ∃ (libm : Fmt ℚ) (e0 e : Entity (b64Of libm)), TrigWithin libm ((![1, 1, 1, 1, 1, 1 / 64] : Fin 6 → ℚ) 2 * 8) (2⁻¹ ^ 50) ∧
    newRot2d (oneStepEnv libm) (Demo.turnArgs libm method) = .ok e0 ∧ e = e0.run (oneStepEnv libm) [.setState (toFl ![0, 0, 1, 0, 0, 1 / 64])] ∧
    Fl.pyMin (.fin (1 / 64) : Fl (b64Of libm)) (.fin (1 / 1024) * .fin 256 / .fin (1 / 16)) = .fin (1 / 64) ∧
    Fl.pyMin (.fin (1 / 16) : Fl (b64Of libm)) (.fin (1 / 1024) * .fin 512 / .fin (1 / 16)) = .fin (1 / 16) ∧
    TurnUnits ![1, 1, 1, 1, 1, 1 / 64] 12 (1 / 1024) (1 / 16) 2 8 1 (1 / 1024) 1 ∧
    (∀ U : Fin 3 → ℚ, Integrates (oneStepEnv libm) 6 (2 ^ 100) (1 / 1000) 1 (fun t y => e.dynamics.computeStateDot t y (toFl U)) (1 / 1000)) ∧
    TurnFollows (oneStepEnv libm) e ![1, 1, 1, 1, 1, 1 / 64] 12 (1 / 1024) (1 / 16) (1 / 64) (1 / 16) 1 8 1 (1 / 1024)
      [(1 / 1000, .ndarray .f64 [.fin 0, .fin 0, .fin (1 / 2048)])] ![0, 0, 1, 0, 0, 1 / 64]
      ![0, 0, 1 + 1 / 64 * (1 / 1000) + 1 / 256 * (1 / 1000) ^ 2, 0, 0, 1 / 64 + 1 / 128 * (1 / 1000)] ∧
    Real.exp (2 * (1 / 1000)) * (0 + (2 * (2⁻¹ ^ 19 * (2 * 8 + 1) + 2⁻¹ ^ 50 * 1) + 46 * 2 * (2 * (2 * 8 + 1)) * (1 / 1000)) * (1 / 1000) +
      1 * 1 * (2 * (2⁻¹ ^ 48 * (8 + 26 * (1 / 1000) * (2 * (2 * 8 + 1)) + 2⁻¹ ^ 500)) + 2⁻¹ ^ 50 * (8 + 20 / 1)))
      + 26 * (1 / 1000) * (2 * (2 * 8 + 1)) + 2⁻¹ ^ 48 * (8 + 26 * (1 / 1000) * (2 * (2 * 8 + 1)) + 2⁻¹ ^ 500) ≤ (1 : ℝ) := by
  obtain ⟨libm, hlibm⟩ := Demo.trigWithin (2⁻¹ ^ 50) (by positivity) ((![1, 1, 1, 1, 1, 1 / 64] : Fin 6 → ℚ) 2 * 8)
  obtain ⟨e0, h0⟩ := Demo.turn_new libm method
  obtain ⟨l1, l2⟩ := Demo.turn_limits libm
  have m1 : Fl.pyMin (.fin (1 / 64) : Fl (b64Of libm)) (.fin 4) = .fin (1 / 64) := by
    show (if Fl.ltb (.fin 4 : Fl (b64Of libm)) (.fin (1 / 64)) then _ else _) = _
    rw [if_neg]
    simp only [Fl.ltb]
    norm_num
  have m2 : Fl.pyMin (.fin (1 / 16) : Fl (b64Of libm)) (.fin 8) = .fin (1 / 16) := by
    show (if Fl.ltb (.fin 8 : Fl (b64Of libm)) (.fin (1 / 16)) then _ else _) = _
    rw [if_neg]
    simp only [Fl.ltb]
    norm_num
  refine ⟨libm, e0, _, hlibm, h0, rfl, by rw [l1, m1], by rw [l2, m2], Demo.turnUnits, fun U => oneStepEnv_integrates libm (by norm_num) le_rfl _, ?_, ?_⟩
  · refine ⟨by norm_num, ![0, 0, 1 / 2048], fun t => ![0, 0, 1 + 1 / 64 * t + 1 / 256 * t ^ 2, 0, 0, 1 / 64 + 1 / 128 * t], ?_, by norm_num, ?_, ?_, ?_, ?_⟩
    · obtain ⟨-, acc, vel, ha, -, -, -, -, -, -, c1, c2⟩ := rot2d_config h0
      have ha' : acc = .fin (1 / 64) := by
        rw [ha]
        show Fl.pyMin (.fin (1 / 64) : Fl (b64Of libm)) (.fin (1 / 1024) * .fin 256 / .fin (1 / 16)) = _
        rw [l1, m1]
      have b1 : (-acc * (Demo.turnArgs libm method).inertia : Fl (b64Of libm)) = .fin (-(1 / 1024)) := by
        rw [ha']
        exact Demo.b64_mul (a := -(1 / 64)) (b := 1 / 16) (by decide +kernel)
      have b2 : (acc * (Demo.turnArgs libm method).inertia : Fl (b64Of libm)) = .fin (1 / 1024) := by
        rw [ha']
        exact Demo.b64_mul (a := 1 / 64) (b := 1 / 16) (by decide +kernel)
      rw [b1] at c1
      rw [b2] at c2
      refine applied_of (ty := .f64) (u := toFl ![0, 0, 1 / 2048]) rfl ?_
      show npClip _ (Arr.forDType .f64 e0.controlMin) (Arr.forDType .f64 e0.controlMax) = _
      rw [c1, c2]
      rw [npClip_toFl (R := b64Of libm) ![0, 0, 1 / 2048] (l := ![some (-1), some (-1), some (-(1 / 1024))]) (h := ![some 1, some 1, some (1 / 1024)])
        (.inl (by simp [List.ofFn_succ, loFl, Arr.forDType, Fl.one_fin]; rfl)) (.inl (by simp [List.ofFn_succ, hiFl, Arr.forDType, Fl.one_fin]))]
      congr 2
      funext i
      fin_cases i <;> (simp [kclip]; try norm_num)
    · simp only [Matrix.cons_val]
      norm_num [abs_of_pos]
    · intro t ⟨t0, t1⟩
      push_cast at t1
      refine ⟨hasDerivWithinAt_pi.2 fun i => HasDerivAt.hasDerivWithinAt ?_, fun i hi => ?_, ?_⟩
      · have hid := hasDerivAt_id t
        fin_cases i
        · exact (hasDerivAt_const t (0 : ℝ)).congr_deriv (by simp [turning])
        · exact (hasDerivAt_const t (0 : ℝ)).congr_deriv (by simp [turning])
        · refine (((hid.const_mul (1 / 64)).const_add 1).add ((hid.pow 2).const_mul (1 / 256))).congr_deriv ?_
          simp [turning]
          ring
        · exact (hasDerivAt_const t (0 : ℝ)).congr_deriv (by simp [turning])
        · exact (hasDerivAt_const t (0 : ℝ)).congr_deriv (by simp [turning])
        · refine ((hid.const_mul (1 / 128)).const_add (1 / 64)).congr_deriv ?_
          simp only [turning, Matrix.cons_val]
          norm_num
      · fin_cases i
        · norm_num
        · norm_num
        · exact absurd rfl hi
        · norm_num
        · norm_num
        · simp only
          push_cast
          rw [abs_of_nonneg (by positivity)]
          linarith
      · simp only [Matrix.cons_val]
        push_cast
        rw [abs_of_nonneg (by positivity)]
        linarith
    · funext i
      fin_cases i <;> simp
    · simp only [TurnFollows]
      funext i
      fin_cases i <;> simp
  · obtain ⟨κ, hκ⟩ : ∃ κ : ℝ, κ = 2⁻¹ ^ 500 := ⟨_, rfl⟩
    have hκ1 : κ ≤ 1 := by rw [hκ]; exact pow_le_one₀ (by norm_num) (by norm_num)
    have hκ0 : 0 ≤ κ := by rw [hκ]; exact pow_nonneg (by norm_num) _
    rw [← hκ]
    have he : Real.exp (2 * (1 / 1000)) ≤ 3 :=
      (Real.exp_le_exp.2 (show _ ≤ (1 : ℝ) by norm_num)).trans (Real.exp_one_lt_d9.le.trans (by norm_num))
    calc _ ≤ (3 : ℝ) * (0 + (2 * (2⁻¹ ^ 19 * (2 * 8 + 1) + 2⁻¹ ^ 50 * 1) + 46 * 2 * (2 * (2 * 8 + 1)) * (1 / 1000)) * (1 / 1000) +
          1 * 1 * (2 * (2⁻¹ ^ 48 * (8 + 26 * (1 / 1000) * (2 * (2 * 8 + 1)) + 1)) + 2⁻¹ ^ 50 * (8 + 20 / 1)))
          + 26 * (1 / 1000) * (2 * (2 * 8 + 1)) + 2⁻¹ ^ 48 * (8 + 26 * (1 / 1000) * (2 * (2 * 8 + 1)) + 1) := by gcongr
      _ ≤ _ := by norm_num

end SAD
