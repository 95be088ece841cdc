import Verif.Lemmas.TumblingRun
import Verif.Props.PrecisionTurning
import Mathlib.Analysis.SpecialFunctions.Trigonometric.Deriv

/-!
# C120: the spacecraft with six degrees of freedom in double precision
-/

set_option linter.unusedSectionVars false

namespace SAD
open Spec

theorem sixDof_method {K : Type} {R : Fmt K} [Field K] [LinearOrder K] [IsStrictOrderedRing K] {env : Env R} {uninit : List Nat → Vec R} {a : SixDofArgs R} {e : Entity R}
    (h : newSixDof env uninit a = .ok e) : e.dynamics.custom = none ∧ e.dynamics.integrationMethod = a.integrationMethod ∧
      some e.dynamics.trajectorySamples = a.trajectorySamples := by
  have h := instantiate_ok h
  unfold initSixDof at h
  obtain ⟨acc, -, h⟩ := Except.bind_ok.1 h
  obtain ⟨vel, -, h⟩ := Except.bind_ok.1 h
  obtain ⟨⟨a0, w0, c0⟩, -, h⟩ := Except.bind_ok.1 h
  obtain ⟨⟨a1, w1, c1⟩, -, h⟩ := Except.bind_ok.1 h
  obtain ⟨⟨a2, w2, c2⟩, -, h⟩ := Except.bind_ok.1 h
  obtain ⟨d, hd, h⟩ := Except.bind_ok.1 h
  obtain ⟨g1, -⟩ := baseInit_ok h
  unfold mkSixDofDynamics at hd
  obtain ⟨_, -, hd⟩ := Except.bind_ok.1 hd
  obtain ⟨vel, -, hd⟩ := Except.bind_ok.1 hd
  obtain ⟨⟨A, B⟩, -, hd⟩ := Except.bind_ok.1 hd
  obtain ⟨v0, -, hd⟩ := Except.bind_ok.1 hd
  obtain ⟨v1, -, hd⟩ := Except.bind_ok.1 hd
  obtain ⟨v2, -, hd⟩ := Except.bind_ok.1 hd
  obtain ⟨k, hk, -, rfl⟩ := mkOdeDyn_ok hd
  rw [g1]
  exact ⟨rfl, rfl, hk.symm⟩

/-- both methods at once -/
theorem tumble_run {libm : Fmt ℚ} (env : Env (b64Of libm)) (uninit : List Nat → Vec (b64Of libm)) (args : SixDofArgs (b64Of libm)) (e0 e : Entity (b64Of libm))
    (h0 : newSixDof env uninit args = .ok e0) (hcf : SameConfig e0 e) (m n : ℚ) (I vel : Fin 3 → ℚ) (hm : args.m = .fin m) (hn : args.n = .fin n)
    (hI : ∀ i, args.inertiaMatrix i i = .fin (I i)) (accL velL : Fin 3 → Fl (b64Of libm)) (hA : AxisLimits args.angAccLimit accL) (hV : AxisLimits args.angVelLimit velL)
    (hvel : ∀ i, Fl.pyMin (velL i) (wheelLimit args args.velLimitWheel i) = .fin (vel i))
    (wp wq wv wr N κ L X F J M : ℚ) (Z : TumbleUnits wp wq wv wr m n I N κ L X F J M) (hLX : L * X + M ≤ 2 ^ 49) (hX : X ≤ 2 ^ 50)
    (hist : List (ℚ × Action (b64Of libm))) (ρ ε0 E T : ℝ) (η : ℚ) (ν : ℕ)
    (hcall : ∀ h ∈ hist, ∀ U : Fin 6 → ℚ, Applied env e h.2 (toFl U) → UserCall env e.dynamics 13 η ν U h.1) (hν : 1 ≤ ν)
    (hη : 0 ≤ η ∧ η ≤ 2 ^ 50) (hηL : η * L ≤ 1 / 2)
    (s : Fin 13 → ℚ) (hs : e.state = toFl s) (y z : Fin 13 → ℝ) (hε0 : 0 ≤ ε0) (hy : ∀ i, |s i - y i| ≤ tumbleW wp wq wv wr i * ε0)
    (hF : TumbleFollows env e (tumbleW wp wq wv wr) m n I args.bodyFrameThrust vel ρ X F J hist y z) (hT : T = ((hist.map (·.1)).sum : ℚ))
    (hE : E = userB L (2⁻¹ ^ 19 * (L * X + M)) ((2 * (L * X + M) : ℚ)) X η 0 T (hist.length * ν) ε0)
    (hρ : E + 26 * η * ((2 * (L * X + M) : ℚ)) + userR X (2 * (L * X + M)) η ≤ ρ) :
    ∃ s' : Fin 13 → ℚ, (e.run env (stepsOf hist)).state = toFl s' ∧ ∀ i, |s' i - z i| ≤ tumbleW wp wq wv wr i * E := by
  obtain ⟨X1, L0, M0, -⟩ := Z.basic
  have X0 : 0 ≤ X := le_trans (by positivity) X1
  have S0 : 0 ≤ L * X + M := by positivity
  have S0R : (0 : ℝ) ≤ L * X + M := by exact_mod_cast S0
  have US : UserSizes (L : ℝ) (2⁻¹ ^ 19 * (L * X + M)) (2 * (L * X + M)) X η :=
    ⟨X0, hX.trans (by norm_num), by linarith, by linarith, hη.1, hη.2, by exact_mod_cast L0.le, by positivity, by
      have : ((η * L : ℚ) : ℝ) ≤ ((1 / 2 : ℚ) : ℝ) := Rat.cast_le.2 hηL
      push_cast at this
      exact this⟩
  have hup := hF.upTo h0 hcf hm hn hI hA hV hvel Z hLX
  obtain ⟨hcu, -⟩ := sixDof_method h0
  rw [← hcf.2.2.2.2.2] at hcu
  have hwX : ∀ i, tumbleW wp wq wv wr i * X ≤ 2 ^ 100 := fun i => by
    calc tumbleW wp wq wv wr i * X ≤ 2 ^ 50 * 2 ^ 50 := mul_le_mul (Z.weights i).2 hX X0 (by norm_num)
      _ = _ := by norm_num
  obtain ⟨s', z', h1, h3, h2⟩ := user_run (ν := ν) (ω := 0) Z.weights US hwX le_rfl hν hcu hist
    (fun h hh => ⟨hF.nonneg h hh, hcall h hh⟩) s e.stateDot e.dynamics.trajectory e.dynamics.trajectoryT y ε0 hε0 hy hup (by rw [← hT, ← hE]; exact hρ)
  rw [← hT, ← hE] at h2
  subst h3
  exact ⟨s', by rw [← h1, ← hs], h2⟩

/-- A spacecraft with six degrees of freedom, simulated with RK45 in IEEE double precision, after any earlier operations. Part of its derivative is computed in
single precision. `y` is within `ε0` of the state at the start, and `z` the end of the exact motion from `y`. The solver is any Dormand-Prince solver that divides
each call in at most `ν` steps of at most `η` seconds. Then position, attitude, velocity and body rates end within `E` of `z`. -/
theorem C120_rk45 {libm : Fmt ℚ} (env : Env (b64Of libm)) (uninit : List Nat → Vec (b64Of libm)) (args : SixDofArgs (b64Of libm)) (e0 e : Entity (b64Of libm))
    (h0 : newSixDof env uninit args = .ok e0) (hmeth : args.integrationMethod = "RK45") (ops : List (Op (b64Of libm))) (he : e = e0.run env ops)
    (m n : ℚ) (I vel : Fin 3 → ℚ) (hm : args.m = .fin m) (hn : args.n = .fin n)
    (hI : ∀ i, args.inertiaMatrix i i = .fin (I i)) (accL velL : Fin 3 → Fl (b64Of libm)) (hA : AxisLimits args.angAccLimit accL) (hV : AxisLimits args.angVelLimit velL)
    (hvel : ∀ i, Fl.pyMin (velL i) (wheelLimit args args.velLimitWheel i) = .fin (vel i))
    (wp wq wv wr N κ L X F J M : ℚ) (Z : TumbleUnits wp wq wv wr m n I N κ L X F J M) (hLX : L * X + M ≤ 2 ^ 49) (hX : X ≤ 2 ^ 50)
    (hist : List (ℚ × Action (b64Of libm))) (ρ ε0 E T D Δ : ℝ) (η : ℚ) (ν : ℕ)
    (hint : ∀ h ∈ hist, ∀ U : Fin 6 → ℚ, Applied env e h.2 (toFl U) →
      Integrates env 13 (2 ^ 100) η ν (fun t y => e.dynamics.computeStateDot t y (toFl U)) h.1) (hν : 1 ≤ ν)
    (hη : 0 ≤ η ∧ η ≤ 2 ^ 50) (hηL : η * L ≤ 1 / 2)
    (s : Fin 13 → ℚ) (hs : e.state = toFl s) (y z : Fin 13 → ℝ) (hε0 : 0 ≤ ε0) (hy : ∀ i, |s i - y i| ≤ tumbleW wp wq wv wr i * ε0)
    (hF : TumbleFollows env e (tumbleW wp wq wv wr) m n I args.bodyFrameThrust vel ρ X F J hist y z) (hT : T = ((hist.map (·.1)).sum : ℚ))
    (hD : D = 2 * (L * X + M)) (hΔ : Δ = 2⁻¹ ^ 19 * (L * X + M))
    (hE : E = Real.exp (L * T) * (ε0 + (2 * Δ + 46 * L * D * η) * T + hist.length * ν * (2 * (2⁻¹ ^ 48 * (X + 26 * η * D + 2⁻¹ ^ 500)))))
    (hρ : E + 26 * η * D + 2⁻¹ ^ 48 * (X + 26 * η * D + 2⁻¹ ^ 500) ≤ ρ) :
    ∃ s' : Fin 13 → ℚ, (e.run env (stepsOf hist)).state = toFl s' ∧ ∀ i, |s' i - z i| ≤ tumbleW wp wq wv wr i * E := by
  have hcf : SameConfig e0 e := he ▸ run_sameConfig env ops e0
  obtain ⟨-, hm', -⟩ := sixDof_method h0
  rw [← hcf.2.2.2.2.2, hmeth] at hm'
  have eD : D = ((2 * (L * X + M) : ℚ)) := by rw [hD]; push_cast; ring
  refine tumble_run env uninit args e0 e h0 hcf m n I vel hm hn hI accL velL hA hV hvel wp wq wv wr N κ L X F J M Z hLX hX hist ρ ε0 E T η ν
    (fun h hh U hU => .inl ⟨hm', hint h hh U hU⟩) hν hη hηL s hs y z hε0 hy hF hT ?_ ?_
  · rw [hE, userB_eq, hΔ, eD, add_zero]
  · rw [userR_eq, ← eD]
    exact hρ

/-- The same with Euler: calls of at most `η` seconds. -/
theorem C120_euler {libm : Fmt ℚ} (env : Env (b64Of libm)) (uninit : List Nat → Vec (b64Of libm)) (args : SixDofArgs (b64Of libm)) (e0 e : Entity (b64Of libm))
    (h0 : newSixDof env uninit args = .ok e0) (hmeth : args.integrationMethod = "Euler") (hsamp : args.trajectorySamples = some 0)
    (ops : List (Op (b64Of libm))) (he : e = e0.run env ops)
    (m n : ℚ) (I vel : Fin 3 → ℚ) (hm : args.m = .fin m) (hn : args.n = .fin n)
    (hI : ∀ i, args.inertiaMatrix i i = .fin (I i)) (accL velL : Fin 3 → Fl (b64Of libm)) (hA : AxisLimits args.angAccLimit accL) (hV : AxisLimits args.angVelLimit velL)
    (hvel : ∀ i, Fl.pyMin (velL i) (wheelLimit args args.velLimitWheel i) = .fin (vel i))
    (wp wq wv wr N κ L X F J M : ℚ) (Z : TumbleUnits wp wq wv wr m n I N κ L X F J M) (hLX : L * X + M ≤ 2 ^ 49) (hX : X ≤ 2 ^ 50)
    (hist : List (ℚ × Action (b64Of libm))) (ρ ε0 E T D Δ : ℝ) (η : ℚ) (hH : ∀ h ∈ hist, h.1 ≤ η)
    (hη : 0 ≤ η ∧ η ≤ 2 ^ 50) (hηL : η * L ≤ 1 / 2)
    (s : Fin 13 → ℚ) (hs : e.state = toFl s) (y z : Fin 13 → ℝ) (hε0 : 0 ≤ ε0) (hy : ∀ i, |s i - y i| ≤ tumbleW wp wq wv wr i * ε0)
    (hF : TumbleFollows env e (tumbleW wp wq wv wr) m n I args.bodyFrameThrust vel ρ X F J hist y z) (hT : T = ((hist.map (·.1)).sum : ℚ))
    (hD : D = 2 * (L * X + M)) (hΔ : Δ = 2⁻¹ ^ 19 * (L * X + M))
    (hE : E = Real.exp (L * T) * (ε0 + (2 * Δ + 46 * L * D * η) * T + hist.length * (2 * (2⁻¹ ^ 48 * (X + 26 * η * D + 2⁻¹ ^ 500)))))
    (hρ : E + 26 * η * D + 2⁻¹ ^ 48 * (X + 26 * η * D + 2⁻¹ ^ 500) ≤ ρ) :
    ∃ s' : Fin 13 → ℚ, (e.run env (stepsOf hist)).state = toFl s' ∧ ∀ i, |s' i - z i| ≤ tumbleW wp wq wv wr i * E := by
  have hcf : SameConfig e0 e := he ▸ run_sameConfig env ops e0
  obtain ⟨-, hm', hsm'⟩ := sixDof_method h0
  rw [← hcf.2.2.2.2.2] at hm' hsm'
  rw [hmeth] at hm'
  rw [hsamp] at hsm'
  have eD : D = ((2 * (L * X + M) : ℚ)) := by rw [hD]; push_cast; ring
  refine tumble_run env uninit args e0 e h0 hcf m n I vel hm hn hI accL velL hA hV hvel wp wq wv wr N κ L X F J M Z hLX hX hist ρ ε0 E T η 1
    (fun h hh U hU => .inr ⟨hm', (Option.some.inj hsm').le, hH h hh⟩) le_rfl hη hηL s hs y z hε0 hy hF hT ?_ ?_
  · rw [hE, userB_eq, hΔ, eD, add_zero, Nat.cast_one, mul_one]
  · rw [userR_eq, ← eD]
    exact hρ

/-- moments of inertia: a body longer in two directions than in the third -/
def Demo.tumbleI : Fin 3 → ℚ := ![1 / 16, 1 / 16, 1 / 8]

/-- a spacecraft far from the Earth (mean motion 0), whose thrust turns with it -/
def Demo.tumbleArgs (libm : Fmt ℚ) (method : String) : SixDofArgs (b64Of libm) where
  m := .fin 12
  inertiaMatrix := fun i j => if i = j then .fin (Demo.tumbleI i) else 0
  angAccLimit := .num (.fin (1 / 64))
  angVelLimit := .num (.fin (1 / 16))
  inertiaWheel := .fin (1 / 1024)
  accLimitWheel := .fin 256
  velLimitWheel := .fin 512
  n := .fin 0
  integrationMethod := method
  kwargs := [("name", .str "a")]

theorem Demo.tumbleUnits : TumbleUnits 1 1 1 (1 / 64) 12 0 Demo.tumbleI (1 / 1024) 1 2 4 (1 / 2) (1 / 1024) 4 where
  weights := fun i => by fin_cases i <;> simp [tumbleW] <;> norm_num
  mass := by norm_num
  inertia := fun i => by fin_cases i <;> simp [Demo.tumbleI] <;> norm_num
  mean := by norm_num
  lever := by simp only [Demo.tumbleI, Matrix.cons_val]; norm_num [abs_of_pos]
  range := by
    intro c hc
    simp only [List.mem_cons, List.not_mem_nil, or_false] at hc
    rcases hc with rfl | rfl | rfl | rfl <;> norm_num
  size := by norm_num
  lip := by norm_num [abs_of_pos]
  push := ⟨by norm_num [abs_of_pos], fun i => by fin_cases i <;> simp [Demo.tumbleI] <;> norm_num [abs_of_pos]⟩
  tiny := by norm_num

theorem Demo.tumble_new (libm : Fmt ℚ) (method : String) : ∃ e0 : Entity (b64Of libm), newSixDof (oneStepEnv libm) (fun _ => []) (Demo.tumbleArgs libm method) = .ok e0 := by
  have hA : ∃ x, generateCwhMatrices (.fin 12 : Fl (b64Of libm)) (.fin 0) "3d" = .ok x := by
    have hd' : pyDiv (1 : Fl (b64Of libm)) (.fin 12) = .ok (1 / .fin 12) := by simp [pyDiv, Fl.eqb]
    simp only [generateCwhMatrices, hd', bind, Except.bind, pure, Except.pure]
    exact ⟨_, rfl⟩
  obtain ⟨x, hA⟩ := hA
  simp only [newSixDof, instantiate, initSixDof, numberListToNp, sixDofAxis, mkSixDofDynamics, mkOdeDyn, Demo.tumbleArgs, hA, bind, Except.bind, pure, Except.pure]
  exact ⟨_, rfl⟩

/-- it pushes along its first axis and turns about it, faster and faster -/
noncomputable def Demo.tumbleMotion (t : ℝ) : Fin 13 → ℝ :=
  ![1 / 48 * t ^ 2, 0, 0, Real.sin (1 / 128 * t + 1 / 512 * t ^ 2), 0, 0, Real.cos (1 / 128 * t + 1 / 512 * t ^ 2), 1 / 24 * t, 0, 0, 1 / 64 + 1 / 128 * t, 0, 0]

theorem Demo.tumble_limits (libm : Fmt ℚ) (method : String) (i : Fin 3) :
    Fl.pyMin (.fin (1 / 64)) (wheelLimit (Demo.tumbleArgs libm method) (.fin 256) i) = .fin (1 / 64) ∧
    Fl.pyMin (.fin (1 / 16)) (wheelLimit (Demo.tumbleArgs libm method) (.fin 512) i) = .fin (1 / 16) := by
  have min : ∀ a b : ℚ, a ≤ b → Fl.pyMin (.fin a : Fl (b64Of libm)) (.fin b) = .fin a := fun a b h => by
    show (if Fl.ltb (.fin b : Fl (b64Of libm)) (.fin a) then _ else _) = _
    rw [if_neg]
    simp only [Fl.ltb]
    simpa using h
  have e : ∀ w : Fl (b64Of libm), wheelLimit (Demo.tumbleArgs libm method) w i = .fin (1 / 1024) * w / .fin (Demo.tumbleI i) := fun w => by
    simp [wheelLimit, Demo.tumbleArgs]
  rw [e, e, Demo.b64_mul (c := 1 / 4) (by decide +kernel), Demo.b64_mul (c := 1 / 2) (by decide +kernel)]
  fin_cases i
  · show Fl.pyMin (.fin (1 / 64)) (.fin (1 / 4) / .fin (1 / 16) : Fl (b64Of libm)) = _ ∧ Fl.pyMin (.fin (1 / 16)) (.fin (1 / 2) / .fin (1 / 16) : Fl (b64Of libm)) = _
    rw [Demo.b64_div (c := 4) (by norm_num) (by decide +kernel), Demo.b64_div (c := 8) (by norm_num) (by decide +kernel)]
    exact ⟨min _ _ (by norm_num), min _ _ (by norm_num)⟩
  · show Fl.pyMin (.fin (1 / 64)) (.fin (1 / 4) / .fin (1 / 16) : Fl (b64Of libm)) = _ ∧ Fl.pyMin (.fin (1 / 16)) (.fin (1 / 2) / .fin (1 / 16) : Fl (b64Of libm)) = _
    rw [Demo.b64_div (c := 4) (by norm_num) (by decide +kernel), Demo.b64_div (c := 8) (by norm_num) (by decide +kernel)]
    exact ⟨min _ _ (by norm_num), min _ _ (by norm_num)⟩
  · show Fl.pyMin (.fin (1 / 64)) (.fin (1 / 4) / .fin (1 / 8) : Fl (b64Of libm)) = _ ∧ Fl.pyMin (.fin (1 / 16)) (.fin (1 / 2) / .fin (1 / 8) : Fl (b64Of libm)) = _
    rw [Demo.b64_div (c := 2) (by norm_num) (by decide +kernel), Demo.b64_div (c := 4) (by norm_num) (by decide +kernel)]
    exact ⟨min _ _ (by norm_num), min _ _ (by norm_num)⟩

theorem Demo.tumble_applied {libm : Fmt ℚ} {method : String} {e0 : Entity (b64Of libm)} (h0 : newSixDof (oneStepEnv libm) (fun _ => []) (Demo.tumbleArgs libm method) = .ok e0)
    (s : Fin 13 → ℚ) : Applied (oneStepEnv libm) (e0.run (oneStepEnv libm) [.setState (toFl s)]) (.ndarray .f64 (toFl ![1 / 2, 0, 0, 1 / 2048, 0, 0]))
      (toFl (![1 / 2, 0, 0, 1 / 2048, 0, 0] : Fin 6 → ℚ)) := by
  obtain ⟨acc, vel, ha, -, -, -, -, c2, c1⟩ := sixDof_config (accL := fun _ => .fin (1 / 64)) (velL := fun _ => .fin (1 / 16)) (.inl ⟨_, rfl, fun _ => rfl⟩)
    (.inl ⟨_, rfl, fun _ => rfl⟩) h0
  have ha' : ∀ i, acc i = .fin (1 / 64) := fun i => (ha i).trans (Demo.tumble_limits libm method i).1
  have i0 : (Demo.tumbleArgs libm method).inertiaMatrix 0 0 = .fin (1 / 16) := rfl
  have i1 : (Demo.tumbleArgs libm method).inertiaMatrix 1 1 = .fin (1 / 16) := rfl
  have i2 : (Demo.tumbleArgs libm method).inertiaMatrix 2 2 = .fin (1 / 8) := rfl
  have it : (Demo.tumbleArgs libm method).thrustControlLimit = .fin 1 := rfl
  have n1 : (-1 : Fl (b64Of libm)) = .fin (-1) := rfl
  rw [ha', ha', ha', i0, i1, i2, it] at c1 c2
  rw [n1, Demo.b64_mul (a := -1) (b := 1) (c := -1) (by decide +kernel), Demo.b64_mul (a := 1 / 64) (b := 1 / 16) (c := 1 / 1024) (by decide +kernel),
    Demo.b64_mul (a := 1 / 64) (b := 1 / 8) (c := 1 / 512) (by decide +kernel), Demo.b64_mul (a := -1) (b := 1 / 1024) (c := -(1 / 1024)) (by decide +kernel),
    Demo.b64_mul (a := -1) (b := 1 / 512) (c := -(1 / 512)) (by decide +kernel)] at c1
  rw [Demo.b64_mul (a := 1 / 64) (b := 1 / 16) (c := 1 / 1024) (by decide +kernel),
    Demo.b64_mul (a := 1 / 64) (b := 1 / 8) (c := 1 / 512) (by decide +kernel)] at c2
  refine applied_of (ty := .f64) (u := toFl ![1 / 2, 0, 0, 1 / 2048, 0, 0]) rfl ?_
  show npClip _ (Arr.forDType .f64 e0.controlMin) (Arr.forDType .f64 e0.controlMax) = _
  rw [c1, c2]
  rw [npClip_toFl (R := b64Of libm) ![1 / 2, 0, 0, 1 / 2048, 0, 0] (l := ![some (-1), some (-1), some (-1), some (-(1 / 1024)), some (-(1 / 1024)), some (-(1 / 512))])
    (h := ![some 1, some 1, some 1, some (1 / 1024), some (1 / 1024), some (1 / 512)]) (.inl (by simp [List.ofFn_succ, loFl, Arr.forDType])) (.inl (by simp [List.ofFn_succ, hiFl, Arr.forDType]))]
  congr 2
  funext i
  fin_cases i <;> (simp [kclip]; try norm_num)

/-- Pushing and turning for a millisecond, a spacecraft meets the hypotheses of both theorems. -/
example (libm : Fmt ℚ) (method : String) : ∃ e0 e : Entity (b64Of libm),
    newSixDof (oneStepEnv libm) (fun _ => []) (Demo.tumbleArgs libm method) = .ok e0 ∧
    e = e0.run (oneStepEnv libm) [.setState (toFl ![0, 0, 0, 0, 0, 0, 1, 0, 0, 0, 1 / 64, 0, 0])] ∧
    (∀ i, (Demo.tumbleArgs libm method).inertiaMatrix i i = .fin (Demo.tumbleI i)) ∧
    AxisLimits (Demo.tumbleArgs libm method).angAccLimit (fun _ => .fin (1 / 64)) ∧ AxisLimits (Demo.tumbleArgs libm method).angVelLimit (fun _ => .fin (1 / 16)) ∧
    (∀ i, Fl.pyMin (.fin (1 / 16)) (wheelLimit (Demo.tumbleArgs libm method) (Demo.tumbleArgs libm method).velLimitWheel i) = .fin (1 / 16)) ∧
    TumbleUnits 1 1 1 (1 / 64) 12 0 Demo.tumbleI (1 / 1024) 1 2 4 (1 / 2) (1 / 1024) 4 ∧
    (∀ U : Fin 6 → ℚ, Integrates (oneStepEnv libm) 13 (2 ^ 100) (1 / 1000) 1 (fun t y => e.dynamics.computeStateDot t y (toFl U)) (1 / 1000)) ∧
    (∀ i, |(![0, 0, 0, 0, 0, 0, 1, 0, 0, 0, 1 / 64, 0, 0] : Fin 13 → ℝ) i - Demo.tumbleMotion 0 i| ≤ 0) ∧
    TumbleFollows (oneStepEnv libm) e (tumbleW 1 1 1 (1 / 64)) 12 0 Demo.tumbleI (Demo.tumbleArgs libm method).bodyFrameThrust (fun _ => 1 / 16) 1 4 (1 / 2) (1 / 1024)
      [(1 / 1000, .ndarray .f64 (toFl ![1 / 2, 0, 0, 1 / 2048, 0, 0]))] (Demo.tumbleMotion 0) (Demo.tumbleMotion (1 / 1000)) ∧
    Real.exp (2 * (1 / 1000)) * (0 + (2 * (2⁻¹ ^ 19 * (2 * 4 + 4)) + 46 * 2 * (2 * (2 * 4 + 4)) * (1 / 1000)) * (1 / 1000) +
      1 * 1 * (2 * (2⁻¹ ^ 48 * (4 + 26 * (1 / 1000) * (2 * (2 * 4 + 4)) + 2⁻¹ ^ 500))))
      + 26 * (1 / 1000) * (2 * (2 * 4 + 4)) + 2⁻¹ ^ 48 * (4 + 26 * (1 / 1000) * (2 * (2 * 4 + 4)) + 2⁻¹ ^ 500) ≤ (1 : ℝ) := by
  obtain ⟨e0, h0⟩ := Demo.tumble_new libm method
  refine ⟨e0, _, h0, rfl, fun i => by simp [Demo.tumbleArgs], .inl ⟨_, rfl, fun _ => rfl⟩, .inl ⟨_, rfl, fun _ => rfl⟩, fun i => (Demo.tumble_limits libm method i).2,
    Demo.tumbleUnits, fun U => oneStepEnv_integrates libm (by norm_num) le_rfl _, fun i => by fin_cases i <;> simp [Demo.tumbleMotion], ?_, ?_⟩
  · refine ⟨by norm_num, ![1 / 2, 0, 0, 1 / 2048, 0, 0], Demo.tumbleMotion, Demo.tumble_applied h0 _, ?_, ?_, ?_, rfl, ?_⟩
    · simp only [Matrix.cons_val]
      norm_num [abs_of_pos]
    · simp only [Matrix.cons_val]
      norm_num [abs_of_pos]
    · intro t ⟨t0, t1⟩
      push_cast at t1
      have t2 : t ^ 2 ≤ 1 := by nlinarith
      have r1 : |(1 / 64 + 1 / 128 * t : ℝ)| ≤ 1 / 32 := by
        rw [abs_of_nonneg (by positivity)]
        linarith
      refine ⟨hasDerivWithinAt_pi.2 fun i => HasDerivAt.hasDerivWithinAt ?_, fun i => ?_, ?_, ?_, ?_⟩
      · have hid := hasDerivAt_id t
        have hz : HasDerivAt (fun _ : ℝ => (0 : ℝ)) 0 t := hasDerivAt_const t 0
        have hθ : HasDerivAt (fun t : ℝ => 1 / 128 * t + 1 / 512 * t ^ 2) (1 / 128 + 1 / 256 * t) t :=
          ((hid.const_mul (1 / 128)).add ((hid.pow 2).const_mul (1 / 512))).congr_deriv (by simp; ring)
        have sc := Real.sin_sq_add_cos_sq (1 / 128 * t + 1 / 512 * t ^ 2)
        fin_cases i
        · refine ((hid.pow 2).const_mul (1 / 48)).congr_deriv ?_
          simp [tumbling, Demo.tumbleMotion]
          ring
        · exact hz.congr_deriv (by simp [tumbling, Demo.tumbleMotion])
        · exact hz.congr_deriv (by simp [tumbling, Demo.tumbleMotion])
        · refine hθ.sin.congr_deriv ?_
          simp [tumbling, Demo.tumbleMotion]
          ring
        · exact hz.congr_deriv (by simp [tumbling, Demo.tumbleMotion])
        · exact hz.congr_deriv (by simp [tumbling, Demo.tumbleMotion])
        · refine hθ.cos.congr_deriv ?_
          simp [tumbling, Demo.tumbleMotion]
          ring
        · refine (hid.const_mul (1 / 24)).congr_deriv ?_
          simp [tumbling, Demo.tumbleMotion, hillForce, toHill, Demo.tumbleArgs]
          nlinarith
        · exact hz.congr_deriv (by simp [tumbling, Demo.tumbleMotion, hillForce, toHill, Demo.tumbleArgs])
        · exact hz.congr_deriv (by simp [tumbling, Demo.tumbleMotion, hillForce, toHill, Demo.tumbleArgs])
        · refine ((hid.const_mul (1 / 128)).const_add (1 / 64)).congr_deriv ?_
          simp [tumbling, Demo.tumbleMotion, Demo.tumbleI]
          norm_num
        · exact hz.congr_deriv (by simp [tumbling, Demo.tumbleMotion])
        · exact hz.congr_deriv (by simp [tumbling, Demo.tumbleMotion])
      · have s1 := Real.abs_sin_le_one (1 / 128 * t + 1 / 512 * t ^ 2)
        have c1 := Real.abs_cos_le_one (1 / 128 * t + 1 / 512 * t ^ 2)
        have x1 : |1 / 48 * t ^ 2| ≤ 1 := by rw [abs_of_nonneg (by positivity)]; linarith
        have v1 : |1 / 24 * t| ≤ 1 := by rw [abs_of_nonneg (by positivity)]; linarith
        have one : ∀ {a : ℝ}, |a| ≤ 1 → |a| + ((1 : ℚ) : ℝ) * 1 ≤ ((1 : ℚ) : ℝ) * ((4 : ℚ) : ℝ) := fun h => by push_cast; linarith
        have zero : |(0 : ℝ)| ≤ 1 := by simp
        fin_cases i
        · exact one x1
        · exact one zero
        · exact one zero
        · exact one s1
        · exact one zero
        · exact one zero
        · exact one c1
        · exact one v1
        · exact one zero
        · exact one zero
        · show |(1 / 64 + 1 / 128 * t : ℝ)| + ((1 / 64 : ℚ) : ℝ) * 1 ≤ ((1 / 64 : ℚ) : ℝ) * ((4 : ℚ) : ℝ)
          push_cast
          linarith
        · show |(0 : ℝ)| + ((1 / 64 : ℚ) : ℝ) * 1 ≤ ((1 / 64 : ℚ) : ℝ) * ((4 : ℚ) : ℝ)
          norm_num
        · show |(0 : ℝ)| + ((1 / 64 : ℚ) : ℝ) * 1 ≤ ((1 / 64 : ℚ) : ℝ) * ((4 : ℚ) : ℝ)
          norm_num
      · show |(1 / 64 + 1 / 128 * t : ℝ)| + ((1 / 64 : ℚ) : ℝ) * 1 < ((1 / 16 : ℚ) : ℝ)
        push_cast
        linarith
      · show |(0 : ℝ)| + ((1 / 64 : ℚ) : ℝ) * 1 < ((1 / 16 : ℚ) : ℝ)
        norm_num
      · show |(0 : ℝ)| + ((1 / 64 : ℚ) : ℝ) * 1 < ((1 / 16 : ℚ) : ℝ)
        norm_num
    · show Demo.tumbleMotion (1 / 1000) = Demo.tumbleMotion ((1 / 1000 : ℚ) : ℝ)
      push_cast
      rfl
  · obtain ⟨κ, hκ⟩ : ∃ κ : ℝ, κ = 2⁻¹ ^ 500 := ⟨_, rfl⟩
    have hκ1 : κ ≤ 1 := by rw [hκ]; exact pow_le_one₀ (by norm_num) (by norm_num)
    have hκ0 : 0 ≤ κ := by rw [hκ]; exact pow_nonneg (by norm_num) _
    rw [← hκ]
    have he : Real.exp (2 * (1 / 1000)) ≤ 3 :=
      (Real.exp_le_exp.2 (show _ ≤ (1 : ℝ) by norm_num)).trans (Real.exp_one_lt_d9.le.trans (by norm_num))
    calc _ ≤ (3 : ℝ) * (0 + (2 * (2⁻¹ ^ 19 * (2 * 4 + 4)) + 46 * 2 * (2 * (2 * 4 + 4)) * (1 / 1000)) * (1 / 1000) +
          1 * 1 * (2 * (2⁻¹ ^ 48 * (4 + 26 * (1 / 1000) * (2 * (2 * 4 + 4)) + 1))))
          + 26 * (1 / 1000) * (2 * (2 * 4 + 4)) + 2⁻¹ ^ 48 * (4 + 26 * (1 / 1000) * (2 * (2 * 4 + 4)) + 1) := by gcongr
      _ ≤ _ := by norm_num

end SAD
