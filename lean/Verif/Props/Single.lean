import Verif.Lemmas.Single
import Verif.Lemmas.RoundCwh
import Verif.Lemmas.SixDof
import Verif.Props.Demo

/-!
# C93: single precision inside the rotating spacecraft
-/

set_option linter.unusedSectionVars false

namespace SAD
open Spec

section
variable {K : Type} {R : Fmt K} [Field K] [LinearOrder K]

theorem npClip_inf (a : Fl R) : (a.npMax .ninf).npMin .pinf = a := Fl.clip_inf a

/-- the limits of the planar rotating spacecraft leave the translation alone -/
theorem rot2d_limited {env : Env R} {args : Rot2dArgs R} {e0 e : Entity R} (h : newRot2d env args = .ok e0) (hc : SameConfig e0 e) {t : Fl R} {x y θ vx vy w : K} {u : Vec R}
    {r0 r1 r2 r3 r4 r5 : Fl R} (hr : e.dynamics.rhs t [.fin x, .fin y, .fin θ, .fin vx, .fin vy, .fin w] u = .ok [r0, r1, r2, r3, r4, r5]) :
    ∃ a2 a5, e.dynamics.computeStateDot t [.fin x, .fin y, .fin θ, .fin vx, .fin vy, .fin w] u = .ok [r0, r1, a2, r3, r4, a5] := by
  obtain ⟨-, acc, vel, -, -, g1, g2, g3, g4, -⟩ := rot2d_config h
  rw [← hc.2.2.2.2.2] at g1 g2 g3 g4
  simp only at g1 g2 g3 g4
  unfold Dyn.computeStateDot
  rw [hr]
  simp [bind, Except.bind, Dyn.clipStateDotDirect, Dyn.clipStateDotByStateLimits, g1, g2, g3, g4, npClip, npWhere, Arr.toVec, bcast2, npClip_inf]

/-- an Euler step of the planar rotating spacecraft -/
theorem rot2d_euler [FloorRing K] {env env' : Env R} {args : Rot2dArgs R} {e0 e : Entity R} (h : newRot2d env args = .ok e0) (hc : SameConfig e0 e)
    (hm : e.dynamics.integrationMethod = "Euler") (hs : e.dynamics.trajectorySamples ≤ 0) {T : Fl R} {s0 s1 s2 s3 s4 s5 : Fl R} {u : Vec R}
    {r0 r1 r2 r3 r4 r5 : Fl R} (hr : e.dynamics.computeStateDot 0 [s0, s1, s2, s3, s4, s5] u = .ok [r0, r1, r2, r3, r4, r5]) :
    ∃ b2 b5, e.dynamics.step env' T [s0, s1, s2, s3, s4, s5] u =
      (e.dynamics, .ok ([s0 + T * r0, s1 + T * r1, b2, s3 + T * r3, s4 + T * r4, b5], [r0, r1, r2, r3, r4, r5])) := by
  obtain ⟨-, acc, vel, -, -, g1, g2, -, -, g5, -⟩ := rot2d_config h
  obtain ⟨-, hcu, -⟩ := rot2d_rhs h
  rw [← hc.2.2.2.2.2] at g1 g2 g5 hcu
  simp only at g1 g2 g5 hcu
  have hs' : ¬ 0 < e.dynamics.trajectorySamples := by omega
  simp only [Dyn.step, Dyn.rawStep, hcu, Dyn.odeStep, hm, show ("Euler" = "RK45") = False from by simp,
    show ("Euler" = "RK45_JAX") = False from by simp, if_false, if_true, hs', hr, bind, Except.bind, pure, Except.pure]
  simp [vadd, vscale, bcast2, npClip, bind, Except.bind, g1, g2, Arr.toVec, npClip_inf, Dyn.wrapAngles, g5, Fl.isNan]

end

section
variable {K : Type} {R : Fmt K} [Field K] [LinearOrder K]

theorem toFl_13 (y : Fin 13 → K) : (toFl y : Vec R) = [.fin (y 0), .fin (y 1), .fin (y 2), .fin (y 3), .fin (y 4), .fin (y 5), .fin (y 6), .fin (y 7),
    .fin (y 8), .fin (y 9), .fin (y 10), .fin (y 11), .fin (y 12)] := rfl

theorem toFl_6 (y : Fin 6 → K) : (toFl y : Vec R) = [.fin (y 0), .fin (y 1), .fin (y 2), .fin (y 3), .fin (y 4), .fin (y 5)] := rfl

theorem sixDof_parts64 {env : Env R} {uninit : List Nat → Vec R} {a : SixDofArgs R} {e : Entity R} (h : newSixDof env uninit a = .ok e) :
    ∃ A B v0 v1 v2, generateCwhMatrices a.m a.n "3d" = .ok (A, B) ∧
      e.dynamics.rhs = affineRhs (sixDofF A a.inertiaMatrix) (sixDofG a.m a.inertiaMatrix B a.bodyFrameThrust) ∧
      e.dynamics.stateMin = .vec (List.replicate 10 .ninf ++ [-v0, -v1, -v2]) ∧ e.dynamics.stateMax = .vec (List.replicate 10 .pinf ++ [v0, v1, v2]) ∧
      e.dynamics.stateDotMin = .scalar .ninf ∧ e.dynamics.stateDotMax = .scalar .pinf := by
  have h := instantiate_ok h
  unfold initSixDof at h
  obtain ⟨acc, -, h⟩ := Except.bind_ok.1 h
  obtain ⟨vel, -, h⟩ := Except.bind_ok.1 h
  obtain ⟨⟨a0, w0, c0⟩, -, h⟩ := Except.bind_ok.1 h
  obtain ⟨⟨a1, w1, c1⟩, -, h⟩ := Except.bind_ok.1 h
  obtain ⟨⟨a2, w2, c2⟩, -, h⟩ := Except.bind_ok.1 h
  obtain ⟨d, hd, h⟩ := Except.bind_ok.1 h
  obtain ⟨g1, -⟩ := baseInit_ok h
  unfold mkSixDofDynamics at hd
  obtain ⟨_, -, hd⟩ := Except.bind_ok.1 hd
  obtain ⟨vel, -, hd⟩ := Except.bind_ok.1 hd
  obtain ⟨⟨A, B⟩, hAB, hd⟩ := Except.bind_ok.1 hd
  obtain ⟨v0, -, hd⟩ := Except.bind_ok.1 hd
  obtain ⟨v1, -, hd⟩ := Except.bind_ok.1 hd
  obtain ⟨v2, -, hd⟩ := Except.bind_ok.1 hd
  obtain ⟨k, -, -, rfl⟩ := mkOdeDyn_ok hd
  rw [g1]
  exact ⟨A, B, v0, v1, v2, hAB, rfl, rfl, rfl, rfl, rfl⟩

end

section
variable {libm : Fmt ℚ}

/-- the raw derivative of the planar rotating spacecraft in double precision -/
theorem rot2d_raw {env : Env (b64Of libm)} {args : Rot2dArgs (b64Of libm)} {e0 e : Entity (b64Of libm)} (h : newRot2d env args = .ok e0)
    (hc : SameConfig e0 e)
    {x y θ vx vy w vx' vy' : ℚ} {u : Fin 3 → ℚ} (hx : |x| ≤ 2 ^ (127 : ℤ)) (hy : |y| ≤ 2 ^ (127 : ℤ))
    (hvx : rndBin 24 (-126) 127 vx = .val vx') (hvy : rndBin 24 (-126) 127 vy = .val vy') (t : Fl (b64Of libm)) :
    ∃ a2 a5, e.dynamics.rhs t [.fin x, .fin y, .fin θ, .fin vx, .fin vy, .fin w] (toFl u) =
      .ok [.fin vx', .fin vy', a2,
        Fl.cast32 (dot (List.ofFn ![3 * (args.n * args.n), 0, 0, 2 * args.n])
          (List.ofFn fun j => (.fin ((![x, y, vx, vy] : Fin 4 → ℚ) j) : Fl (b64Of libm)).cast32)) +
          dot (List.ofFn ![Fl.cos (.fin θ) / args.m, -Fl.sin (.fin θ) / args.m, 0]) (toFl u),
        Fl.cast32 (dot (List.ofFn ![0, 0, -2 * args.n, 0])
          (List.ofFn fun j => (.fin ((![x, y, vx, vy] : Fin 4 → ℚ) j) : Fl (b64Of libm)).cast32)) +
          dot (List.ofFn ![Fl.sin (.fin θ) / args.m, Fl.cos (.fin θ) / args.m, 0]) (toFl u), a5] := by
  obtain ⟨h1, -⟩ := rot2d_rhs h
  rw [← hc.2.2.2.2.2] at h1
  simp only at h1
  obtain ⟨hI, -⟩ := rot2d_config h
  obtain ⟨x', hx', -⟩ := single_near hx
  obtain ⟨y', hy', -⟩ := single_near hy
  have hk : pyDiv 1 args.inertia = .ok (1 / args.inertia) := by
    rw [Fl.zero_fin] at hI
    unfold pyDiv; rw [hI]; rfl
  obtain ⟨c1, r1⟩ := single_fix hvx
  obtain ⟨c2, r2⟩ := single_fix hvy
  rw [h1]
  simp only [toFl, List.ofFn_succ, List.ofFn_zero, Matrix.cons_val_zero, Matrix.cons_val_succ]
  simp only [affineRhs, rot2dF, rot2dG, getIdx, matVec, dot, bind, Except.bind, pure, Except.pure, hk, vadd, bcast2, List.length_cons,
    List.length_nil, List.map_cons, List.map_nil, List.zipWith_cons_cons, List.zipWith_nil_left, List.foldl_cons, List.foldl_nil,
    cast32_val hx', cast32_val hy', cast32_val hvx, cast32_val hvy, b64_zero_mul, b64_zero_add_zero, b64_one_mul r1, b64_one_mul r2,
    b64_zero_add r1, b64_zero_add r2, b64_add_zero r1, b64_add_zero r2, cast32_val c1, cast32_val c2, List.getElem?_cons_zero,
    List.getElem?_cons_succ, if_true]
  exact ⟨_, _, rfl⟩

theorem rot2d_coefs {K : Type} [Field K] [LinearOrder K] [IsStrictOrderedRing K] [FloorRing K] {R : Fmt K} {ε τ M : K} (hR : Rounds R ε τ M) {n m c s L η : K}
    (hL : 1 ≤ L) (hτ1 : τ ≤ 1) (hη : 4 * τ ≤ η) (hM : (1 + ε) ^ 2 * (8 * L ^ 2) ≤ M) (hn : |n| ≤ L) (hm0 : m ≠ 0) (hm : |m⁻¹| ≤ L) (hc : |c| ≤ 1)
    (hs : |s| ≤ 1) :
    (∀ j, Near ε 2 ((![3 * (.fin n * .fin n), 0, 0, 2 * .fin n] : Fin 4 → Fl R) j) ((![3 * n ^ 2, 0, 0, 2 * n] : Fin 4 → K) j)
        ((![3 * n ^ 2 + η, 0, 0, 2 * |n| + η] : Fin 4 → K) j)) ∧
    (∀ j, Near ε 2 ((![0, 0, -2 * .fin n, 0] : Fin 4 → Fl R) j) ((![0, 0, -2 * n, 0] : Fin 4 → K) j)
        ((![0, 0, 2 * |n| + η, 0] : Fin 4 → K) j)) ∧
    Near ε 1 (.fin c / .fin m : Fl R) (c / m) (|c / m| + η) ∧ Near ε 1 (.fin s / .fin m : Fl R) (s / m) (|s / m| + η) ∧
    Near ε 1 (-.fin s / .fin m : Fl R) (-(s / m)) (|s / m| + η) := by
  have hε := hR.eps
  have hτ := hR.tau
  have hn0 := abs_nonneg n
  have hL2 : L ≤ L ^ 2 := by nlinarith
  have hnn : |n| * |n| ≤ L ^ 2 := by rw [pow_two]; exact mul_le_mul hn hn hn0 (by linarith)
  have hnn0 : 0 ≤ |n| * |n| := mul_nonneg hn0 hn0
  have hM : ∀ (k : ℕ) (y : K), k ≤ 2 → 0 ≤ y → y ≤ 8 * L ^ 2 → (1 + ε) ^ k * y ≤ M := fun k y hk hy hy' =>
    (mul_le_mul (pow_le_pow_right₀ (by linarith) hk) hy' hy (by positivity)).trans hM
  have h0 : Near ε 2 (0 : Fl R) 0 0 := by
    have := (near_fin (R := R) (ε := ε) (0 : K)).mono hε (Nat.zero_le 2) le_rfl
    rw [abs_zero] at this
    rwa [Fl.zero_fin]
  have hsq : Near ε 1 ((.fin n : Fl R) * .fin n) (n * n) (|n| * |n| + τ) :=
    (near_fin n).mul hR (near_fin n) (hM _ _ (by omega) hnn0 (by linarith))
  have hdiv : ∀ {c : K}, |c| ≤ 1 → Near ε 1 (.fin c / .fin m : Fl R) (c / m) (|c / m| + η) := fun {c} hc => by
    have hcm : |c / m| ≤ L := by
      rw [div_eq_mul_inv, abs_mul]
      have := mul_le_mul hc hm (abs_nonneg _) (by norm_num)
      linarith
    have hML := hM 0 L (by omega) (by linarith) (by linarith)
    rw [pow_zero, one_mul] at hML
    exact (near_div hR hm0 (hcm.trans hML)).mono hε le_rfl (by linarith)
  have h3 : Near ε 2 (3 * ((.fin n : Fl R) * .fin n)) (3 * n ^ 2) (3 * n ^ 2 + η) := by
    have := (near_nat hε 3).mul hR hsq (hM _ _ (by omega) (by positivity) (by linarith))
    rw [← pow_two] at this
    refine this.mono hε (by omega) ?_
    rw [show |n| * |n| = n ^ 2 by rw [← pow_two, sq_abs]]
    linarith
  have h2 : Near ε 2 (2 * (.fin n : Fl R)) (2 * n) (2 * |n| + η) :=
    ((near_nat hε 2).mul hR (near_fin n) (hM _ _ (by omega) (by positivity) (by linarith))).mono hε (by omega) (by linarith)
  have h2' : Near ε 2 (-2 * (.fin n : Fl R)) (-2 * n) (2 * |n| + η) :=
    ((near_nat hε 2).neg.mul hR (near_fin n) (hM _ _ (by omega) (by positivity) (by linarith))).mono hε (by omega) (by linarith)
  refine ⟨fun j => ?_, fun j => ?_, hdiv hc, hdiv hs, ?_⟩
  · fin_cases j
    · exact h3
    · exact h0
    · exact h0
    · exact h2
  · fin_cases j
    · exact h0
    · exact h0
    · exact h2'
    · exact h0
  · have := hdiv (c := -s) (by rwa [abs_neg])
    rw [neg_div, abs_neg] at this
    exact this

theorem single_room : (1 : ℚ) ≤ 2 ^ 30 ∧ (2 : ℚ) ^ (-126 : ℤ) ≤ 1 ∧ 4 * (2 : ℚ) ^ (-126 : ℤ) ≤ 2⁻¹ ^ 100 ∧
    (1 + (2⁻¹ : ℚ) ^ 24) ^ 2 * (8 * (2 ^ 30) ^ 2) ≤ 2 ^ (127 : ℤ) ∧ 4 * (2 : ℚ) ^ 60 + 1 ≤ 2 ^ 70 ∧ (2⁻¹ : ℚ) ^ 100 * 2 ^ 30 ≤ 2⁻¹ ^ 60 ∧
    (2⁻¹ : ℚ) ^ 50 + 10 * 2⁻¹ ^ 60 ≤ 2⁻¹ ^ 40 ∧ (2 : ℚ) ^ 30 ≤ 2 ^ (127 : ℤ) ∧ (2⁻¹ : ℚ) ^ 100 ≤ 1 ∧ (2 : ℚ) ^ 30 ≤ 2 ^ 60 ∧
    ((2 : ℚ) ^ 30) ^ 2 = 2 ^ 60 := by decide +kernel

/-- the computed accelerations of the planar rotating spacecraft -/
theorem rot2d_accelerations {x y vx vy n m : ℚ} {u : Fin 3 → ℚ} (hx : |x| ≤ 2 ^ 30) (hy : |y| ≤ 2 ^ 30) (hvx : |vx| ≤ 2 ^ 30) (hvy : |vy| ≤ 2 ^ 30)
    (hn : |n| ≤ 2 ^ 30) (hm0 : m ≠ 0) (hm : |m⁻¹| ≤ 2 ^ 30) (hu : ∀ j, |u j| ≤ 2 ^ 30) {c s : ℚ} (hc : |c| ≤ 1) (hs : |s| ≤ 1) :
    (∃ v : ℚ, Fl.cast32 (dot (List.ofFn (![3 * (.fin n * .fin n), 0, 0, 2 * .fin n] : Fin 4 → Fl (b64Of libm)))
          (List.ofFn fun j => (.fin ((![x, y, vx, vy] : Fin 4 → ℚ) j) : Fl (b64Of libm)).cast32)) +
          dot (List.ofFn (![.fin c / .fin m, -.fin s / .fin m, 0] : Fin 3 → Fl (b64Of libm))) (toFl u) = .fin v ∧
      |v - (3 * n ^ 2 * x + 2 * n * vy + (c * u 0 - s * u 1) / m)| ≤
        2⁻¹ ^ 20 * (3 * n ^ 2 * |x| + 2 * |n| * |vy| + (|c * u 0| + |s * u 1|) / |m| + 2⁻¹ ^ 40)) ∧
    (∃ v : ℚ, Fl.cast32 (dot (List.ofFn (![0, 0, -2 * .fin n, 0] : Fin 4 → Fl (b64Of libm)))
          (List.ofFn fun j => (.fin ((![x, y, vx, vy] : Fin 4 → ℚ) j) : Fl (b64Of libm)).cast32)) +
          dot (List.ofFn (![.fin s / .fin m, .fin c / .fin m, 0] : Fin 3 → Fl (b64Of libm))) (toFl u) = .fin v ∧
      |v - (-2 * n * vx + (s * u 0 + c * u 1) / m)| ≤
        2⁻¹ ^ 20 * (2 * |n| * |vx| + (|s * u 0| + |c * u 1|) / |m| + 2⁻¹ ^ 40)) := by
  obtain ⟨r1, r2, r3, r4, r5, r6, r7, r8, r9, r10, r11⟩ := single_room
  obtain ⟨k1, k2, k3, k4, k5⟩ := rot2d_coefs (b64_rounds24 libm) r1 r2 r3 r4 hn hm0 hm hc hs
  have hε := (b64_rounds24 libm).eps
  have he := single_eps
  have h0 : Near (2⁻¹ ^ 24) 1 (0 : Fl (b64Of libm)) 0 0 := by
    have := (near_fin (R := b64Of libm) (ε := 2⁻¹ ^ 24) (0 : ℚ)).mono hε (Nat.zero_le 1) le_rfl
    rw [abs_zero] at this
    rwa [Fl.zero_fin]
  have hstate : ∀ j, |(![x, y, vx, vy] : Fin 4 → ℚ) j| ≤ 2 ^ 30 := by
    intro j; fin_cases j
    · exact hx
    · exact hy
    · exact hvx
    · exact hvy
  have hn2 : n ^ 2 ≤ 2 ^ 60 := by
    rw [← r11, ← sq_abs]
    exact pow_le_pow_left₀ (abs_nonneg n) hn 2
  have hcm : ∀ c : ℚ, |c| ≤ 1 → |c / m| ≤ 2 ^ 30 := fun c hc => by
    rw [div_eq_mul_inv, abs_mul]
    have := mul_le_mul hc hm (abs_nonneg _) (by norm_num)
    linarith
  have hη : ∀ a : ℚ, |a| ≤ 2 ^ 30 → 2⁻¹ ^ 100 * |a| ≤ 2⁻¹ ^ 60 := fun a ha => by
    have := mul_le_mul_of_nonneg_left ha (show (0 : ℚ) ≤ 2⁻¹ ^ 100 by positivity)
    exact this.trans r6
  have hdm : ∀ a b : ℚ, |a / m| * |b| = |a * b| / |m| := fun a b => by rw [abs_div, abs_mul]; ring
  have n0 := sq_nonneg n
  have c1 := hcm c hc
  have c2 := hcm s hs
  constructor
  · have := near_single_row (libm := libm) (zg := ![.fin c / .fin m, -.fin s / .fin m, 0]) (g := ![c / m, -(s / m), 0])
      (b := ![|c / m| + 2⁻¹ ^ 100, |s / m| + 2⁻¹ ^ 100, 0]) k1 (fun j => by
        fin_cases j
        · show 3 * n ^ 2 + 2⁻¹ ^ 100 ≤ (2 : ℚ) ^ 70
          linarith
        · show (0 : ℚ) ≤ 2 ^ 70
          positivity
        · show (0 : ℚ) ≤ 2 ^ 70
          positivity
        · show 2 * |n| + 2⁻¹ ^ 100 ≤ (2 : ℚ) ^ 70
          linarith) hstate (fun j => by
        fin_cases j
        · exact k3
        · exact k5
        · exact h0) (fun j => by
        fin_cases j
        · show |c / m| + 2⁻¹ ^ 100 ≤ (2 : ℚ) ^ 70
          linarith
        · show |s / m| + 2⁻¹ ^ 100 ≤ (2 : ℚ) ^ 70
          linarith
        · show (0 : ℚ) ≤ 2 ^ 70
          positivity) hu
    obtain ⟨g1, v, g2, g3⟩ := this
    refine ⟨v, g2, ?_⟩
    have ex : (∑ j, (![3 * n ^ 2, 0, 0, 2 * n] : Fin 4 → ℚ) j * (![x, y, vx, vy] : Fin 4 → ℚ) j + ∑ j, (![c / m, -(s / m), 0] : Fin 3 → ℚ) j * u j) =
        3 * n ^ 2 * x + 2 * n * vy + (c * u 0 - s * u 1) / m := by
      simp [Fin.sum_univ_three, Fin.sum_univ_four]
      ring
    have em : (∑ j, (![3 * n ^ 2 + 2⁻¹ ^ 100, 0, 0, 2 * |n| + 2⁻¹ ^ 100] : Fin 4 → ℚ) j * |(![x, y, vx, vy] : Fin 4 → ℚ) j| +
        ∑ j, (![|c / m| + 2⁻¹ ^ 100, |s / m| + 2⁻¹ ^ 100, 0] : Fin 3 → ℚ) j * |u j| + 2⁻¹ ^ 50) ≤
        3 * n ^ 2 * |x| + 2 * |n| * |vy| + (|c * u 0| + |s * u 1|) / |m| + 2⁻¹ ^ 40 := by
      simp only [Fin.sum_univ_three, Fin.sum_univ_four, Matrix.cons_val]
      rw [add_mul, add_mul, add_mul, add_mul, hdm, hdm, add_div]
      have := hη x hx
      have := hη vy hvy
      have := hη (u 0) (hu 0)
      have := hη (u 1) (hu 1)
      linarith
    rw [ex] at g3
    exact g3.trans (mul_le_mul he em (g1.trans' (abs_nonneg _)) (by positivity))
  · have := near_single_row (libm := libm) (zg := ![.fin s / .fin m, .fin c / .fin m, 0]) (g := ![s / m, c / m, 0])
      (b := ![|s / m| + 2⁻¹ ^ 100, |c / m| + 2⁻¹ ^ 100, 0]) k2 (fun j => by
        fin_cases j
        · show (0 : ℚ) ≤ 2 ^ 70
          positivity
        · show (0 : ℚ) ≤ 2 ^ 70
          positivity
        · show 2 * |n| + 2⁻¹ ^ 100 ≤ (2 : ℚ) ^ 70
          linarith
        · show (0 : ℚ) ≤ 2 ^ 70
          positivity) hstate (fun j => by
        fin_cases j
        · exact k4
        · exact k3
        · exact h0) (fun j => by
        fin_cases j
        · show |s / m| + 2⁻¹ ^ 100 ≤ (2 : ℚ) ^ 70
          linarith
        · show |c / m| + 2⁻¹ ^ 100 ≤ (2 : ℚ) ^ 70
          linarith
        · show (0 : ℚ) ≤ 2 ^ 70
          positivity) hu
    obtain ⟨g1, v, g2, g3⟩ := this
    refine ⟨v, g2, ?_⟩
    have ex : (∑ j, (![0, 0, -2 * n, 0] : Fin 4 → ℚ) j * (![x, y, vx, vy] : Fin 4 → ℚ) j + ∑ j, (![s / m, c / m, 0] : Fin 3 → ℚ) j * u j) =
        -2 * n * vx + (s * u 0 + c * u 1) / m := by
      simp [Fin.sum_univ_three, Fin.sum_univ_four]
      ring
    have em : (∑ j, (![0, 0, 2 * |n| + 2⁻¹ ^ 100, 0] : Fin 4 → ℚ) j * |(![x, y, vx, vy] : Fin 4 → ℚ) j| +
        ∑ j, (![|s / m| + 2⁻¹ ^ 100, |c / m| + 2⁻¹ ^ 100, 0] : Fin 3 → ℚ) j * |u j| + 2⁻¹ ^ 50) ≤
        2 * |n| * |vx| + (|s * u 0| + |c * u 1|) / |m| + 2⁻¹ ^ 40 := by
      simp only [Fin.sum_univ_three, Fin.sum_univ_four, Matrix.cons_val]
      rw [add_mul, add_mul, add_mul, hdm, hdm, add_div]
      have := hη vx hvx
      have := hη (u 0) (hu 0)
      have := hη (u 1) (hu 1)
      have := show (0 : ℚ) < 2⁻¹ ^ 60 by positivity
      linarith
    rw [ex] at g3
    exact g3.trans (mul_le_mul he em (g1.trans' (abs_nonneg _)) (by positivity))

/-- **The rotating spacecraft computes its motion in single precision.** In IEEE double precision, at any point of any history, whatever the
state, control, mass and mean motion (of absolute value at most `2^30`, the mass at least `2^-30`): the derivative of the position is the
velocity rounded to single precision, exactly; the accelerations are the Clohessy-Wiltshire ones with the thrust rotated by the heading, up
to `2^-20` times the sum of the absolute values of the terms. -/
theorem C93_rotational_derivative (libm : Fmt ℚ) (env env' : Env (b64Of libm)) (args : Rot2dArgs (b64Of libm)) (m n : ℚ) (hm : args.m = .fin m)
    (hn : args.n = .fin n) (e0 : Entity (b64Of libm)) (h0 : newRot2d env args = .ok e0) (ops : List (Op (b64Of libm)))
    (t : Fl (b64Of libm)) (x y θ vx vy w : ℚ) (u : Fin 3 → ℚ) (hx : |x| ≤ 2 ^ 30) (hy : |y| ≤ 2 ^ 30) (hvx : |vx| ≤ 2 ^ 30) (hvy : |vy| ≤ 2 ^ 30)
    (hu : ∀ j, |u j| ≤ 2 ^ 30) (hn1 : |n| ≤ 2 ^ 30) (hm1 : |m⁻¹| ≤ 2 ^ 30) (hcos : |libm.cos θ| ≤ 1) (hsin : |libm.sin θ| ≤ 1) :
    ∃ (v0 v1 v3 v4 : ℚ) (v2 v5 : Fl (b64Of libm)),
      (e0.run env' ops).dynamics.computeStateDot t [.fin x, .fin y, .fin θ, .fin vx, .fin vy, .fin w] (toFl u) =
        .ok [.fin v0, .fin v1, v2, .fin v3, .fin v4, v5] ∧
      rndBin 24 (-126) 127 vx = .val v0 ∧ rndBin 24 (-126) 127 vy = .val v1 ∧
      |v3 - (3 * n ^ 2 * x + 2 * n * vy + (libm.cos θ * u 0 - libm.sin θ * u 1) / m)| ≤
        2⁻¹ ^ 20 * (3 * n ^ 2 * |x| + 2 * |n| * |vy| + (|libm.cos θ * u 0| + |libm.sin θ * u 1|) / |m| + 2⁻¹ ^ 40) ∧
      |v4 - (-2 * n * vx + (libm.sin θ * u 0 + libm.cos θ * u 1) / m)| ≤
        2⁻¹ ^ 20 * (2 * |n| * |vx| + (|libm.sin θ * u 0| + |libm.cos θ * u 1|) / |m| + 2⁻¹ ^ 40) := by
  have hc := run_sameConfig env' ops e0
  obtain ⟨-, -, -, -, hm0⟩ := rot2d_rhs h0
  have hm0 : m ≠ 0 := by
    rw [hm] at hm0
    simpa [Fl.eqb] using hm0
  have r8 := single_room.2.2.2.2.2.2.2.1
  obtain ⟨v0, g0, -⟩ := single_near (hvx.trans r8)
  obtain ⟨v1, g1, -⟩ := single_near (hvy.trans r8)
  obtain ⟨a2, a5, hr⟩ := rot2d_raw h0 hc (hx.trans r8) (hy.trans r8) g0 g1 (θ := θ) (w := w) (u := u) t
  obtain ⟨⟨v3, q3, b3⟩, ⟨v4, q4, b4⟩⟩ := rot2d_accelerations (libm := libm) hx hy hvx hvy hn1 hm0 hm1 hu hcos hsin
  rw [hn, hm, show Fl.cos (.fin θ) = (.fin (libm.cos θ) : Fl (b64Of libm)) from rfl,
    show Fl.sin (.fin θ) = (.fin (libm.sin θ) : Fl (b64Of libm)) from rfl, q3, q4] at hr
  obtain ⟨v2, v5, h⟩ := rot2d_limited h0 hc hr
  exact ⟨v0, v1, v3, v4, v2, v5, h, g0, g1, b3, b4⟩

/-- Under the Euler method, the position moves by the duration times the velocity rounded to single precision (the product and the sum
are double-precision operations). -/
theorem C93_rotational_step (libm : Fmt ℚ) (env env' : Env (b64Of libm)) (args : Rot2dArgs (b64Of libm)) (e0 : Entity (b64Of libm))
    (h0 : newRot2d env args = .ok e0) (hmeth : args.integrationMethod = "Euler") (hsamp : args.trajectorySamples = some 0)
    (ops : List (Op (b64Of libm))) (x y θ vx vy w vx' vy' : ℚ) (u : Fin 3 → ℚ) (hx : |x| ≤ 2 ^ (127 : ℤ)) (hy : |y| ≤ 2 ^ (127 : ℤ))
    (hvx : rndBin 24 (-126) 127 vx = .val vx') (hvy : rndBin 24 (-126) 127 vy = .val vy')
    (hs : (e0.run env' ops).state = [.fin x, .fin y, .fin θ, .fin vx, .fin vy, .fin w]) (a : Action (b64Of libm))
    (ha : Applied env' (e0.run env' ops) a (toFl u)) (T : Fl (b64Of libm)) (hok : ((e0.run env' ops).step env' T a).outcome = .ok ()) :
    ((e0.run env' ops).step env' T a).entity.state.take 2 = [.fin x + T * .fin vx', .fin y + T * .fin vy'] := by
  have hc := run_sameConfig env' ops e0
  obtain ⟨-, -, k1, k2, -⟩ := rot2d_rhs h0
  have c1 : (e0.run env' ops).dynamics.integrationMethod = e0.dynamics.integrationMethod := by rw [← hc.2.2.2.2.2]
  have c2 : (e0.run env' ops).dynamics.trajectorySamples = e0.dynamics.trajectorySamples := by rw [← hc.2.2.2.2.2]
  have hm' : (e0.run env' ops).dynamics.integrationMethod = "Euler" := by rw [c1, k1, hmeth]
  have hs' : (e0.run env' ops).dynamics.trajectorySamples ≤ 0 := by
    rw [hsamp] at k2
    rw [c2, Option.some.inj k2]
  obtain ⟨ty, q, v, d, s, sd, g1, g2, g3, g4⟩ := step_ok hok
  have hv : v = toFl u := applied_unique (applied_of g1 g2) ha
  obtain ⟨a2, a5, hr⟩ := rot2d_raw h0 hc hx hy hvx hvy (θ := θ) (w := w) (u := u) 0
  obtain ⟨a2, a5, hr⟩ := rot2d_limited h0 hc hr
  obtain ⟨b2, b5, he⟩ := rot2d_euler (env' := env') h0 hc hm' hs' (T := T) hr
  rw [hs, hv, he] at g3
  cases g3
  rw [g4]
  rfl

/-- States that agree to single precision, with the same heading, have the same derivative, bit for bit, in any arithmetic. -/
theorem C93_rotational_resolution {K : Type} {R : Fmt K} [Field K] [LinearOrder K] (env : Env R) (p : Rot2dDynArgs R) (d : Dyn R)
    (hd : mkRot2dDynamics env p = .ok d) (t θ : Fl R) (s s' : Fin 5 → Fl R) (h : ∀ i, (s i).cast32 = (s' i).cast32) (u : Vec R) :
    d.rhs t [s 0, s 1, θ, s 2, s 3, s 4] u = d.rhs t [s' 0, s' 1, θ, s' 2, s' 3, s' 4] u := by
  unfold mkRot2dDynamics at hd
  obtain ⟨d', hd', hd⟩ := Except.bind_ok.1 hd
  obtain ⟨⟨A, B⟩, hAB, hd⟩ := Except.bind_ok.1 hd
  cases hd
  simp only [affineRhs, rot2dF, rot2dG, h, getIdx, List.getElem?_cons_succ, List.getElem?_cons_zero]

/-- In double precision the six-degrees-of-freedom spacecraft, too, moves with its velocity rounded to single precision, at any point of
any history: the velocity is a vector of double-precision numbers within the range of single precision, the rest of the state and the
control are finite. -/
theorem C93_sixdof_derivative (libm : Fmt ℚ) (env env' : Env (b64Of libm)) (uninit : List Nat → Vec (b64Of libm)) (args : SixDofArgs (b64Of libm))
    (e0 : Entity (b64Of libm)) (h0 : newSixDof env uninit args = .ok e0) (ops : List (Op (b64Of libm))) (t : Fl (b64Of libm)) (s : Fin 13 → ℚ)
    (u : Fin 6 → ℚ) (v' : Fin 3 → ℚ) (hd : ∀ i : Fin 3, rndBin 53 (-1022) 1023 (s ⟨7 + i, by omega⟩) = .val (s ⟨7 + i, by omega⟩))
    (hv : ∀ i : Fin 3, rndBin 24 (-126) 127 (s ⟨7 + i, by omega⟩) = .val (v' i)) :
    ∃ rest, (e0.run env' ops).dynamics.computeStateDot t (toFl s) (toFl u) = .ok ([.fin (v' 0), .fin (v' 1), .fin (v' 2)] ++ rest) := by
  have hc := run_sameConfig env' ops e0
  obtain ⟨A, B, v0, v1, v2, hAB, g1, g2, g3, g4, g5⟩ := sixDof_parts64 h0
  rw [← hc.2.2.2.2.2] at g1 g2 g3 g4 g5
  simp only at g1 g2 g3 g4 g5
  unfold generateCwhMatrices at hAB
  simp only [show ("3d" = "2d") = False from by simp, if_true, if_false] at hAB
  obtain ⟨k, hk, hAB⟩ := Except.bind_ok.1 hAB
  cases hAB
  have d0 := hd 0; have d1 := hd 1; have d2 := hd 2
  have w0 := hv 0; have w1 := hv 1; have w2 := hv 2
  simp only [Fin.val_zero, Fin.val_one, Fin.val_two, add_zero, Nat.reduceAdd, Fin.reduceFinMk] at d0 d1 d2 w0 w1 w2
  have f0 := (single_fix w0).2; have f1 := (single_fix w1).2; have f2 := (single_fix w2).2
  have raw : ∃ a3 a4 a5 a6 a7 a8 a9 a10 a11 a12, (e0.run env' ops).dynamics.rhs t (toFl s) (toFl u) =
      .ok [.fin (v' 0), .fin (v' 1), .fin (v' 2), a3, a4, a5, a6, a7, a8, a9, a10, a11, a12] := by
    rw [g1, toFl_13, toFl_6]
    cases args.bodyFrameThrust <;>
    · simp only [affineRhs, sixDofF, sixDofG, applyQuat, hamiltonProduct, vscale, matVec, dot, bind, Except.bind, pure, Except.pure, hk, vadd, bcast2, List.length_cons,
        List.length_nil, List.map_cons, List.map_nil, List.zipWith_cons_cons, List.zipWith_nil_left, List.foldl_cons, List.foldl_nil,
        List.drop, List.take, List.replicate, List.cons_append, List.nil_append, if_true, if_false, Bool.false_eq_true,
        b64_zero_mul, b64_zero_add_zero, b64_one_mul d0, b64_one_mul d1, b64_one_mul d2, b64_zero_add d0, b64_zero_add d1, b64_zero_add d2,
        b64_add_zero d0, b64_add_zero d1, b64_add_zero d2, cast32_val w0, cast32_val w1, cast32_val w2, b64_add_zero f0, b64_add_zero f1,
        b64_add_zero f2]
      exact ⟨_, _, _, _, _, _, _, _, _, _, rfl⟩
  obtain ⟨a3, a4, a5, a6, a7, a8, a9, a10, a11, a12, hr⟩ := raw
  unfold Dyn.computeStateDot
  rw [hr, toFl_13]
  simp [bind, Except.bind, Dyn.clipStateDotDirect, Dyn.clipStateDotByStateLimits, g2, g3, g4, g5, npClip, npWhere, Arr.toVec, bcast2, npClip_inf,
    List.replicate]

end

namespace Demo

/-- the rotating spacecraft after one Euler step of one second, from the origin at `v` metres per second along `x`, coasting -/
def rotatingStep (v : ℚ) : Py (Option (Fl b64)) := do
  let e ← newRot2d (R := b64) env { integrationMethod := "Euler", kwargs := [("name", .str "a")] }
  pure (((e.run env [.setState [0, 0, 0, .fin v, 0, 0]]).step env 1 (.list [0, 0, 0])).entity.state[0]?)

/-- the point-mass spacecraft in the same situation -/
def pointStep (v : ℚ) : Py (Option (Fl b64)) := do
  let e ← newCwhSpacecraft (R := b64) env { integrationMethod := "Euler", kwargs := [("name", .str "a")] }
  pure (((e.run env [.setState [0, 0, 0, .fin v, 0, 0]]).step env 1 (.list [0, 0, 0])).entity.state[0]?)

end Demo

/-- The two models of the same spacecraft disagree in double precision: at `1 + 2^-25` metres per second, the rotating spacecraft has moved
exactly one metre after one second, the point-mass spacecraft `1 + 2^-25` metres. -/
theorem C93_models_disagree : Demo.rotatingStep (1 + 2⁻¹ ^ 25) = .ok (some (.fin 1)) ∧ Demo.pointStep (1 + 2⁻¹ ^ 25) = .ok (some (.fin (1 + 2⁻¹ ^ 25))) := by
  decide +kernel

/-- The hypotheses of `C93_rotational_derivative` and `C93_rotational_step` hold of the spacecraft with default parameters. -/
example : ∃ e : Entity b64, newRot2d (R := b64) Demo.env { integrationMethod := "Euler", kwargs := [("name", .str "a")] } = .ok e ∧
    ((e.run Demo.env [.setState [0, 0, 0, .fin (1 + 2⁻¹ ^ 25), 0, 0]]).step Demo.env 1 (.list [1, 0, 0])).outcome = .ok () ∧
    rndBin 24 (-126) 127 (1 + 2⁻¹ ^ 25) = .val 1 ∧ |ratFmt.cos 0| ≤ 1 ∧ |ratFmt.sin 0| ≤ 1 := by
  obtain ⟨e, h, hp⟩ := Demo.of_okAnd (x := newRot2d (R := b64) Demo.env { integrationMethod := "Euler", kwargs := [("name", .str "a")] })
    (p := fun e => decide (((e.run Demo.env [.setState [0, 0, 0, .fin (1 + 2⁻¹ ^ 25), 0, 0]]).step Demo.env 1 (.list [1, 0, 0])).outcome = .ok ()))
    (by decide +kernel)
  exact ⟨e, h, by simpa using hp, by decide +kernel, by decide +kernel, by decide +kernel⟩

example : ∃ d : Dyn b64, mkRot2dDynamics Demo.env { m := 12, inertia := 1, angAccLimit := 1, angVelLimit := 1, n := 1 } = .ok d ∧
    (.fin (1 + 2⁻¹ ^ 25) : Fl b64) ≠ 1 ∧ (.fin (1 + 2⁻¹ ^ 25) : Fl b64).cast32 = Fl.cast32 1 := by
  obtain ⟨d, h, -⟩ := Demo.of_okAnd (x := mkRot2dDynamics (R := b64) Demo.env { m := 12, inertia := 1, angAccLimit := 1, angVelLimit := 1, n := 1 })
    (p := fun _ => true) (by decide +kernel)
  exact ⟨d, h, by decide +kernel, by decide +kernel⟩

/-- a velocity vector of doubles that are not singles -/
example : ∃ e : Entity b64, newSixDof (R := b64) Demo.env (fun _ => []) { kwargs := [("name", .str "a")] } = .ok e ∧
    ∀ i : Fin 3, rndBin 53 (-1022) 1023 ((fun _ => 1 + 2⁻¹ ^ 25 : Fin 13 → ℚ) ⟨7 + i, by omega⟩) = .val (1 + 2⁻¹ ^ 25) ∧
      rndBin 24 (-126) 127 ((fun _ => 1 + 2⁻¹ ^ 25 : Fin 13 → ℚ) ⟨7 + i, by omega⟩) = .val 1 := by
  obtain ⟨e, h, -⟩ := Demo.of_okAnd (x := newSixDof (R := b64) Demo.env (fun _ => []) { kwargs := [("name", .str "a")] })
    (p := fun _ => true) (by decide +kernel)
  exact ⟨e, h, by decide +kernel⟩

end SAD
