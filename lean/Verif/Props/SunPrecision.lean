import Verif.Props.Sun
import Verif.Props.PrecisionRk

/-!
# C103: the angle of the sun in floating-point arithmetic
-/

set_option linter.unusedSectionVars false

namespace SAD
open Spec

section
variable {K : Type} {R : Fmt K} [Field K] [LinearOrder K] [FloorRing K]

/-- a step of the sun with an array action -/
theorem IsSun.array_step {n : Fl R} {e : Entity R} (h : IsSun n e) {env : Env R} {dt : Fl R} {a : Action R} (ha : ArrayAction a) {v : Vec R} {d : Dyn R}
    {s sd : Vec R} (hd : e.dynamics.step env dt e.state v = (d, .ok (s, sd))) :
    e.step env dt a = ⟨{ e with dynamics := d, state := s, stateDot := sd }, false, .ok ()⟩ := by
  obtain ⟨ty, u, hu⟩ : ∃ ty u, e.resolve env a = .ok (ty, u) := by
    rcases ha with rfl | ⟨xs, rfl⟩ | ⟨ty, xs, rfl⟩
    · exact ⟨_, _, rfl⟩
    · exact ⟨_, _, rfl⟩
    · exact ⟨_, _, rfl⟩
  obtain ⟨w, hw⟩ := sun_clip u ty
  rw [h.dynStep env dt e.state v w] at hd
  simp only [Entity.step, hu, h.lo, h.hi, sun_exceeds, hw, hd]

end

section
variable {K : Type} {R : Fmt K} [Field K] [LinearOrder K] [IsStrictOrderedRing K] [FloorRing K]

theorem sun_euler_run {ε τ M : K} (hR : Rounds R ε τ M) {n : K} (env : Env R) : ∀ (hist : List (K × Action R)), (∀ h ∈ hist, ArrayAction h.2) →
    ∀ (e : Entity R) (x y E A : K), IsSun (.fin n) e → e.dynamics.integrationMethod = "Euler" → e.state = [.fin x] → |x - y| ≤ E → |y| ≤ A →
      (1 + ε) ^ (2 * hist.length) * (A + |n| * (hist.map fun h => |h.1|).sum + 2 * τ + E) ≤ M →
      ∃ x', (e.run env (stepsOf hist)).state = [.fin x'] ∧
        |x' - (y + n * (hist.map (·.1)).sum)| + (A + |n| * (hist.map fun h => |h.1|).sum + 2 * τ)
          ≤ (1 + ε) ^ (2 * hist.length) * (A + |n| * (hist.map fun h => |h.1|).sum + 2 * τ + E)
  | [], _, e, x, y, E, A, _, _, hs, hE, hA, _ => by
    refine ⟨x, hs, ?_⟩
    simp
    linarith
  | (T, a) :: hist, hh, e, x, y, E, A, he, hm, hs, hE, hA, hM => by
    have hε := hR.eps
    have hτ := hR.tau
    have hE0 := (abs_nonneg _).trans hE
    have hA0 := (abs_nonneg _).trans hA
    set S := (hist.map fun h => |h.1|).sum with hS
    have hS0 : 0 ≤ S := List.sum_nonneg fun z hz => by
      obtain ⟨q, -, rfl⟩ := List.mem_map.1 hz; exact abs_nonneg _
    simp only [List.map_cons, List.sum_cons, List.length_cons, ← hS] at hM ⊢
    have hn0 := abs_nonneg n
    have hT0 := abs_nonneg T
    have hx : |x| ≤ A + E := by
      have := abs_add_le (x - y) y
      rw [sub_add_cancel] at this; linarith
    set G := A + |n| * (|T| + S) + 2 * τ with hG
    have hp1 := one_le_pow_eps hε (2 * hist.length)
    have hstepM : (1 + ε) ^ 2 * (|x| + |T| * |n| + 2 * τ) ≤ M := by
      refine le_trans ?_ hM
      refine mul_le_mul (pow_le_pow_right₀ (by linarith) (by omega)) ?_ (by positivity) (by positivity)
      rw [hG]; nlinarith
    obtain ⟨z, z1, z2⟩ := near_euler hR (k := 0) T ![x] ![n] ![n] ![|n|] (fun i => by fin_cases i; simp) (fun i => by fin_cases i; simp)
      (fun i => by fin_cases i; simpa using hstepM)
    have hst : e.dynamics.step env (.fin T) e.state [] = (e.dynamics, .ok (toFl z, toFl ![n])) := by
      have h1 : e.state = toFl ![x] := by rw [hs]; rfl
      rw [h1]
      exact eulerStep_unlimited he.unl hm he.samples.le (by rw [he.rhs]; rfl) z1 env
    have hstep := he.array_step (hh (T, a) (by simp)) hst
    have hz := z2 0
    simp at hz
    have hz' : |z 0 - (y + n * T)| ≤ (1 + ε) ^ 2 * (G + E) - G := by
      have t1 : |z 0 - (y + n * T)| ≤ |z 0 - (x + T * n)| + |x - y| := by
        have := abs_add_le (z 0 - (x + T * n)) (x - y)
        rwa [show z 0 - (x + T * n) + (x - y) = z 0 - (y + n * T) by ring] at this
      have g0 : 0 ≤ (1 + ε) ^ 2 - 1 := by have := one_le_pow_eps hε 2; linarith
      have t2 : ((1 + ε) ^ 2 - 1) * (|x| + |T| * |n| + 2 * τ) ≤ ((1 + ε) ^ 2 - 1) * (G + E) := by
        refine mul_le_mul_of_nonneg_left ?_ g0
        rw [hG]; nlinarith
      linarith
    have hc : SameConfig e (e.step env (.fin T) a).entity := step_sameConfig env e _ _
    have hG' : A + |n| * |T| + |n| * S + 2 * τ = G := by rw [hG]; ring
    have key := sun_euler_run hR env hist (fun h hm => hh h (by simp [hm])) (e.step env (.fin T) a).entity (z 0) (y + n * T)
      ((1 + ε) ^ 2 * (G + E) - G) (A + |n| * |T|) (he.congr hc) (by rw [hstep]; exact hm)
      (by rw [hstep]; simp [toFl]) hz' (by
        refine (abs_add_le _ _).trans ?_
        rw [abs_mul]; linarith) (by
        rw [← hS, hG', show G + ((1 + ε) ^ 2 * (G + E) - G) = (1 + ε) ^ 2 * (G + E) by ring, ← mul_assoc, ← pow_add]
        exact hM)
    obtain ⟨x', k1, k2⟩ := key
    rw [← hS, hG', show G + ((1 + ε) ^ 2 * (G + E) - G) = (1 + ε) ^ 2 * (G + E) by ring, ← mul_assoc, ← pow_add] at k2
    refine ⟨x', k1, ?_⟩
    rw [show y + n * (T + (hist.map (·.1)).sum) = y + n * T + n * (hist.map (·.1)).sum by ring]
    exact k2

/-- The Euler simulation of the sun, in any arithmetic that rounds with relative error `ε` and underflow error `ε τ` up to `M` (for doubles
`ε = 2^-53`, `τ = 2^-1022`, `M = 2^1023`): whatever array actions are given, after `N` steps of any durations `T` (of either sign) the angle is
`θ + n ΣT` up to the relative error of `2 N` roundings with respect to `|θ| + |n| Σ|T|`. -/
theorem C103_euler (ε τ M : K) (hR : Rounds R ε τ M) (env env' : Env R) (args : SunArgs R) (n : K) (hn : args.n = .fin n)
    (hm : args.integrationMethod = "Euler") (e0 : Entity R) (h0 : newSun env args = .ok e0) (ops : List (Op R)) (e : Entity R) (he : e = e0.run env' ops)
    (θ : K) (hs : e.state = [.fin θ]) (hist : List (K × Action R)) (ha : ∀ h ∈ hist, ArrayAction h.2) (A : K)
    (hA : A = |θ| + |n| * (hist.map fun h => |h.1|).sum + 2 * τ) (hM : (1 + ε) ^ (2 * hist.length) * A ≤ M) :
    ∃ θ', (e.run env' (stepsOf hist)).state = [.fin θ'] ∧ |θ' - (θ + n * (hist.map (·.1)).sum)| ≤ ((1 + ε) ^ (2 * hist.length) - 1) * A := by
  have hc := run_sameConfig env' ops e0
  have hsun := (IsSun.of_new h0).congr hc
  rw [hn, ← he] at hsun
  have hm0 : e.dynamics.integrationMethod = "Euler" := by
    obtain ⟨-, -, -, -, -, -, h7, -⟩ := newSun_ok h0
    obtain ⟨a, b, hd⟩ := SameConfig.dyn hc
    rw [he, hd]; exact h7.trans hm
  obtain ⟨x', h1, h2⟩ := sun_euler_run hR env' hist ha e θ θ 0 |θ| hsun hm0 hs (by simp) le_rfl (by rw [add_zero, ← hA]; exact hM)
  refine ⟨x', h1, ?_⟩
  rw [add_zero, ← hA] at h2
  linarith

end

/-! ## RK45 -/

section
variable {libm : Fmt ℚ}

theorem b64_eps66 : (1 + (2⁻¹ : ℚ) ^ 53) ^ 66 - 1 ≤ 2⁻¹ ^ 46 := by decide +kernel

/-- the rate of the sun costs no rounding -/
theorem sun_nearField {kmax : ℕ} {Q n : ℚ} {f : Rhs (b64Of libm)} (hf : ∀ t x, f t [.fin x] = .ok [.fin n]) :
    NearField (b64Of libm) (2⁻¹ ^ 53) (fun _ : Fin 1 => (1 : ℚ)) kmax Q 0 |n| 0 f (fun _ => ![n]) := by
  intro t k z x Y _ hz _ _
  obtain ⟨w, rfl, -⟩ := hz.toFl
  refine ⟨[.fin n], by simpa [toFl] using hf t (w 0), fun _ => .fin n, by simp, fun i => ?_⟩
  fin_cases i
  have := (near_fin (R := b64Of libm) (ε := 2⁻¹ ^ 53) n).mono (by positivity) (Nat.zero_le (k + 0)) (le_refl |n|)
  simpa using this

/-- one accepted step -/
theorem sun_rkStep {n x t t' h : ℚ} {f : Rhs (b64Of libm)} (hf : ∀ t x, f t [.fin x] = .ok [.fin n]) (hn : |n| ≤ 2 ^ 50) (hx : |x| ≤ 2 ^ 100) (hh : h = t' - t) (hh0 : 0 ≤ h) (hη : h ≤ 2 ^ 50) :
    ∃ x', rkStepFl dopri f (.fin t) (.fin t' - .fin t) ([.fin x] : Vec (b64Of libm)) = .ok [.fin x'] ∧
      |x' - (x + n * h)| ≤ 2⁻¹ ^ 46 * (|x| + 74 * h * |n| + 2⁻¹ ^ 500) := by
  obtain ⟨τ, hτ⟩ : ∃ τ : ℚ, τ = 2 ^ (-1022 : ℤ) := ⟨_, rfl⟩
  obtain ⟨θ, hθ⟩ : ∃ θ : ℚ, θ = 2⁻¹ ^ 600 := ⟨_, rfl⟩
  obtain ⟨κ, hκ⟩ : ∃ κ : ℚ, κ = 2⁻¹ ^ 500 := ⟨_, rfl⟩
  have hτ0 : 0 ≤ τ := by rw [hτ]; positivity
  have hθ0 : 0 ≤ θ := by rw [hθ]; exact pow_nonneg (by norm_num) _
  have hτθ : τ ≤ θ := by rw [hτ, hθ]; decide +kernel
  have hτ1 : τ ≤ 1 / 10000 := by rw [hτ]; decide +kernel
  have hr : Roomy (b64Of libm) (2⁻¹ ^ 53) τ (2 ^ (1023 : ℤ)) θ (2 ^ 240) (fun _ : Fin 1 => (1 : ℚ)) 66 :=
    ⟨by rw [hτ]; exact b64_rounds libm, fun _ => by norm_num, fun _ => by rw [one_mul]; exact hτθ, hτθ, fun _ => by rw [one_mul]; decide +kernel⟩
  have hz := near_fin_sub hr.rounds (t := t) (t' := t') (by
    rw [← hh, abs_of_nonneg hh0]
    exact hη.trans (by decide +kernel))
  rw [← hh, abs_of_nonneg hh0] at hz
  have hθ1 : θ ≤ 1 := by rw [hθ]; decide +kernel
  obtain ⟨z', h1, h2⟩ := near_dopriStep hr hτ1 (by decide +kernel) le_rfl (abs_nonneg n) (sun_nearField hf) (by norm_num) (abs_nonneg x) hz (by simp) rfl rfl
    (b64_room le_rfl (by positivity) (abs_nonneg n) (hn.trans (by norm_num)) (by positivity) (by linarith) (abs_nonneg x) hx hθ0 hθ1 rfl rfl)
    (nearV_toFl (libm := libm) hr.rounds.eps (y := ![x]) (fun i => by fin_cases i; simp)) (.fin t)
  obtain ⟨y', rfl, h3⟩ := h2.toFl
  refine ⟨y' 0, ?_, ?_⟩
  · have : (toFl y' : Vec (b64Of libm)) = [.fin (y' 0)] := by simp [toFl]
    rw [← this, ← h1]; rfl
  have hk := rkChain_const_rate (kdopri : KTab ℚ) (by norm_num [kdopri]) (by simp [kdopri]) (fun _ _ => ![n])
    (LinearMap.proj (R := ℚ) (φ := fun _ : Fin 1 => ℚ) 0) n (by intro t y; simp) 0 ![x] [h]
  simp only [rkChain, LinearMap.proj_apply, Matrix.cons_val_zero, List.sum_cons, List.sum_nil, add_zero] at hk
  have := h3 0
  rw [hk] at this
  refine this.trans ?_
  rw [one_mul, zero_mul, zero_add, ← hκ]
  refine mul_le_mul b64_eps66 ?_ (by positivity) (by positivity)
  have e : 74 * (τ * |n|) + 900 * (1 + (h + τ)) * θ ≤ κ := by
    calc 74 * (τ * |n|) + 900 * (1 + (h + τ)) * θ ≤ 74 * (τ * 2 ^ 50) + 900 * (1 + (2 ^ 50 + 1)) * θ := by
          have : τ ≤ 1 := hτ1.trans (by norm_num)
          gcongr
      _ ≤ κ := by rw [hτ, hθ, hκ]; decide +kernel
  linarith

/-- the steps of one call of the solver -/
theorem sun_chain {n η A γ : ℚ} {f : Rhs (b64Of libm)} (hf : ∀ t x, f t [.fin x] = .ok [.fin n]) (hn : |n| ≤ 2 ^ 50) (hη : η ≤ 2 ^ 50) (hγ : γ = 2⁻¹ ^ 46) :
    ∀ (ts : List ℚ) (t T x y G : ℚ), Times η t ts T → |x - y| + A ≤ G → |y| + 74 * |n| * (T - t) + 2⁻¹ ^ 500 ≤ A → (1 + γ) ^ ts.length * G ≤ 2 ^ 100 →
      ∃ x', rkTimesFl dopri f (.fin t) [.fin x] (ts.map .fin) = .ok [.fin x'] ∧ |x' - (y + n * (T - t))| + A ≤ (1 + γ) ^ ts.length * G
  | [], t, T, x, y, G, hts, hx, _, _ => by
    have : t = T := hts
    subst this
    exact ⟨x, rfl, by simpa using hx⟩
  | t' :: ts, t, T, x, y, G, hts, hx, hy, hG => by
    obtain ⟨g1, g2, g3⟩ := hts
    have hT' := times_le g3
    obtain ⟨κ, hκ⟩ : ∃ κ : ℚ, κ = 2⁻¹ ^ 500 := ⟨_, rfl⟩
    have hκ0 : 0 ≤ κ := by rw [hκ]; exact pow_nonneg (by norm_num) _
    have hγ0 : 0 ≤ γ := by rw [hγ]; positivity
    rw [← hκ] at hy
    have hn0 := abs_nonneg n
    have p1 : 0 ≤ |n| * (T - t') := mul_nonneg hn0 (by linarith)
    have p2 : 0 ≤ |n| * (t' - t) := mul_nonneg hn0 (by linarith)
    have hx0 := abs_nonneg (x - y)
    have hxA : |x| + 74 * (t' - t) * |n| + κ ≤ G := by
      have := abs_add_le (x - y) y
      rw [sub_add_cancel] at this
      nlinarith
    have hG0 : 0 ≤ G := le_trans (by have := abs_nonneg x; nlinarith) hxA
    have hG1 : G ≤ 2 ^ 100 := le_trans (le_mul_of_one_le_left hG0 (one_le_pow₀ (by linarith))) hG
    obtain ⟨x1, h1, h2⟩ := sun_rkStep (libm := libm) hf (x := x) (t := t) (t' := t') hn (by nlinarith) rfl (by linarith) (g2.trans hη)
    rw [← hκ, ← hγ] at h2
    have h3 : |x1 - (y + n * (t' - t))| + A ≤ (1 + γ) * G := by
      have := abs_add_le (x1 - (x + n * (t' - t))) (x - y)
      rw [show x1 - (x + n * (t' - t)) + (x - y) = x1 - (y + n * (t' - t)) by ring] at this
      have := mul_le_mul_of_nonneg_left hxA hγ0
      linarith
    have h4 : |y + n * (t' - t)| + 74 * |n| * (T - t') + 2⁻¹ ^ 500 ≤ A := by
      rw [← hκ]
      have := abs_add_le y (n * (t' - t))
      rw [abs_mul, abs_of_nonneg (show 0 ≤ t' - t by linarith)] at this
      nlinarith
    obtain ⟨x', k1, k2⟩ := sun_chain hf hn hη hγ ts t' T x1 _ _ g3 h3 h4 (by
      rw [← mul_assoc, ← pow_succ]; exact hG)
    rw [← mul_assoc, ← pow_succ] at k2
    refine ⟨x', ?_, ?_⟩
    · simp only [List.map_cons, rkTimesFl, h1, bind, Except.bind]
      exact k1
    · rw [show y + n * (T - t) = y + n * (t' - t) + n * (T - t') by ring]
      exact k2

theorem sun_rk_run {n η A γ : ℚ} (hn : |n| ≤ 2 ^ 50) (hη : η ≤ 2 ^ 50) (hγ : γ = 2⁻¹ ^ 46) (env : Env (b64Of libm)) (ν : ℕ) {f : Rhs (b64Of libm)} :
    ∀ (hist : List (ℚ × Action (b64Of libm))), (∀ h ∈ hist, ArrayAction h.2 ∧ 0 ≤ h.1 ∧ Integrates env 1 (2 ^ 100) η ν f h.1) →
    ∀ (e : Entity (b64Of libm)) (x y G : ℚ), IsSun (.fin n) e → (f = fun t y => e.dynamics.computeStateDot t y []) →
      e.dynamics.integrationMethod = "RK45" → e.state = [.fin x] →
      |x - y| + A ≤ G → |y| + 74 * |n| * (hist.map (·.1)).sum + 2⁻¹ ^ 500 ≤ A → (1 + γ) ^ (hist.length * ν) * G ≤ 2 ^ 100 →
      ∃ x', (e.run env (stepsOf hist)).state = [.fin x'] ∧ |x' - (y + n * (hist.map (·.1)).sum)| + A ≤ (1 + γ) ^ (hist.length * ν) * G
  | [], _, e, x, y, G, _, _, _, hs, hx, _, _ => ⟨x, hs, by simpa using hx⟩
  | (T, a) :: hist, hh, e, x, y, G, he, hfe, hm, hs, hx, hy, hG => by
    obtain ⟨ga, gT, gi⟩ := hh (T, a) (by simp)
    simp only at ga gT gi
    simp only [List.map_cons, List.sum_cons, List.length_cons] at hy hG ⊢
    set S := (hist.map (·.1)).sum with hS
    have hS0 : 0 ≤ S := List.sum_nonneg fun z hz => by
      obtain ⟨q, hq, rfl⟩ := List.mem_map.1 hz; exact (hh q (by simp [hq])).2.1
    have hγ0 : 0 ≤ γ := by rw [hγ]; positivity
    obtain ⟨κ, hκ⟩ : ∃ κ : ℚ, κ = 2⁻¹ ^ 500 := ⟨_, rfl⟩
    have hκ0 : 0 ≤ κ := by rw [hκ]; exact pow_nonneg (by norm_num) _
    rw [← hκ] at hy
    have hn0 := abs_nonneg n
    have p1 := mul_nonneg hn0 hS0
    have p2 := mul_nonneg hn0 gT
    have hx0 := abs_nonneg (x - y)
    have hxG : |x| + κ ≤ G := by
      have := abs_add_le (x - y) y
      rw [sub_add_cancel] at this
      nlinarith
    have hG0 : 0 ≤ G := le_trans (by have := abs_nonneg x; positivity) hxG
    have hpow : (1 + γ) ^ ((hist.length + 1) * ν) = (1 + γ) ^ (hist.length * ν) * (1 + γ) ^ ν := by rw [← pow_add]; congr 1; ring
    have hνG : (1 + γ) ^ ν * G ≤ 2 ^ 100 := by
      refine le_trans ?_ hG
      rw [hpow, mul_assoc]
      exact le_mul_of_one_le_left (by positivity) (one_le_pow₀ (by linarith))
    have hx100 : |x| ≤ 2 ^ 100 := by
      have := le_trans (le_mul_of_one_le_left hG0 (one_le_pow₀ (show 1 ≤ 1 + γ by linarith))) hνG
      linarith
    have hrhs : ∀ t x, f t [.fin x] = .ok [.fin n] := fun t x => by
      have := computeStateDot_unlimited he.unl (t := t) (u := []) (y := ![x]) (v := ![n]) (by rw [he.rhs]; rfl)
      rw [hfe]; exact this
    obtain ⟨ts, q1, q2, q3⟩ := gi ![x] (e.dynamics.tEval (.fin T)) (fun i => by fin_cases i; exact hx100)
    have hlen : (1 + γ) ^ ts.length * G ≤ (1 + γ) ^ ν * G := mul_le_mul_of_nonneg_right (pow_le_pow_right₀ (by linarith) q1) hG0
    obtain ⟨x1, k1, k2⟩ := sun_chain hrhs hn hη hγ ts 0 T x y G q2 hx (by rw [← hκ, sub_zero]; nlinarith) (hlen.trans hνG)
    obtain ⟨sol, k3, k4⟩ := q3 _ k1
    rw [hfe] at k3
    have hd := rk45Step_unlimited (y := ![x]) (v := ![n]) (y' := ![x1]) (T := .fin T) he.unl hm k3 k4
      (computeStateDot_unlimited he.unl (by rw [he.rhs]; rfl))
    have hst : e.state = toFl ![x] := by rw [hs]; rfl
    rw [← hst] at hd
    have hstep := he.array_step ga hd
    have hc : SameConfig e (e.step env (.fin T) a).entity := step_sameConfig env e _ _
    rw [sub_zero] at k2
    obtain ⟨x', j1, j2⟩ := sun_rk_run hn hη hγ env ν hist (fun h hm => hh h (by simp [hm])) (e.step env (.fin T) a).entity x1 (y + n * T)
      ((1 + γ) ^ ν * G) (he.congr hc) (by rw [hfe, hstep]; rfl) (by rw [hstep]; exact hm) (by rw [hstep]; rfl) (k2.trans hlen) (by
        rw [← hκ, ← hS]
        have := abs_add_le y (n * T)
        rw [abs_mul, abs_of_nonneg gT] at this
        nlinarith) (by rw [← mul_assoc, ← hpow]; exact hG)
    rw [← hS, ← mul_assoc, ← hpow] at j2
    refine ⟨x', j1, ?_⟩
    rw [show y + n * (T + S) = y + n * T + n * S by ring]
    exact j2

/-- The RK45 simulation of the sun in double precision: if the solver takes at most `ν` Dormand-Prince steps of at most `η` per call, then after
the total time `ΣT` in `N` calls, whatever array actions are given, the angle is `θ + n ΣT` up to the relative error `(1 + 2^-46)^(N ν) - 1` with
respect to `|θ| + 74 |n| ΣT`. -/
theorem C103_rk45 (libm : Fmt ℚ) (env env' : Env (b64Of libm)) (args : SunArgs (b64Of libm)) (n : ℚ) (hn : args.n = .fin n)
    (hm : args.integrationMethod = "RK45") (e0 : Entity (b64Of libm)) (h0 : newSun env args = .ok e0) (ops : List (Op (b64Of libm))) (e : Entity (b64Of libm))
    (he : e = e0.run env' ops) (θ : ℚ) (hs : e.state = [.fin θ]) (hist : List (ℚ × Action (b64Of libm))) (η : ℚ) (ν : ℕ)
    (ha : ∀ h ∈ hist, ArrayAction h.2 ∧ 0 ≤ h.1 ∧ Integrates env' 1 (2 ^ 100) η ν (fun t y => e0.dynamics.computeStateDot t y []) h.1)
    (hn1 : |n| ≤ 2 ^ 50) (hη : η ≤ 2 ^ 50) (A : ℚ) (hA : A = |θ| + 74 * |n| * (hist.map (·.1)).sum + 2⁻¹ ^ 500)
    (hbig : (1 + 2⁻¹ ^ 46) ^ (hist.length * ν) * A ≤ 2 ^ 100) :
    ∃ θ', (e.run env' (stepsOf hist)).state = [.fin θ'] ∧
      |θ' - (θ + n * (hist.map (·.1)).sum)| ≤ ((1 + 2⁻¹ ^ 46) ^ (hist.length * ν) - 1) * A := by
  have hc := run_sameConfig env' ops e0
  have hsun := (IsSun.of_new h0).congr hc
  rw [hn, ← he] at hsun
  obtain ⟨a, b, hd⟩ := SameConfig.dyn hc
  have hm0 : e.dynamics.integrationMethod = "RK45" := by
    obtain ⟨-, -, -, -, -, -, h7, -⟩ := newSun_ok h0
    rw [he, hd]; exact h7.trans hm
  obtain ⟨x', h1, h2⟩ := sun_rk_run hn1 hη rfl env' ν hist ha e θ θ A hsun (by rw [he, hd]; rfl) hm0 hs (by simp) hA.ge hbig
  refine ⟨x', h1, ?_⟩
  linarith

end

/-! ## the sun can stall -/

section
variable {libm : Fmt ℚ}

theorem b64_stall {d : ℚ} (h0 : 0 ≤ d) (h1 : d ≤ 1) : (.fin (2 ^ 53) + Fl.round d : Fl (b64Of libm)) = .fin (2 ^ 53) := by
  have m : ∀ {x y : ℚ}, x ≤ y → nearestBin 53 (-1022) x ≤ nearestBin 53 (-1022) y := fun h => nearestBin_mono 53 (-1022) (by norm_num) h
  have a0 : nearestBin 53 (-1022) 0 = 0 := by decide +kernel
  have a1 : nearestBin 53 (-1022) 1 = 1 := by decide +kernel
  have b0 : nearestBin 53 (-1022) (2 ^ 53) = 2 ^ 53 := by decide +kernel
  have b1 : nearestBin 53 (-1022) (2 ^ 53 + 1) = 2 ^ 53 := by decide +kernel
  have hd0 := m h0
  have hd1 := m h1
  rw [a0] at hd0
  rw [a1] at hd1
  have r : ∀ x : ℚ, 0 ≤ nearestBin 53 (-1022) x → nearestBin 53 (-1022) x ≤ 2 ^ 53 → (Fl.round x : Fl (b64Of libm)) = .fin (nearestBin 53 (-1022) x) := by
    intro x hx0 hx1
    show (Fl.ofExt (rndBin 53 (-1022) 1023 x) : Fl (b64Of libm)) = _
    have big : (2 : ℚ) ^ 53 < 2 ^ ((1023 : ℤ) + 1) := by decide +kernel
    have e : rndBin 53 (-1022) 1023 x = .val (nearestBin 53 (-1022) x) := by
      unfold rndBin
      simp only
      rw [if_neg (not_le.2 (lt_of_le_of_lt hx1 big)), if_neg (not_le.2 (lt_of_lt_of_le (by linarith [show (0:ℚ) < 2 ^ 53 by norm_num]) hx0))]
    rw [e]; rfl
  rw [r d hd0 (hd1.trans (by norm_num))]
  show (Fl.round (2 ^ 53 + nearestBin 53 (-1022) d) : Fl (b64Of libm)) = _
  have c0 := m (show (2 : ℚ) ^ 53 ≤ 2 ^ 53 + nearestBin 53 (-1022) d by linarith)
  have c1 := m (show (2 : ℚ) ^ 53 + nearestBin 53 (-1022) d ≤ 2 ^ 53 + 1 by linarith)
  rw [b0] at c0
  rw [b1] at c1
  rw [r _ (le_trans (by norm_num) c0) c1, le_antisymm c1 c0]

/-- In double precision the angle does not grow for ever: from the angle `2^53`, Euler steps that should advance it by up to a radian each leave
it where it is, however many there are. (The angle is never wrapped, so nothing brings it back to where the steps count.) -/
theorem C103_stall (env env' : Env (b64Of libm)) (args : SunArgs (b64Of libm)) (n : ℚ) (hn : args.n = .fin n)
    (hm : args.integrationMethod = "Euler") (e0 : Entity (b64Of libm)) (h0 : newSun env args = .ok e0) (ops : List (Op (b64Of libm))) (e : Entity (b64Of libm))
    (he : e = e0.run env' ops) (hs : e.state = [.fin (2 ^ 53)]) (hist : List (ℚ × Action (b64Of libm)))
    (ha : ∀ h ∈ hist, ArrayAction h.2 ∧ 0 ≤ n * h.1 ∧ n * h.1 ≤ 1) : (e.run env' (stepsOf hist)).state = [.fin (2 ^ 53)] := by
  have hc := run_sameConfig env' ops e0
  have hsun := (IsSun.of_new h0).congr hc
  rw [hn, ← he] at hsun
  have hm0 : e.dynamics.integrationMethod = "Euler" := by
    obtain ⟨-, -, -, -, -, -, h7, -⟩ := newSun_ok h0
    obtain ⟨a, b, hd⟩ := SameConfig.dyn hc
    rw [he, hd]; exact h7.trans hm
  clear he hc h0 hm
  induction hist generalizing e with
  | nil => exact hs
  | cons h hist ih =>
    obtain ⟨g1, g2, g3⟩ := ha h (by simp)
    have hst : e.dynamics.step env' (.fin h.1) e.state [] = (e.dynamics, .ok (toFl ![2 ^ 53], toFl ![n])) := by
      have h1 : e.state = toFl ![2 ^ 53] := by rw [hs]; rfl
      rw [h1]
      refine eulerStep_unlimited hsun.unl hm0 hsun.samples.le (by rw [hsun.rhs]; rfl) ?_ env'
      show Except.ok [(.fin (2 ^ 53) + Fl.round (h.1 * n) : Fl (b64Of libm))] = _
      rw [b64_stall (by linarith) (by linarith)]; rfl
    have hstep := hsun.array_step g1 hst
    rw [stepsOf_cons, run_cons]
    refine ih _ ?_ (fun q hq => ha q (by simp [hq])) (hsun.congr (step_sameConfig env' e _ _)) ?_
    · simp only [Entity.op]; rw [hstep]; rfl
    · simp only [Entity.op]; rw [hstep]; exact hm0

/-- a sun in double precision, given NaN: two steps of 1/10 s from 1 rad at 1/1024 rad/s end within `10^-15` of the exact angle -/
example : ∃ (e0 : Entity (b64Of libm)), newSun (oneStepEnv libm) { n := .fin (1 / 1024), integrationMethod := "Euler", kwargs := [("name", .str "sun"), ("theta", .num (.fin 1))] } = .ok e0 ∧
    e0.state = [.fin 1] ∧ ∃ θ', (e0.run (oneStepEnv libm) (stepsOf [((1 / 10 : ℚ), .ndarray .f64 [.nan]), (1 / 10, .none)])).state = [.fin θ'] ∧
      |θ' - (1 + 1 / 5120)| ≤ 10⁻¹ ^ 15 := by
  obtain ⟨e0, h0⟩ : ∃ e0 : Entity (b64Of libm), newSun (oneStepEnv libm) { n := .fin (1 / 1024), integrationMethod := "Euler", kwargs := [("name", .str "sun"), ("theta", .num (.fin 1))] } = .ok e0 := ⟨_, rfl⟩
  have hs : e0.state = [.fin 1] := by
    cases h0
    show [(.fin 1 : Fl (b64Of libm)).cast32] = _
    rw [(b64_cast32 libm).2]
  refine ⟨e0, h0, hs, ?_⟩
  obtain ⟨x, h1, h2⟩ := C103_euler (2⁻¹ ^ 53) (2 ^ (-1022 : ℤ)) (2 ^ (1023 : ℤ)) (b64_rounds libm) _ (oneStepEnv libm) _ (1 / 1024) rfl rfl e0 h0 [] e0 rfl 1 hs
    [((1 / 10 : ℚ), .ndarray .f64 [.nan]), (1 / 10, .none)] (by
      intro h hh
      simp at hh
      rcases hh with rfl | rfl
      · exact .inr (.inr ⟨_, _, rfl⟩)
      · exact .inl rfl) (1 + 1 / 1024 * (1 / 10 + 1 / 10) + 2 * 2 ^ (-1022 : ℤ)) (by simp [abs_of_pos]) (by
        show (1 + 2⁻¹ ^ 53) ^ (2 * 2) * (1 + 1 / 1024 * (1 / 10 + 1 / 10) + 2 * 2 ^ (-1022 : ℤ) : ℚ) ≤ _
        decide +kernel)
  refine ⟨x, h1, ?_⟩
  have e : (1 + 1 / 1024 * (List.map (·.1) [((1 / 10 : ℚ), (.ndarray .f64 [.nan] : Action (b64Of libm))), (1 / 10, .none)]).sum : ℚ) = 1 + 1 / 5120 := by
    simp; norm_num
  rw [e] at h2
  refine h2.trans ?_
  show ((1 + 2⁻¹ ^ 53) ^ (2 * 2) - 1) * (1 + 1 / 1024 * (1 / 10 + 1 / 10) + 2 * 2 ^ (-1022 : ℤ) : ℚ) ≤ _
  decide +kernel

/-- the same under RK45 -/
example : ∃ (e0 : Entity (b64Of libm)), newSun (oneStepEnv libm) { n := .fin (1 / 1024), kwargs := [("name", .str "sun"), ("theta", .num (.fin 1))] } = .ok e0 ∧
    e0.state = [.fin 1] ∧ ∃ θ', (e0.run (oneStepEnv libm) (stepsOf [((1 / 10 : ℚ), .ndarray .f64 [.nan]), (1 / 10, .none)])).state = [.fin θ'] ∧
      |θ' - (1 + 1 / 5120)| ≤ 10⁻¹ ^ 13 := by
  obtain ⟨e0, h0⟩ : ∃ e0 : Entity (b64Of libm), newSun (oneStepEnv libm) { n := .fin (1 / 1024), kwargs := [("name", .str "sun"), ("theta", .num (.fin 1))] } = .ok e0 := ⟨_, rfl⟩
  have hs : e0.state = [.fin 1] := by
    cases h0
    show [(.fin 1 : Fl (b64Of libm)).cast32] = _
    rw [(b64_cast32 libm).2]
  refine ⟨e0, h0, hs, ?_⟩
  obtain ⟨x, h1, h2⟩ := C103_rk45 libm _ (oneStepEnv libm) _ (1 / 1024) rfl rfl e0 h0 [] e0 rfl 1 hs
    [((1 / 10 : ℚ), .ndarray .f64 [.nan]), (1 / 10, .none)] (1 / 10) 1 (by
      intro h hh
      simp at hh
      rcases hh with rfl | rfl
      · exact ⟨.inr (.inr ⟨_, _, rfl⟩), by norm_num, oneStepEnv_integrates libm (by norm_num) (by norm_num) _⟩
      · exact ⟨.inl rfl, by norm_num, oneStepEnv_integrates libm (by norm_num) (by norm_num) _⟩) (by decide +kernel) (by norm_num)
    (1 + 74 * (1 / 1024) * (1 / 10 + 1 / 10) + 2⁻¹ ^ 500) (by simp [-inv_pow, abs_of_pos]) (by
      show (1 + 2⁻¹ ^ 46) ^ 2 * (1 + 74 * (1 / 1024) * (1 / 10 + 1 / 10) + 2⁻¹ ^ 500 : ℚ) ≤ _
      decide +kernel)
  refine ⟨x, h1, ?_⟩
  have e : (1 + 1 / 1024 * (List.map (·.1) [((1 / 10 : ℚ), (.ndarray .f64 [.nan] : Action (b64Of libm))), (1 / 10, .none)]).sum : ℚ) = 1 + 1 / 5120 := by
    simp; norm_num
  rw [e] at h2
  refine h2.trans ?_
  show ((1 + 2⁻¹ ^ 46) ^ 2 - 1) * (1 + 74 * (1 / 1024) * (1 / 10 + 1 / 10) + 2⁻¹ ^ 500 : ℚ) ≤ _
  decide +kernel

/-- a sun that starts at `2^53` rad -/
example : ∃ e0 : Entity (b64Of libm), newSun (oneStepEnv libm) { n := .fin (1 / 1024), integrationMethod := "Euler", kwargs := [("name", .str "sun"), ("theta", .num (.fin (2 ^ 53)))] } = .ok e0 ∧
    e0.state = [.fin (2 ^ 53)] ∧ (0 : ℚ) ≤ 1 / 1024 * 1000 ∧ (1 / 1024 * 1000 : ℚ) ≤ 1 := by
  refine ⟨_, rfl, ?_, by norm_num, by norm_num⟩
  show [(Fl.ofExt (rndBin 24 (-126) 127 (2 ^ 53)) : Fl (b64Of libm))] = _
  rw [show rndBin 24 (-126) 127 (2 ^ 53) = .val (2 ^ 53) by decide +kernel]; rfl

end
end SAD
