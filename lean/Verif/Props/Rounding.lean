import Verif.Lemmas.RoundCwh
import Verif.Props.Cwh
import Verif.Props.Linear
import Mathlib.Data.Fin.VecNotation

/-!
# C84: rounding errors of a step of a linear model
-/

set_option linter.unusedSectionVars false

namespace SAD
open Spec

section
variable {K : Type} {R : Fmt K} [Field K] [LinearOrder K] [IsStrictOrderedRing K] [FloorRing K]

/-- The derivative `A x + B u` computed by an unlimited linear model, and the state after an Euler step, in any arithmetic that rounds
with relative error `ε` and underflow error `ε τ` up to `M`: as long as the sizes of the terms, `mag`, keep away from overflow, the
results are finite, and every component has the relative error of `max n m + 4` roundings with respect to the sum of the absolute values
of its terms. -/
theorem C84_linear {n m : ℕ} (ε τ M : K) (hR : Rounds R ε τ M) (env : Env R) (args : DynArgs R) (d : Dyn R) (A : Fin n → Fin n → K)
    (B : Fin n → Fin m → K) (hd : mkLinearDyn env args (toMat A) (toMat B) = .ok d) (hu : Unlimited d)
    (hm : d.integrationMethod = "Euler") (hs : d.trajectorySamples ≤ 0) (T : K) (x : Fin n → K) (u : Fin m → K) (mag : Fin n → K)
    (hmag : ∀ i, mag i = ∑ j, |A i j| * |x j| + ∑ j, |B i j| * |u j| + (2 * (n + m) + 1) * τ)
    (hM : ∀ i, (1 + ε) ^ (max n m + 4) * (|x i| + mag i + |T| * mag i + 2 * τ) ≤ M) :
    ∃ x' v : Fin n → K, d.step env (.fin T) (toFl x) (toFl u) = (d, .ok (toFl x', toFl v)) ∧
      (∀ i, |v i - (∑ j, A i j * x j + ∑ j, B i j * u j)| ≤ ((1 + ε) ^ (max n m + 2) - 1) * mag i) ∧
      ∀ i, |x' i - (x i + T * (∑ j, A i j * x j + ∑ j, B i j * u j))| ≤ ((1 + ε) ^ (max n m + 4) - 1) * (|x i| + |T| * mag i + 2 * τ) := by
  have hε := hR.eps
  have hτ := hR.tau
  have hrow : ∀ i, rowMag τ (fun i j => |A i j|) (fun i j => |B i j|) x u i = mag i := by
    intro i
    rw [hmag, rowMag, Finset.sum_add_distrib, Finset.sum_add_distrib]
    simp
    ring
  have hmag0 : ∀ i, 0 ≤ mag i := fun i => by rw [hmag]; positivity
  have le1 : ∀ i (k : ℕ) (y : K), k ≤ max n m + 4 → 0 ≤ y → y ≤ |x i| + mag i + |T| * mag i + 2 * τ → (1 + ε) ^ k * y ≤ M :=
    fun i k y hk hy hy' => le_trans (mul_le_mul (pow_le_pow_right₀ (by linarith) hk) hy' hy (by positivity)) (hM i)
  have hpos : ∀ i, 0 ≤ |x i| ∧ 0 ≤ |T| * mag i := fun i => ⟨abs_nonneg _, mul_nonneg (abs_nonneg _) (hmag0 i)⟩
  obtain ⟨v, hv1, hv2⟩ := near_affine hR (k := 0) (zA := fun i j => .fin (A i j)) (zB := fun i j => .fin (B i j))
    (fun i j => near_fin (A i j)) (fun i j => near_fin (B i j)) 0 x u (fun i => by
      rw [hrow]
      exact le1 i _ _ (by omega) (hmag0 i) (by have := hpos i; linarith))
  have hv2' : ∀ i, |v i - (∑ j, A i j * x j + ∑ j, B i j * u j)| ≤ ((1 + ε) ^ (max n m + 2) - 1) * mag i := fun i => by
    have := hv2 i
    rwa [hrow, show 0 + 2 + max n m = max n m + 2 by omega] at this
  obtain ⟨x', hx1, hx2⟩ := near_euler hR T x v (fun i => ∑ j, A i j * x j + ∑ j, B i j * u j) mag (fun i => by
      refine (abs_add_le _ _).trans ?_
      have h1 := Finset.abs_sum_le_sum_abs (fun j => A i j * x j) Finset.univ
      have h2 := Finset.abs_sum_le_sum_abs (fun j => B i j * u j) Finset.univ
      simp only [abs_mul] at h1 h2
      rw [hmag]
      have : 0 ≤ (2 * ((n : K) + m) + 1) * τ := by positivity
      linarith) hv2' (fun i => le1 i _ _ le_rfl (by have := hpos i; linarith) (by have := hmag0 i; linarith))
  have hrhs : d.rhs = affineRhs (fun x => matVec (toMat A) x) (fun _ => .ok (toMat B)) := linear_rhs hd
  refine ⟨x', v, eulerStep_unlimited hu hm hs ?_ hx1 env, hv2', fun i => hx2 i⟩
  rw [hrhs]
  exact hv1

end

/-- A double integrator in double precision meets the hypotheses. -/
example (libm : Fmt ℚ) (env : Env (b64Of libm)) : Rounds (b64Of libm) (2⁻¹ ^ 53) (2 ^ (-1022 : ℤ)) (2 ^ (1023 : ℤ)) ∧
    (∃ d : Dyn (b64Of libm), mkLinearDyn env { integrationMethod := "Euler" } (toMat (n := 2) (m := 2) ![![0, 1], ![0, 0]])
      (toMat (n := 2) (m := 1) ![![0], ![1]]) = .ok d ∧ Unlimited d ∧ d.integrationMethod = "Euler" ∧ d.trajectorySamples ≤ 0) ∧
    ∀ i : Fin 2, (1 + (2⁻¹ : ℚ) ^ 53) ^ (max 2 1 + 4) * (|(![1 / 3, 2] : Fin 2 → ℚ) i| + 10 + |1 / 10| * 10 + 2 * 2 ^ (-1022 : ℤ)) ≤ 2 ^ (1023 : ℤ) := by
  refine ⟨b64_rounds libm, ⟨_, rfl, ⟨rfl, rfl, rfl, rfl, rfl, rfl⟩, rfl, le_rfl⟩, ?_⟩
  decide +kernel

/-! ## double precision -/

theorem b64_eps12 : (1 + (2⁻¹ : ℚ) ^ 53) ^ 12 - 1 ≤ 2⁻¹ ^ 49 ∧ (1 + (2⁻¹ : ℚ) ^ 53) ^ 10 - 1 ≤ 2⁻¹ ^ 49 := by decide +kernel

theorem b64_cast32 (libm : Fmt ℚ) : (.fin (-1) : Fl (b64Of libm)).cast32 = .fin (-1) ∧ (.fin 1 : Fl (b64Of libm)).cast32 = .fin 1 := by
  constructor
  · show (Fl.ofExt (rndBin 24 (-126) 127 (-1)) : Fl (b64Of libm)) = .fin (-1)
    rw [show rndBin 24 (-126) 127 (-1) = .val (-1) by decide +kernel]; rfl
  · show (Fl.ofExt (rndBin 24 (-126) 127 1) : Fl (b64Of libm)) = .fin 1
    rw [show rndBin 24 (-126) 127 1 = .val 1 by decide +kernel]; rfl

theorem asks_state {K : Type} {R : Fmt K} [Field K] [LinearOrder K] {env : Env R} {e : Entity R} {a : Action R} {k : ℕ} {u : Fin k → K}
    {s sd : Vec R} (h : Asks env e a u) : Asks env { e with state := s, stateDot := sd } a u := by
  obtain ⟨ty, h⟩ := h
  refine ⟨ty, resolve_iff.1 ?_⟩
  rw [← resolve_iff.2 h]
  cases a <;> rfl

/-- One Euler step of a point-mass spacecraft in IEEE double precision. Whatever the state, thrust request, mass, mean motion and duration
(of absolute value at most `2^200`, the mass at least `2^-200`), the step succeeds, and every component of the new state and of the
recorded derivative is the one of the Clohessy-Wiltshire equations, with the saturated thrust, up to `2^-49` times the sum of the absolute
values of the terms that make it up (plus `2^-549`). -/
theorem C84_cwh (libm : Fmt ℚ) (env env' : Env (b64Of libm)) (args : CwhArgs (b64Of libm)) (m n : ℚ) (hm : args.m = .fin m) (hn : args.n = .fin n)
    (e0 : Entity (b64Of libm)) (h0 : newCwhSpacecraft env args = .ok e0) (hmeth : e0.dynamics.integrationMethod = "Euler")
    (hsamp : e0.dynamics.trajectorySamples ≤ 0) (s : Fin 6 → ℚ) (sd : Vec (b64Of libm)) (a : Action (b64Of libm)) (u F : Fin 3 → ℚ)
    (hreq : Asks env' e0 a u) (hF : ∀ i, F i = min (max (u i) (-1)) 1) (T : ℚ) (hs : ∀ i, |s i| ≤ 2 ^ 200) (hm1 : |m⁻¹| ≤ 2 ^ 200)
    (hn1 : |n| ≤ 2 ^ 200) (hT : |T| ≤ 2 ^ 200) :
    ∃ s' v : Fin 6 → ℚ, ((Entity.step env' { e0 with state := toFl s, stateDot := sd } (.fin T) a).outcome = .ok () ∧
      (Entity.step env' { e0 with state := toFl s, stateDot := sd } (.fin T) a).entity = { e0 with state := toFl s', stateDot := toFl v }) ∧
      (∀ i, |s' i - (s i + T * cw m n s F i)| ≤ 2⁻¹ ^ 49 * (|s i| + |T| * cwSizes m n s F i + 2⁻¹ ^ 500)) ∧
      ∀ i, |v i - cw m n s F i| ≤ 2⁻¹ ^ 49 * (cwSizes m n s F i + 2⁻¹ ^ 500) := by
  obtain ⟨⟨dargs, hd⟩, hu, hlo, hhi⟩ := cwhSpacecraft_parts h0
  rw [hm, hn] at hd
  have hτ1 : (2 : ℚ) ^ (-1022 : ℤ) ≤ 1 := zpow_le_one_of_nonpos₀ (by norm_num) (by norm_num)
  have hLM : (256 : ℚ) * (2 ^ 200) ^ 4 ≤ 2 ^ (1023 : ℤ) := by decide +kernel
  have hF1 : ∀ i, |F i| ≤ 1 := fun i => by rw [hF, abs_le]; constructor <;> simp
  have he := b64_eps12
  obtain ⟨s', v, h1, h2, h3⟩ := cwh_euler_near (b64_rounds libm) (by linarith [he.1, show (2⁻¹ : ℚ) ^ 49 ≤ 1 by decide +kernel]) hτ1
    (L := 2 ^ 200) (by decide +kernel) hLM hd hu hmeth hsamp hs hF1 hm1 hn1 hT env'
  obtain ⟨c1, c2⟩ := b64_cast32 libm
  have hFe : F = fun i => min (max (u i) (-1)) 1 := funext hF
  rw [hFe] at h1
  obtain ⟨w, hw⟩ := step_pm_one (env := env') (e := { e0 with state := toFl s, stateDot := sd }) hlo hhi c1 c2
    (asks_state hreq) (.fin T) h1
  refine ⟨s', v, by rw [hw]; exact ⟨rfl, rfl⟩, fun i => (h3 i).trans ?_, fun i => (h2 i).trans ?_⟩
  · have t : (34 : ℚ) * 2 ^ (-1022 : ℤ) * (2 ^ 200) ^ 2 ≤ 2⁻¹ ^ 500 := by decide +kernel
    have := cwSizes_nonneg m n s F i
    refine mul_le_mul he.1 (by linarith) (by positivity) (by positivity)
  · have t : (32 : ℚ) * 2 ^ (-1022 : ℤ) * 2 ^ 200 ≤ 2⁻¹ ^ 500 := by decide +kernel
    have := cwSizes_nonneg m n s F i
    refine mul_le_mul he.2 (by linarith) (by positivity) (by positivity)

end SAD
