import Verif.Lemmas.RoundLinRk
import Verif.Props.PrecisionRk

/-! # Simulations of linear models in double precision -/

set_option linter.unusedSectionVars false

namespace SAD
open Spec

theorem step_applied {K : Type} {R : Fmt K} [Field K] [LinearOrder K] [IsStrictOrderedRing K] [FloorRing K] {env : Env R} {e : Entity R} {a : Action R}
    {v : Vec R} (ha : Applied env e a v) (dt : Fl R) {d : Dyn R} {s sd : Vec R} (hstep : e.dynamics.step env dt e.state v = (d, .ok (s, sd))) :
    ∃ w, e.step env dt a = ⟨{ e with dynamics := d, state := s, stateDot := sd }, w, .ok ()⟩ := by
  obtain ⟨ty, u, h1, h2⟩ := applied_iff.1 ha
  obtain ⟨w, hw⟩ := exceeds_of_npClip h2
  refine ⟨w, ?_⟩
  unfold Entity.step
  simp only [h1, hw, h2, hstep]

/-- everything fixed during a simulation: the derivative costs `q` roundings, `γ` bounds the relative error of a step, `W` the weights and `lam`
the rate of the errors of the method -/
structure LinSim (libm : Fmt ℚ) (d : Dyn (b64Of libm)) {n m : ℕ} (A : Fin n → Fin n → ℚ) (B : Fin n → Fin m → ℚ) (U : Fin m → ℚ) (w : Fin n → ℚ)
    (q : ℕ) (a μ γ η W : ℚ) (lam Φ Tmax : ℝ) (f : ℝ → Fin n → ℝ) : Prop where
  unl : Unlimited d
  n0 : 0 < n
  w1 : ∀ i, 2⁻¹ ^ 100 ≤ w i
  w2 : ∀ i, w i ≤ W
  W1 : 1 ≤ W
  W2 : W ≤ 2 ^ 50
  gam : (1 + (2⁻¹ : ℚ) ^ 53) ^ (6 * (q + 11)) - 1 ≤ γ
  gam1 : γ ≤ 1
  field : NearField (b64Of libm) (2⁻¹ ^ 53) w (6 * (q + 11)) (2 ^ 240) a (μ + 2⁻¹ ^ 600) q (fun t y => d.computeStateDot t y (toFl U))
    (fun y => linear A B U y)
  normA : ∀ i, ∑ j, |A i j| * w j ≤ a * w i
  a0 : 0 ≤ a
  a3 : a ≤ 2 ^ 50
  mu0 : 0 ≤ μ
  mu1 : μ ≤ 2 ^ 50
  eta0 : 0 ≤ η
  eta : η ≤ 2 ^ 50
  aeta : 2 * a * η ≤ 1
  Phi0 : 0 ≤ Φ
  Phi : ∀ t, 0 ≤ t → t ≤ Tmax → ∀ i, |f t i| ≤ (w i : ℝ) * Φ
  lam0 : 0 ≤ lam
  loc : ∀ t h, 0 ≤ t → 0 ≤ h → h ≤ (η : ℝ) → t + h ≤ Tmax → ∀ i,
    |rkStep kdopri (fun _ y => linear (fun i j => (A i j : ℝ)) (fun i j => (B i j : ℝ)) (fun j => (U j : ℝ)) y) 0 h (f t) i - f (t + h) i| ≤ w i * (lam * h)

/-- error per unit of time -/
noncomputable def linP (a μ γ : ℚ) (lam Φ : ℝ) : ℝ := γ * (74 * (a * Φ + μ)) + lam

/-- error per step -/
noncomputable def linQ (γ : ℚ) (Φ : ℝ) : ℝ := γ * (Φ + 2⁻¹ ^ 500)

/-- error bound after the time `T` and `N` steps, from the error `E` -/
noncomputable def linB (a μ γ : ℚ) (lam Φ T N E : ℝ) : ℝ := grow (2 * a) (38 * γ) (linP a μ γ lam Φ) (linQ γ Φ) T N E

section
variable {libm : Fmt ℚ} {d : Dyn (b64Of libm)} {n m : ℕ} {A : Fin n → Fin n → ℚ} {B : Fin n → Fin m → ℚ} {U : Fin m → ℚ} {w : Fin n → ℚ} {q : ℕ}
  {a μ γ η W : ℚ} {lam Φ Tmax : ℝ} {f : ℝ → Fin n → ℝ}

theorem LinSim.consts (S : LinSim libm d A B U w q a μ γ η W lam Φ Tmax f) :
    (∀ i, 0 < w i) ∧ (∀ i, (0 : ℝ) < w i) ∧ (0 : ℝ) ≤ a ∧ (0 : ℝ) ≤ μ ∧ (0 : ℝ) ≤ η ∧ (0 : ℝ) ≤ γ ∧ (0 : ℝ) ≤ W ∧ 0 ≤ linP a μ γ lam Φ ∧
      0 ≤ linQ γ Φ ∧ (0 : ℝ) ≤ 38 * γ := by
  have h1 : ∀ i, 0 < w i := fun i => lt_of_lt_of_le (pow_pos (by norm_num) _) (S.w1 i)
  have h2 : (0 : ℝ) ≤ a := by exact_mod_cast S.a0
  have h3 : (0 : ℝ) ≤ μ := by exact_mod_cast S.mu0
  have h4 : (0 : ℝ) ≤ η := by exact_mod_cast S.eta0
  have h5 := S.Phi0
  have h6 := S.lam0
  have hg : (0 : ℚ) ≤ γ := le_trans (sub_nonneg.2 (one_le_pow₀ (by norm_num))) S.gam
  have h7 : (0 : ℝ) ≤ γ := by exact_mod_cast hg
  have h8 : (0 : ℝ) ≤ W := by exact_mod_cast zero_le_one.trans S.W1
  have hκ : (0 : ℝ) ≤ 2⁻¹ ^ 500 := pow_nonneg (by norm_num) _
  refine ⟨h1, fun i => by exact_mod_cast h1 i, h2, h3, h4, h7, h8, by unfold linP; positivity, ?_, by positivity⟩
  unfold linQ
  exact mul_nonneg h7 (by linarith)

/-- the size of a state close to the solution -/
theorem LinSim.size (S : LinSim libm d A B U w q a μ γ η W lam Φ Tmax f) {y : Fin n → ℚ} {t E : ℝ} (ht0 : 0 ≤ t) (ht1 : t ≤ Tmax)
    (hy : ∀ i, |(y i : ℝ) - f t i| ≤ w i * E) (hbig : (W : ℝ) * (Φ + E) ≤ 2 ^ 100) (hE : 0 ≤ E) :
    ∃ X : ℚ, 0 ≤ X ∧ X ≤ 2 ^ 100 ∧ (X : ℝ) ≤ Φ + E ∧ (∀ i, |y i| ≤ w i * X) ∧ ∀ i, |y i| ≤ 2 ^ 100 := by
  obtain ⟨hw', hw, -⟩ := S.consts
  have hΦ0 := S.Phi0
  have hW1 : (1 : ℝ) ≤ W := by exact_mod_cast S.W1
  haveI : Nonempty (Fin n) := ⟨⟨0, S.n0⟩⟩
  have hyR : ∀ i, |(y i : ℝ)| ≤ w i * (Φ + E) := fun i => by
    have h1 := S.Phi t ht0 ht1 i
    have h2 := hy i
    have := abs_add_le ((y i : ℝ) - f t i) (f t i)
    rw [sub_add_cancel] at this
    linarith
  have h100 : Φ + E ≤ 2 ^ 100 := le_trans (le_mul_of_one_le_left (by positivity) hW1) hbig
  obtain ⟨j, -, hj⟩ := Finset.exists_mem_eq_sup' (Finset.univ_nonempty (α := Fin n)) (fun i => |y i| / w i)
  set X := Finset.univ.sup' (Finset.univ_nonempty (α := Fin n)) (fun i => |y i| / w i) with hX
  have hXle : (X : ℝ) ≤ Φ + E := by
    rw [hj]
    push_cast
    rw [div_le_iff₀ (hw j), mul_comm]
    exact hyR j
  refine ⟨X, ?_, ?_, hXle, fun i => ?_, fun i => ?_⟩
  · rw [hj]; exact div_nonneg (abs_nonneg _) (hw' j).le
  · have := hXle.trans h100
    exact_mod_cast this
  · rw [mul_comm, ← div_le_iff₀ (hw' i)]
    exact Finset.le_sup' (fun i => |y i| / w i) (Finset.mem_univ i)
  · have hwW : (w i : ℝ) ≤ W := by exact_mod_cast S.w2 i
    have h1 := ((hyR i).trans (mul_le_mul_of_nonneg_right hwW (by positivity))).trans hbig
    exact_mod_cast h1

theorem linear_cast (y : Fin n → ℚ) (i : Fin n) :
    ((linear A B U y i : ℚ) : ℝ) = linear (fun i j => (A i j : ℝ)) (fun i j => (B i j : ℝ)) (fun j => (U j : ℝ)) (castV y) i := by
  unfold linear castV
  push_cast
  rfl

/-- one accepted step -/
theorem LinSim.step (S : LinSim libm d A B U w q a μ γ η W lam Φ Tmax f) {y : Fin n → ℚ} {t0 E : ℝ} {t t' h : ℚ} (hE0 : 0 ≤ E)
    (hy : ∀ i, |(y i : ℝ) - f (t0 + t) i| ≤ w i * E) (ht0 : 0 ≤ t0 + t) (ht1 : t0 + t' ≤ Tmax) (hh : h = t' - t) (hh0 : 0 ≤ h) (hhη : h ≤ η)
    (hbig : (W : ℝ) * (Φ + E) ≤ 2 ^ 100) :
    ∃ y' : Fin n → ℚ, rkStepFl dopri (fun t y => d.computeStateDot t y (toFl U)) (.fin t) (.fin t' - .fin t) (toFl y) = .ok (toFl y') ∧
      ∀ i, |(y' i : ℝ) - f (t0 + t') i| ≤ w i * linB a μ γ lam Φ h 1 E := by
  obtain ⟨hw', hw, ha0, hμ0, hη0, hγ0, hW0, hp, hq, hc⟩ := S.consts
  have hΦ0 := S.Phi0
  have hhR : (0 : ℝ) ≤ h := by exact_mod_cast hh0
  have hhηR : (h : ℝ) ≤ η := by exact_mod_cast hhη
  have htt : t0 + (t' : ℝ) = t0 + t + h := by rw [hh]; push_cast; ring
  obtain ⟨X, hX0, hX1, hX2, hX3, -⟩ := S.size ht0 (by linarith) hy hbig hE0
  obtain ⟨y', h1, h2⟩ := b64_lin_rkStep S.w1 (fun i => (S.w2 i).trans S.W2) S.gam S.gam1 S.field S.a0 S.a3 S.mu0 S.mu1 S.eta S.aeta hX0 hX1 hX3 hh hh0 hhη
  refine ⟨y', h1, fun i => ?_⟩
  have hpw := (hw i).le
  obtain ⟨A', hA'⟩ : ∃ A' : Fin n → Fin n → ℝ, A' = fun i j => (A i j : ℝ) := ⟨_, rfl⟩
  obtain ⟨B', hB'⟩ : ∃ B' : Fin n → Fin m → ℝ, B' = fun i j => (B i j : ℝ) := ⟨_, rfl⟩
  obtain ⟨U', hU'⟩ : ∃ U' : Fin m → ℝ, U' = fun j => (U j : ℝ) := ⟨_, rfl⟩
  have hcast : ∀ y : Fin n → ℚ, castV (linear A B U y) = linear A' B' U' (castV y) := fun y => funext fun i => by
    rw [hA', hB', hU']; exact linear_cast y i
  have hnorm : ∀ i, ∑ j, |A' i j| * (w j : ℝ) ≤ a * w i := fun i => by
    have : ((∑ j, |A i j| * w j : ℚ) : ℝ) ≤ ((a * w i : ℚ) : ℝ) := Rat.cast_le.2 (S.normA i)
    push_cast at this
    rw [hA']
    exact this
  have e1 := lin_rk_growth (A := A') (B := B') (U := U') (x := castV y) (y := f (t0 + t)) hw ha0 hnorm hhR hE0 hy i
  have e2 := S.loc (t0 + t) h ht0 hhR hhηR (by linarith) i
  rw [← hA', ← hB', ← hU'] at e2
  have ec : ((rkStep kdopri (fun _ => linear A B U) 0 h y i : ℚ) : ℝ) = rkStep (kdopri : KTab ℝ) (fun _ y => linear A' B' U' y) 0 (h : ℝ) (castV y) i := by
    have := congrFun (rkStep_cast kdopri (F := fun _ => linear A B U) (G := fun _ y => linear A' B' U' y) (fun t y => hcast y) 0 h y) i
    rw [kdopri_cast, Rat.cast_zero] at this
    exact this
  have r1 : |(y' i : ℝ) - rkStep (kdopri : KTab ℝ) (fun _ y => linear A' B' U' y) 0 (h : ℝ) (castV y) i|
      ≤ w i * (γ * (X + 74 * h * (a * X + μ) + 2⁻¹ ^ 500)) := by
    have h3 : ((|y' i - rkStep kdopri (fun _ => linear A B U) 0 h y i| : ℚ) : ℝ)
        ≤ ((w i * (γ * (X + 74 * h * (a * X + μ) + 2⁻¹ ^ 500)) : ℚ) : ℝ) := Rat.cast_le.2 (h2 i)
    rw [Rat.cast_abs, Rat.cast_sub, ec] at h3
    push_cast at h3
    exact h3
  rw [htt]
  obtain ⟨κ, hκ⟩ : ∃ κ : ℝ, κ = 2⁻¹ ^ 500 := ⟨_, rfl⟩
  obtain ⟨g, hg⟩ : ∃ g : ℝ, g = γ := ⟨_, rfl⟩
  have hκ0 : 0 ≤ κ := by rw [hκ]; exact pow_nonneg (by norm_num) _
  rw [← hκ, ← hg] at r1
  rw [← hg] at hγ0
  have k1 : |(y' i : ℝ) - f (t0 + t + h) i| ≤ w i * (g * (X + 74 * h * (a * X + μ) + κ) + Real.exp (2 * (a * h)) * E + lam * h) := by
    rw [mul_add, mul_add]
    refine le_trans ?_ (add_le_add (add_le_add r1 e1) e2)
    have p1 := abs_add_le ((y' i : ℝ) - rkStep (kdopri : KTab ℝ) (fun _ y => linear A' B' U' y) 0 (h : ℝ) (castV y) i)
      (rkStep (kdopri : KTab ℝ) (fun _ y => linear A' B' U' y) 0 (h : ℝ) (castV y) i - f (t0 + t + h) i)
    have p2 := abs_add_le (rkStep (kdopri : KTab ℝ) (fun _ y => linear A' B' U' y) 0 (h : ℝ) (castV y) i
        - rkStep (kdopri : KTab ℝ) (fun _ y => linear A' B' U' y) 0 (h : ℝ) (f (t0 + t)) i)
      (rkStep (kdopri : KTab ℝ) (fun _ y => linear A' B' U' y) 0 (h : ℝ) (f (t0 + t)) i - f (t0 + t + h) i)
    rw [sub_add_sub_cancel] at p1 p2
    linarith
  refine k1.trans (mul_le_mul_of_nonneg_left ?_ hpw)
  have k2 := grow_step (b := 2 * (a : ℝ)) (c := 38 * γ) (p := linP a μ γ lam Φ) (q := linQ γ Φ) (T := h) (E := E) (by positivity) hc hp hq hhR hE0
  refine le_trans ?_ k2
  rw [linP, linQ, ← hκ, ← hg]
  have hah : (a : ℝ) * h ≤ 1 / 2 := by
    have h1 : (2 : ℝ) * a * η ≤ 1 := by exact_mod_cast S.aeta
    have : (a : ℝ) * h ≤ a * η := mul_le_mul_of_nonneg_left hhηR ha0
    linarith
  have m1 : g * (X + 74 * h * (a * X + μ) + κ) ≤ g * ((Φ + E) + 74 * h * (a * (Φ + E) + μ) + κ) := by gcongr
  have m2 : g * ((1 + 74 * (a * h)) * E) ≤ 38 * g * E := by
    rw [← mul_assoc]
    refine mul_le_mul_of_nonneg_right ?_ hE0
    calc g * (1 + 74 * (a * h)) ≤ g * 38 := mul_le_mul_of_nonneg_left (by linarith) hγ0
      _ ≤ 38 * g := by linarith
  have x1 : 1 ≤ Real.exp (2 * a * h) := Real.one_le_exp (by positivity)
  have m3 : 38 * g * E ≤ Real.exp (2 * a * h) * (38 * g * E) := le_mul_of_one_le_left (by positivity) x1
  rw [show 2 * ((a : ℝ) * h) = 2 * a * h by ring]
  have e1 : g * ((Φ + E) + 74 * h * (a * (Φ + E) + μ) + κ) = g * (74 * (a * Φ + μ)) * h + g * (Φ + κ) + g * ((1 + 74 * (a * h)) * E) := by ring
  have e2 : Real.exp (2 * a * h) * (1 + 38 * g) * E = Real.exp (2 * a * h) * E + Real.exp (2 * a * h) * (38 * g * E) := by ring
  rw [e2]
  linarith

/-- the steps of one call of the solver -/
theorem LinSim.chain (S : LinSim libm d A B U w q a μ γ η W lam Φ Tmax f) {t0 : ℝ} : ∀ (ts : List ℚ) (t T : ℚ) (y : Fin n → ℚ) (E : ℝ), Times η t ts T → 0 ≤ E →
    (∀ i, |(y i : ℝ) - f (t0 + t) i| ≤ w i * E) → 0 ≤ t0 + t → t0 + T ≤ Tmax →
    (W : ℝ) * (Φ + linB a μ γ lam Φ (T - t) ts.length E) ≤ 2 ^ 100 →
    ∃ y' : Fin n → ℚ, rkTimesFl dopri (fun t y => d.computeStateDot t y (toFl U)) (.fin t) (toFl y) (ts.map .fin) = .ok (toFl y') ∧
      ∀ i, |(y' i : ℝ) - f (t0 + T) i| ≤ w i * linB a μ γ lam Φ (T - t) ts.length E
  | [], t, T, y, E, hts, hE0, hy, ht0, hT, hbig => by
    have : t = T := hts
    subst this
    refine ⟨y, rfl, ?_⟩
    rw [sub_self]
    simpa [linB, grow_zero] using hy
  | t' :: ts, t, T, y, E, hts, hE0, hy, ht0, hT, hbig => by
    obtain ⟨hw', hw, ha0, hμ0, hη0, hγ0, hW0, hp, hq, hc⟩ := S.consts
    obtain ⟨g1, g2, g3⟩ := hts
    have hT' := times_le g3
    have r1 : (t : ℝ) ≤ t' := by exact_mod_cast g1
    have r2 : (t' : ℝ) ≤ T := by exact_mod_cast hT'
    have hcomp : linB a μ γ lam Φ (T - t') ts.length (linB a μ γ lam Φ (t' - t) 1 E) ≤ linB a μ γ lam Φ (T - t) (t' :: ts).length E := by
      refine (grow_comp (by positivity) hc hp hq (by linarith) (by norm_num) (by linarith) (by positivity)).trans (le_of_eq ?_)
      unfold linB
      congr 1
      · ring
      · push_cast [List.length_cons]; ring
    have hs0 : 0 ≤ linB a μ γ lam Φ (t' - t) 1 E := grow_nonneg hp hq (by linarith) (by norm_num) hE0
    have hEle : E ≤ linB a μ γ lam Φ (T - t) (t' :: ts).length E := le_grow (by positivity) hc hp hq (by linarith) (by positivity) hE0
    have big : ∀ E', E' ≤ linB a μ γ lam Φ (T - t) (t' :: ts).length E → (W : ℝ) * (Φ + E') ≤ 2 ^ 100 := fun E' h =>
      le_trans (mul_le_mul_of_nonneg_left (by linarith) (by positivity)) hbig
    obtain ⟨y1, h1, h2⟩ := S.step hE0 hy ht0 (t' := t') (by linarith) rfl (by linarith) g2 (big E hEle)
    rw [Rat.cast_sub] at h2
    obtain ⟨y', h3, h4⟩ := S.chain ts t' T y1 _ g3 hs0 h2 (by linarith) hT (big _ hcomp)
    refine ⟨y', ?_, fun i => (h4 i).trans (mul_le_mul_of_nonneg_left hcomp (hw i).le)⟩
    simp only [List.map_cons, rkTimesFl, h1, bind, Except.bind]
    exact h3

end

section history
variable {libm : Fmt ℚ} {env' : Env (b64Of libm)} {n m : ℕ} {A : Fin n → Fin n → ℚ} {B : Fin n → Fin m → ℚ} {U : Fin m → ℚ} {w : Fin n → ℚ} {q : ℕ}
  {a μ γ η W : ℚ} {lam Φ Tmax : ℝ} {f : ℝ → Fin n → ℝ} {e0 : Entity (b64Of libm)} {ν : ℕ}

/-- a whole simulation -/
theorem LinSim.run (S : LinSim libm e0.dynamics A B U w q a μ γ η W lam Φ Tmax f) (hmeth : e0.dynamics.integrationMethod = "RK45") :
    ∀ (hist : List (ℚ × Action (b64Of libm))), (∀ h ∈ hist, Applied env' e0 h.2 (toFl U) ∧ 0 ≤ h.1 ∧
      Integrates env' n (2 ^ 100) η ν (fun t y => e0.dynamics.computeStateDot t y (toFl U)) h.1) →
    ∀ (s : Fin n → ℚ) (sd : Vec (b64Of libm)) (tr : Option (List (Vec (b64Of libm)))) (trT : Option (Vec (b64Of libm))) (t E : ℝ), 0 ≤ t →
    t + ((hist.map (·.1)).sum : ℚ) ≤ Tmax → 0 ≤ E → (∀ i, |(s i : ℝ) - f t i| ≤ w i * E) →
    (W : ℝ) * (Φ + linB a μ γ lam Φ ((hist.map (·.1)).sum : ℚ) (hist.length * ν) E) ≤ 2 ^ 100 →
    ∃ s' : Fin n → ℚ,
      (Entity.run env' { e0 with dynamics := { e0.dynamics with trajectory := tr, trajectoryT := trT }, state := toFl s, stateDot := sd } (stepsOf hist)).state = toFl s' ∧
      ∀ i, |(s' i : ℝ) - f (t + ((hist.map (·.1)).sum : ℚ)) i| ≤ w i * linB a μ γ lam Φ ((hist.map (·.1)).sum : ℚ) (hist.length * ν) E
  | [], _, s, sd, tr, trT, t, E, ht0, ht1, hE0, hE, hbig => by
    refine ⟨s, rfl, fun i => ?_⟩
    have := hE i
    simpa [linB, grow_zero] using this
  | (h, act) :: hist, hh, s, sd, tr, trT, t, E, ht0, ht1, hE0, hE, hbig => by
    obtain ⟨hw', hw, ha0, hμ0, hη0, hγ0, hW0, hp, hq, hc⟩ := S.consts
    obtain ⟨g1, g2, g3⟩ := hh (h, act) (by simp)
    simp only at g1 g2 g3
    have gr : (0 : ℝ) ≤ h := by exact_mod_cast g2
    have hsum : (0 : ℝ) ≤ ((hist.map (·.1)).sum : ℚ) := by
      have : (0 : ℚ) ≤ (hist.map (·.1)).sum := List.sum_nonneg fun x hx => by
        obtain ⟨q, hq, rfl⟩ := List.mem_map.1 hx
        exact (hh q (by simp [hq])).2.1
      exact_mod_cast this
    simp only [List.map_cons, List.sum_cons, Rat.cast_add, List.length_cons, Nat.cast_add, Nat.cast_one] at ht1 hbig ⊢
    set T' : ℝ := (((hist.map (·.1)).sum : ℚ) : ℝ) with hT'
    have hcomp : linB a μ γ lam Φ T' (hist.length * ν) (linB a μ γ lam Φ h ν E) ≤ linB a μ γ lam Φ (h + T') ((hist.length + 1) * ν) E := by
      refine (grow_comp (by positivity) hc hp hq gr (by positivity) hsum (by positivity)).trans (le_of_eq ?_)
      unfold linB
      congr 1
      ring
    have hs0 : 0 ≤ linB a μ γ lam Φ h ν E := grow_nonneg hp hq gr (by positivity) hE0
    have hsle : linB a μ γ lam Φ h ν E ≤ linB a μ γ lam Φ (h + T') ((hist.length + 1) * ν) E :=
      le_trans (le_grow (by positivity) hc hp hq hsum (by positivity) hs0) hcomp
    have hEle : E ≤ linB a μ γ lam Φ h ν E := le_grow (by positivity) hc hp hq gr (by positivity) hE0
    have big : ∀ E', E' ≤ linB a μ γ lam Φ (h + T') ((hist.length + 1) * ν) E → (W : ℝ) * (Φ + E') ≤ 2 ^ 100 := fun E' h =>
      le_trans (mul_le_mul_of_nonneg_left (by linarith) (by positivity)) hbig
    -- the solver
    obtain ⟨-, -, -, -, -, hs100⟩ := S.size ht0 (by linarith) hE (big E (hEle.trans hsle)) hE0
    set d : Dyn (b64Of libm) := { e0.dynamics with trajectory := tr, trajectoryT := trT } with hd
    obtain ⟨ts, q1, q2, q3⟩ := g3 s (d.tEval (.fin h)) hs100
    have hts : linB a μ γ lam Φ ((h : ℝ) - ((0 : ℚ) : ℝ)) ts.length E ≤ linB a μ γ lam Φ h ν E := by
      rw [Rat.cast_zero, sub_zero]
      exact grow_mono (by positivity) hc hp hq gr (by positivity) hE0 le_rfl (by exact_mod_cast q1) le_rfl
    obtain ⟨s1, k1, k2⟩ := S.chain (t0 := t) ts 0 h s E q2 hE0 (by simpa using hE) (by simpa using ht0) (by linarith) (big _ (hts.trans hsle))
    obtain ⟨sol, k3, k4⟩ := q3 _ k1
    have k5 : ∀ i, |(s1 i : ℝ) - f (t + h) i| ≤ w i * linB a μ γ lam Φ h ν E := fun i =>
      (k2 i).trans (mul_le_mul_of_nonneg_left hts (hw i).le)
    -- the derivative recorded at the end
    obtain ⟨X, x0, x1, -, x3, -⟩ := S.size (t := t + h) (by linarith) (by linarith) k5 (big _ hsle) hs0
    obtain ⟨z, z1, z2⟩ := S.field (.fin h) 0 (toFl s1) s1 X (by omega)
      (nearV_toFl (by positivity) x3) x0 (x1.trans (by norm_num))
    obtain ⟨v, rfl, -⟩ := z2.toFl
    have hu : Unlimited d := ⟨S.unl.custom, S.unl.stateMin, S.unl.stateMax, S.unl.stateDotMin, S.unl.stateDotMax, S.unl.wrap⟩
    have hstep : d.step env' (.fin h) (toFl s) (toFl U) = ({ d with trajectory := some sol.y, trajectoryT := some sol.t }, .ok (toFl s1, toFl v)) :=
      rk45Step_unlimited hu hmeth k3 k4 z1
    have hask : Applied env' ({ e0 with dynamics := d, state := toFl s, stateDot := sd } : Entity (b64Of libm)) act (toFl U) := by
      obtain ⟨ty, u, g, gc⟩ := applied_iff.1 g1
      refine applied_iff.2 ⟨ty, u, ?_, gc⟩
      rw [← g]
      cases act <;> rfl
    obtain ⟨ww, hww⟩ := step_applied (env := env') (e := { e0 with dynamics := d, state := toFl s, stateDot := sd }) hask (.fin h) hstep
    obtain ⟨s', h3, h4⟩ := S.run hmeth hist (fun q hq => hh q (by simp [hq])) s1 (toFl v) (some sol.y) (some sol.t) (t + h) _ (by linarith)
      (by rw [← hT']; linarith) hs0 k5 (by rw [← hT']; exact big _ hcomp)
    rw [← hT'] at h4
    refine ⟨s', ?_, fun i => ?_⟩
    · rw [stepsOf_cons, run_cons]
      simp only [Entity.op]
      rw [hww]
      exact h3
    · have := h4 i
      rw [show t + h + T' = t + (h + T') by ring] at this
      exact this.trans (mul_le_mul_of_nonneg_left hcomp (hw i).le)

end history

end SAD
