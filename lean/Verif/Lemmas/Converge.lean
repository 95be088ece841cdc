import Verif.Lemmas.Flow
import Mathlib.Analysis.Calculus.MeanValue
import Mathlib.Analysis.SpecialFunctions.Exp

/-! # Convergence of Runge-Kutta chains for Lipschitz fields -/

namespace SAD
open Real

section
variable {V : Type} [NormedAddCommGroup V] [NormedSpace ℝ V]

/-- `f` is Lipschitz on a set that the stages of a step do not leave -/
structure LipOn (f : V → V) (L : ℝ) (S : V → Prop) (D : Submodule ℝ V) : Prop where
  nonneg : 0 ≤ L
  lip : ∀ y z, S y → S z → ‖f y - f z‖ ≤ L * ‖y - z‖
  field : ∀ z, S z → f z ∈ D
  move : ∀ y d, S y → d ∈ D → S (y + d)

theorem LipOn.stage {f : V → V} {L : ℝ} {S : V → Prop} {D : Submodule ℝ V} (hl : LipOn f L S D) {y w : V} (hy : S y) (hw : w ∈ D) {h c n : ℝ} (hh : 0 ≤ h)
    (hn : ‖w‖ ≤ c * n) (hc : 0 ≤ c) (hn0 : 0 ≤ n) {x : ℝ} (hx : h * L ≤ x) :
    f (y + h • w) ∈ D ∧ ‖f (y + h • w) - f y‖ ≤ x * c * n := by
  have hs : S (y + h • w) := hl.move y _ hy (D.smul_mem h hw)
  refine ⟨hl.field _ hs, (hl.lip _ _ hs hy).trans ?_⟩
  rw [add_sub_cancel_left, norm_smul, Real.norm_eq_abs, abs_of_nonneg hh]
  have h1 : 0 ≤ c * n := mul_nonneg hc hn0
  have h2 : 0 ≤ h * L := mul_nonneg hh hl.nonneg
  calc L * (h * ‖w‖) = h * L * ‖w‖ := by ring
    _ ≤ h * L * (c * n) := mul_le_mul_of_nonneg_left hn h2
    _ ≤ x * (c * n) := mul_le_mul_of_nonneg_right hx h1
    _ = x * c * n := by ring

theorem kdopri_step (f : V → V) (t h : ℝ) (y : V) : ∃ k2 k3 k4 k5 k6 : V,
    k2 = f (y + h • ((1 / 5 : ℝ) • f y)) ∧
    k3 = f (y + h • ((3 / 40 : ℝ) • f y + (9 / 40 : ℝ) • k2)) ∧
    k4 = f (y + h • ((44 / 45 : ℝ) • f y + (-56 / 15 : ℝ) • k2 + (32 / 9 : ℝ) • k3)) ∧
    k5 = f (y + h • ((19372 / 6561 : ℝ) • f y + (-25360 / 2187 : ℝ) • k2 + (64448 / 6561 : ℝ) • k3 + (-212 / 729 : ℝ) • k4)) ∧
    k6 = f (y + h • ((9017 / 3168 : ℝ) • f y + (-355 / 33 : ℝ) • k2 + (46732 / 5247 : ℝ) • k3 + (49 / 176 : ℝ) • k4 + (-5103 / 18656 : ℝ) • k5)) ∧
    rkStep kdopri (fun _ => f) t h y = y + h • ((35 / 384 : ℝ) • f y + (500 / 1113 : ℝ) • k3 + (125 / 192 : ℝ) • k4 + (-2187 / 6784 : ℝ) • k5 + (11 / 84 : ℝ) • k6) := by
  refine ⟨_, _, _, _, _, rfl, rfl, rfl, rfl, rfl, ?_⟩
  simp [rkStep, kdopri, rkStages, combo]

theorem norm_smul_bound {a b c n : ℝ} {u : V} (ha : |a| = b) (hu : ‖u‖ ≤ c * n) : ‖a • u‖ ≤ b * c * n := by
  rw [norm_smul, Real.norm_eq_abs, ha, mul_assoc]
  exact mul_le_mul_of_nonneg_left hu (ha ▸ abs_nonneg a)

theorem norm_of_sub {u v : V} {c d n : ℝ} (hv : ‖v‖ ≤ n) (h : ‖u - v‖ ≤ d * n) (hc : d + 1 ≤ c) (hn : 0 ≤ n) : ‖u‖ ≤ c * n := by
  have h1 : ‖u‖ ≤ ‖u - v‖ + ‖v‖ := by simpa using norm_add_le (u - v) v
  nlinarith

/-- the stages of a Dormand-Prince step stay near its start -/
theorem kdopri_parts {f : V → V} {L : ℝ} {S : V → Prop} {D : Submodule ℝ V} (hl : LipOn f L S D) {y : V} (hy : S y) (t : ℝ) {h : ℝ} (hh : 0 ≤ h)
    (hx : h * L ≤ 1 / 25) : ∃ w2 w3 w4 w5 w6 : V,
      w2 = (1 / 5 : ℝ) • f y ∧
      w3 = (3 / 40 : ℝ) • f y + (9 / 40 : ℝ) • f (y + h • w2) ∧
      w4 = (44 / 45 : ℝ) • f y + (-56 / 15 : ℝ) • f (y + h • w2) + (32 / 9 : ℝ) • f (y + h • w3) ∧
      w5 = (19372 / 6561 : ℝ) • f y + (-25360 / 2187 : ℝ) • f (y + h • w2) + (64448 / 6561 : ℝ) • f (y + h • w3) + (-212 / 729 : ℝ) • f (y + h • w4) ∧
      w6 = (9017 / 3168 : ℝ) • f y + (-355 / 33 : ℝ) • f (y + h • w2) + (46732 / 5247 : ℝ) • f (y + h • w3) + (49 / 176 : ℝ) • f (y + h • w4)
        + (-5103 / 18656 : ℝ) • f (y + h • w5) ∧
      rkStep kdopri (fun _ => f) t h y = y + h • ((35 / 384 : ℝ) • f y + (500 / 1113 : ℝ) • f (y + h • w3) + (125 / 192 : ℝ) • f (y + h • w4)
        + (-2187 / 6784 : ℝ) • f (y + h • w5) + (11 / 84 : ℝ) • f (y + h • w6)) ∧
      ‖w2‖ ≤ (1 / 5) * ‖f y‖ ∧ ‖w3‖ ≤ (303 / 1000) * ‖f y‖ ∧ ‖w4‖ ≤ (835 / 100) * ‖f y‖ ∧ ‖w5‖ ≤ (2499 / 100) * ‖f y‖ ∧ ‖w6‖ ≤ (2365 / 100) * ‖f y‖ ∧
      ‖f (y + h • w3) - f y‖ ≤ h * L * (303 / 1000) * ‖f y‖ ∧ ‖f (y + h • w4) - f y‖ ≤ h * L * (835 / 100) * ‖f y‖ ∧
      ‖f (y + h • w5) - f y‖ ≤ h * L * (2499 / 100) * ‖f y‖ ∧ ‖f (y + h • w6) - f y‖ ≤ h * L * (2365 / 100) * ‖f y‖ := by
  obtain ⟨k2, k3, k4, k5, k6, e2, e3, e4, e5, e6, es⟩ := kdopri_step f t h y
  obtain ⟨n, hn⟩ : ∃ n, n = ‖f y‖ := ⟨_, rfl⟩
  rw [← hn]
  have hn0 : 0 ≤ n := hn ▸ norm_nonneg _
  have hx0 : 0 ≤ h * L := mul_nonneg hh hl.nonneg
  have n1 : ‖f y‖ ≤ 1 * n := by rw [hn, one_mul]
  have n1' : ‖f y‖ ≤ n := hn.ge
  have d1 := hl.field y hy
  have w2 : ‖(1 / 5 : ℝ) • f y‖ ≤ (1 / 5) * n := (norm_smul_bound (b := 1 / 5) (by norm_num) n1).trans (by linarith)
  obtain ⟨d2, a2⟩ := hl.stage hy (D.smul_mem _ d1) hh w2 (by norm_num) hn0 le_rfl
  rw [← e2] at d2 a2
  have n2 : ‖k2‖ ≤ (126 / 125) * n := norm_of_sub n1' a2 (by nlinarith) hn0
  have w3 : ‖(3 / 40 : ℝ) • f y + (9 / 40 : ℝ) • k2‖ ≤ (303 / 1000) * n :=
    (norm_add_le_of_le (norm_smul_bound (b := 3 / 40) (by norm_num) n1) (norm_smul_bound (b := 9 / 40) (by norm_num) n2)).trans (by nlinarith)
  obtain ⟨d3, a3⟩ := hl.stage hy (D.add_mem (D.smul_mem _ d1) (D.smul_mem _ d2)) hh w3 (by norm_num) hn0 le_rfl
  rw [← e3] at d3 a3
  have n3 : ‖k3‖ ≤ (1013 / 1000) * n := norm_of_sub n1' a3 (by nlinarith) hn0
  have w4 : ‖(44 / 45 : ℝ) • f y + (-56 / 15 : ℝ) • k2 + (32 / 9 : ℝ) • k3‖ ≤ (835 / 100) * n :=
    (norm_add_le_of_le (norm_add_le_of_le (norm_smul_bound (b := 44 / 45) (by norm_num) n1) (norm_smul_bound (b := 56 / 15) (by norm_num [abs_div]) n2))
      (norm_smul_bound (b := 32 / 9) (by norm_num) n3)).trans (by nlinarith)
  obtain ⟨d4, a4⟩ := hl.stage hy (D.add_mem (D.add_mem (D.smul_mem _ d1) (D.smul_mem _ d2)) (D.smul_mem _ d3)) hh w4 (by norm_num) hn0 le_rfl
  rw [← e4] at d4 a4
  have n4 : ‖k4‖ ≤ (1334 / 1000) * n := norm_of_sub n1' a4 (by nlinarith) hn0
  have w5 : ‖(19372 / 6561 : ℝ) • f y + (-25360 / 2187 : ℝ) • k2 + (64448 / 6561 : ℝ) • k3 + (-212 / 729 : ℝ) • k4‖ ≤ (2499 / 100) * n :=
    (norm_add_le_of_le (norm_add_le_of_le (norm_add_le_of_le (norm_smul_bound (b := 19372 / 6561) (by norm_num) n1)
      (norm_smul_bound (b := 25360 / 2187) (by norm_num [abs_div]) n2)) (norm_smul_bound (b := 64448 / 6561) (by norm_num) n3))
      (norm_smul_bound (b := 212 / 729) (by norm_num [abs_div]) n4)).trans (by nlinarith)
  obtain ⟨d5, a5⟩ := hl.stage hy (D.add_mem (D.add_mem (D.add_mem (D.smul_mem _ d1) (D.smul_mem _ d2)) (D.smul_mem _ d3)) (D.smul_mem _ d4)) hh w5
    (by norm_num) hn0 le_rfl
  rw [← e5] at d5 a5
  have n5 : ‖k5‖ ≤ 2 * n := norm_of_sub n1' a5 (by nlinarith) hn0
  have w6 : ‖(9017 / 3168 : ℝ) • f y + (-355 / 33 : ℝ) • k2 + (46732 / 5247 : ℝ) • k3 + (49 / 176 : ℝ) • k4 + (-5103 / 18656 : ℝ) • k5‖
      ≤ (2365 / 100) * n :=
    (norm_add_le_of_le (norm_add_le_of_le (norm_add_le_of_le (norm_add_le_of_le (norm_smul_bound (b := 9017 / 3168) (by norm_num) n1)
      (norm_smul_bound (b := 355 / 33) (by norm_num [abs_div]) n2)) (norm_smul_bound (b := 46732 / 5247) (by norm_num) n3))
      (norm_smul_bound (b := 49 / 176) (by norm_num) n4)) (norm_smul_bound (b := 5103 / 18656) (by norm_num [abs_div]) n5)).trans (by nlinarith)
  obtain ⟨d6, a6⟩ := hl.stage hy (D.add_mem (D.add_mem (D.add_mem (D.add_mem (D.smul_mem _ d1) (D.smul_mem _ d2)) (D.smul_mem _ d3)) (D.smul_mem _ d4))
    (D.smul_mem _ d5)) hh w6 (by norm_num) hn0 le_rfl
  rw [← e6] at d6 a6
  subst e2 e3 e4 e5 e6
  exact ⟨_, _, _, _, _, rfl, rfl, rfl, rfl, rfl, es, w2, w3, w4, w5, w6, a3, a4, a5, a6⟩

/-- a Dormand-Prince step differs little from an Euler step -/
theorem kdopri_local {f : V → V} {L : ℝ} {S : V → Prop} {D : Submodule ℝ V} (hl : LipOn f L S D) {y : V} (hy : S y) (t : ℝ) {h : ℝ} (hh : 0 ≤ h)
    (hx : h * L ≤ 1 / 25) : ‖rkStep kdopri (fun _ => f) t h y - (y + h • f y)‖ ≤ 17 * h ^ 2 * L * ‖f y‖ := by
  obtain ⟨w2, w3, w4, w5, w6, -, -, -, -, -, es, -, -, -, -, -, a3, a4, a5, a6⟩ := kdopri_parts hl hy t hh hx
  obtain ⟨n, hn⟩ : ∃ n, n = ‖f y‖ := ⟨_, rfl⟩
  rw [← hn] at a3 a4 a5 a6
  have hn0 : 0 ≤ n := hn ▸ norm_nonneg _
  have hx0 : 0 ≤ h * L := mul_nonneg hh hl.nonneg
  generalize f (y + h • w3) = k3 at *
  generalize f (y + h • w4) = k4 at *
  generalize f (y + h • w5) = k5 at *
  generalize f (y + h • w6) = k6 at *
  have key : rkStep kdopri (fun _ => f) t h y - (y + h • f y)
      = h • ((500 / 1113 : ℝ) • (k3 - f y) + (125 / 192 : ℝ) • (k4 - f y) + (-2187 / 6784 : ℝ) • (k5 - f y) + (11 / 84 : ℝ) • (k6 - f y)) := by
    rw [es]; module
  rw [key, norm_smul, Real.norm_eq_abs, abs_of_nonneg hh]
  have b3 : ‖(500 / 1113 : ℝ) • (k3 - f y) + (125 / 192 : ℝ) • (k4 - f y) + (-2187 / 6784 : ℝ) • (k5 - f y) + (11 / 84 : ℝ) • (k6 - f y)‖
      ≤ 17 * (h * L) * n := by
    refine (norm_add_le_of_le (norm_add_le_of_le (norm_add_le_of_le (norm_smul_bound (b := 500 / 1113) (by norm_num) a3)
      (norm_smul_bound (b := 125 / 192) (by norm_num) a4)) (norm_smul_bound (b := 2187 / 6784) (by norm_num [abs_div]) a5))
      (norm_smul_bound (b := 11 / 84) (by norm_num) a6)).trans ?_
    have : 0 ≤ h * L * n := mul_nonneg hx0 hn0
    nlinarith
  rw [← hn]
  calc h * _ ≤ h * (17 * (h * L) * n) := mul_le_mul_of_nonneg_left b3 hh
    _ = 17 * h ^ 2 * L * n := by ring

theorem keuler_local {f : V → V} {L : ℝ} (hL : 0 ≤ L) (y : V) (t h : ℝ) :
    ‖rkStep keuler (fun _ => f) t h y - (y + h • f y)‖ ≤ 17 * h ^ 2 * L * ‖f y‖ := by
  have : rkStep keuler (fun _ => f) t h y = y + h • f y := by simp [rkStep, keuler, rkStages, combo]
  rw [this, sub_self, norm_zero]
  positivity

/-- an exact solution on `[0, T]` -/
structure Flows (f : V → V) (S : V → Prop) (B T : ℝ) (φ : ℝ → V) : Prop where
  deriv : ∀ t ∈ Set.Icc 0 T, HasDerivWithinAt φ (f (φ t)) (Set.Icc 0 T) t
  bound : ∀ t ∈ Set.Icc 0 T, ‖f (φ t)‖ ≤ B
  inside : ∀ t ∈ Set.Icc 0 T, S (φ t)

theorem Flows.local' {f : V → V} {L : ℝ} {S : V → Prop} (hL : 0 ≤ L) (hlip : ∀ y z, S y → S z → ‖f y - f z‖ ≤ L * ‖y - z‖) {B T : ℝ} {φ : ℝ → V} (hφ : Flows f S B T φ) {s h : ℝ}
    (hs : 0 ≤ s) (hh : 0 ≤ h) (hT : s + h ≤ T) : ‖φ (s + h) - (φ s + h • f (φ s))‖ ≤ L * B * h ^ 2 := by
  have hsT : s ∈ Set.Icc 0 T := ⟨hs, by linarith⟩
  have hB : 0 ≤ B := (norm_nonneg _).trans (hφ.bound s hsT)
  have h1 : ∀ t ∈ Set.Icc 0 T, ‖φ t - φ s‖ ≤ B * ‖t - s‖ := fun t ht =>
    Convex.norm_image_sub_le_of_norm_hasDerivWithin_le hφ.deriv hφ.bound (convex_Icc 0 T) hsT ht
  have hsub : Set.Icc s (s + h) ⊆ Set.Icc 0 T := Set.Icc_subset_Icc hs hT
  have h2 : ∀ t ∈ Set.Icc s (s + h), HasDerivWithinAt (fun t => φ t - t • f (φ s)) (f (φ t) - (1 : ℝ) • f (φ s)) (Set.Icc s (s + h)) t := fun t ht =>
    ((hφ.deriv t (hsub ht)).mono hsub).sub ((hasDerivWithinAt_id t _).smul_const _)
  have h3 : ∀ t ∈ Set.Icc s (s + h), ‖f (φ t) - (1 : ℝ) • f (φ s)‖ ≤ L * B * h := by
    intro t ht
    rw [one_smul]
    refine (hlip _ _ (hφ.inside t (hsub ht)) (hφ.inside s hsT)).trans ?_
    rw [mul_assoc]
    refine mul_le_mul_of_nonneg_left ((h1 t (hsub ht)).trans (mul_le_mul_of_nonneg_left ?_ hB)) hL
    rw [Real.norm_eq_abs, abs_of_nonneg (by linarith [ht.1])]
    linarith [ht.2]
  have h4 := Convex.norm_image_sub_le_of_norm_hasDerivWithin_le h2 h3 (convex_Icc s (s + h)) (Set.left_mem_Icc.2 (by linarith))
    (Set.right_mem_Icc.2 (by linarith))
  have e : φ (s + h) - (φ s + h • f (φ s)) = φ (s + h) - (s + h) • f (φ s) - (φ s - s • f (φ s)) := by module
  rw [e]
  refine h4.trans (le_of_eq ?_)
  rw [add_sub_cancel_left, Real.norm_eq_abs, abs_of_nonneg hh]
  ring

theorem Flows.local {f : V → V} {L : ℝ} {S : V → Prop} {D : Submodule ℝ V} (hl : LipOn f L S D) {B T : ℝ} {φ : ℝ → V} (hφ : Flows f S B T φ) {s h : ℝ}
    (hs : 0 ≤ s) (hh : 0 ≤ h) (hT : s + h ≤ T) : ‖φ (s + h) - (φ s + h • f (φ s))‖ ≤ L * B * h ^ 2 := hφ.local' hl.nonneg hl.lip hs hh hT

/-- the error of one step, from the error before it -/
theorem rk_error {tab : KTab ℝ} {f : V → V} {L : ℝ} {S : V → Prop} {D : Submodule ℝ V} (hl : LipOn f L S D)
    (hloc : ∀ (t h : ℝ) (y : V), S y → 0 ≤ h → h * L ≤ 1 / 25 → ‖rkStep tab (fun _ => f) t h y - (y + h • f y)‖ ≤ 17 * h ^ 2 * L * ‖f y‖)
    {B T : ℝ} {φ : ℝ → V} (hφ : Flows f S B T φ) {s h η : ℝ} (hs : 0 ≤ s) (hh : 0 ≤ h) (hT : s + h ≤ T) (hη : h ≤ η) (hx : η * L ≤ 1 / 25) {t : ℝ} {y : V} (hy : S y) :
    ‖rkStep tab (fun _ => f) t h y - φ (s + h)‖ ≤ ‖y - φ s‖ * (1 + 2 * L * h) + 18 * L * B * η * h := by
  have hsT : s ∈ Set.Icc 0 T := ⟨hs, by linarith⟩
  have hB : 0 ≤ B := (norm_nonneg _).trans (hφ.bound s hsT)
  have hL := hl.nonneg
  have hhL : h * L ≤ 1 / 25 := (mul_le_mul_of_nonneg_right hη hL).trans hx
  have h1 := hloc t h y hy hh hhL
  have h2 := hφ.local hl hs hh hT
  have h3 := hl.lip y (φ s) hy (hφ.inside s hsT)
  have h4 : ‖f y‖ ≤ L * ‖y - φ s‖ + B := by
    have : ‖f y‖ ≤ ‖f y - f (φ s)‖ + ‖f (φ s)‖ := by simpa using norm_add_le (f y - f (φ s)) (f (φ s))
    linarith [hφ.bound s hsT]
  have e : rkStep tab (fun _ => f) t h y - φ (s + h) = (rkStep tab (fun _ => f) t h y - (y + h • f y)) + ((y - φ s) + h • (f y - f (φ s)))
      - (φ (s + h) - (φ s + h • f (φ s))) := by module
  have h5 : ‖(y - φ s) + h • (f y - f (φ s))‖ ≤ ‖y - φ s‖ + h * (L * ‖y - φ s‖) := by
    refine (norm_add_le _ _).trans (add_le_add le_rfl ?_)
    rw [norm_smul, Real.norm_eq_abs, abs_of_nonneg hh]
    exact mul_le_mul_of_nonneg_left h3 hh
  rw [e]
  refine (norm_sub_le_of_le (norm_add_le_of_le h1 h5) h2).trans ?_
  have hε : 0 ≤ ‖y - φ s‖ := norm_nonneg _
  generalize ‖y - φ s‖ = ε at *
  have q1 : 17 * h ^ 2 * L * ‖f y‖ ≤ 17 * h ^ 2 * L * (L * ε + B) := mul_le_mul_of_nonneg_left h4 (by positivity)
  have q2 : h * L * (h * L) * ε ≤ 1 / 25 * (h * L) * ε :=
    mul_le_mul_of_nonneg_right (mul_le_mul_of_nonneg_right hhL (mul_nonneg hh hL)) hε
  have q3 : L * B * h * h ≤ L * B * h * η := mul_le_mul_of_nonneg_left hη (by positivity)
  have q4 : 0 ≤ h * L * ε := by positivity
  nlinarith

/-- the error after a chain of steps -/
theorem rkChain_error {tab : KTab ℝ} {f : V → V} {L : ℝ} {S : V → Prop} {D : Submodule ℝ V} (hl : LipOn f L S D)
    (hloc : ∀ (t h : ℝ) (y : V), S y → 0 ≤ h → h * L ≤ 1 / 25 → ‖rkStep tab (fun _ => f) t h y - (y + h • f y)‖ ≤ 17 * h ^ 2 * L * ‖f y‖)
    {B T : ℝ} {φ : ℝ → V} (hφ : Flows f S B T φ) {η : ℝ} (hη0 : 0 ≤ η) (hx : η * L ≤ 1 / 25) (hs : List ℝ) : ∀ {s t τ : ℝ} {y : V}, 0 ≤ s → 0 ≤ τ → S y →
      (∀ h ∈ hs, 0 ≤ h ∧ h ≤ η) → s + hs.sum = T → 0 ≤ B → ‖y - φ s‖ ≤ 18 * L * B * η * τ * exp (2 * L * τ) →
      ‖rkChain tab (fun _ => f) t y hs - φ T‖ ≤ 18 * L * B * η * (τ + hs.sum) * exp (2 * L * (τ + hs.sum)) := by
  have hL := hl.nonneg
  induction hs with
  | nil =>
    intro s t τ y h0 hτ hy hb hsum hB he
    simp at hsum
    subst hsum
    simpa [rkChain] using he
  | cons h hs ih =>
    intro s t τ y h0 hτ hy hb hsum hB he
    obtain ⟨hh, hhη⟩ := hb h (by simp)
    have hpos : 0 ≤ hs.sum := List.sum_nonneg fun x hx => (hb x (by simp [hx])).1
    rw [List.sum_cons] at hsum ⊢
    have h1 := rk_error (tab := tab) hl hloc hφ h0 hh (by linarith) hhη hx (t := t) hy
    have hy' : S (rkStep tab (fun _ => f) t h y) :=
      rkChain_inv tab (fun _ => f) S D (fun _ => hl.field) hl.move t y [h] hy
    have h2 : ‖rkStep tab (fun _ => f) t h y - φ (s + h)‖ ≤ 18 * L * B * η * (τ + h) * exp (2 * L * (τ + h)) := by
      refine h1.trans ?_
      have c0 : 0 ≤ 18 * L * B * η := by positivity
      have e1 : exp (2 * L * (τ + h)) = exp (2 * L * τ) * exp (2 * L * h) := by rw [← exp_add]; congr 1; ring
      have e2 : 1 + 2 * L * h ≤ exp (2 * L * h) := by linarith [add_one_le_exp (2 * L * h)]
      have e3 : 1 ≤ exp (2 * L * (τ + h)) := one_le_exp (by positivity)
      have p1 : ‖y - φ s‖ * (1 + 2 * L * h) ≤ 18 * L * B * η * τ * exp (2 * L * τ) * exp (2 * L * h) :=
        mul_le_mul he e2 (by positivity) (by positivity)
      have p2 : 18 * L * B * η * h * 1 ≤ 18 * L * B * η * h * exp (2 * L * (τ + h)) := mul_le_mul_of_nonneg_left e3 (by positivity)
      rw [e1] at p2 ⊢
      nlinarith
    have := ih (t := t + h) (add_nonneg h0 hh) (add_nonneg hτ hh) hy' (fun x hx => hb x (by simp [hx])) (by linarith) hB h2
    simp only [rkChain]
    rwa [add_assoc τ h] at this

end
end SAD
