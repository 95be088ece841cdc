import Verif.Lemmas.RoundDubins3
import Verif.Spec.Legs3
import Verif.Props.DubinsPrecision

/-!
# C113: flights of the 3d aircraft in double precision
-/

set_option linter.unusedSectionVars false

namespace SAD
open Spec

section
variable {libm : Fmt ℚ}

/-- the two roundings of a component of the velocity -/
theorem component {v C1 C2 : ℚ} {S δ K1 K2 : ℝ} (hδ : δ ≤ 1 / 8) (hS1 : 2⁻¹ ^ 900 ≤ S) (hS2 : S ≤ 2 ^ 200) (hv : |(v : ℝ)| ≤ S)
    (h1 : |(C1 : ℝ) - K1| ≤ δ) (h2 : |(C2 : ℝ) - K2| ≤ δ) (k1 : |K1| ≤ 1) (k2 : |K2| ≤ 1) :
    ∃ P : ℚ, (.fin v * .fin C1 : Fl (b64Of libm)) = .fin P ∧ |((P * C2 : ℚ) : ℝ) - v * K1 * K2| ≤ S * (3 * δ + 6 * 2⁻¹ ^ 53) ∧
      Near (2⁻¹ ^ 53) 1 (.fin P * .fin C2 : Fl (b64Of libm)) (P * C2) (|P * C2| + 2 ^ (-1022 : ℤ)) ∧ |P * C2| ≤ 2 ^ 201 ∧
      |((P * C2 : ℚ) : ℝ)| ≤ 2 * S := by
  have hS0 : 0 ≤ S := (abs_nonneg _).trans hv
  have hδ0 : 0 ≤ δ := (abs_nonneg _).trans h1
  have c1 : |(C1 : ℝ)| ≤ 9 / 8 := by
    have := abs_add_le ((C1 : ℝ) - K1) K1
    rw [sub_add_cancel] at this; linarith
  have c2 : |(C2 : ℝ)| ≤ 9 / 8 := by
    have := abs_add_le ((C2 : ℝ) - K2) K2
    rw [sub_add_cancel] at this; linarith
  have e1 : |(v : ℝ) * C1| ≤ S * (9 / 8) := by rw [abs_mul]; exact mul_le_mul hv c1 (abs_nonneg _) hS0
  have toQ : ∀ z : ℚ, ∀ n : ℕ, |(z : ℝ)| ≤ n → |z| ≤ n := fun z n hz => by exact_mod_cast hz
  have big : (9 / 8 : ℝ) * 2 ^ 200 ≤ ((2 ^ 201 : ℕ) : ℝ) := by push_cast; norm_num
  have m1 := toQ (v * C1) (2 ^ 201) (by push_cast at *; linarith)
  push_cast at m1
  obtain ⟨P, p1, p2⟩ := round_fin (b64_rounds libm) (x := v * C1) (m1.trans (by decide +kernel))
  have p3 := (Rat.cast_le (K := ℝ)).2 p2
  push_cast at p3
  obtain ⟨ε, hε⟩ : ∃ ε : ℝ, ε = 2⁻¹ ^ 53 := ⟨_, rfl⟩
  have hε0 : 0 ≤ ε := by rw [hε]; positivity
  have hε1 : ε ≤ 1 / 1000 := by rw [hε]; norm_num
  have hτ : (2 : ℝ) ^ (-1022 : ℤ) ≤ S / 8 := by
    have h : ((2 : ℚ) ^ (-1022 : ℤ)) ≤ 2⁻¹ ^ 900 / 8 := by decide +kernel
    have := (Rat.cast_le (K := ℝ)).2 h
    push_cast at this
    exact this.trans (div_le_div_of_nonneg_right hS1 (by norm_num))
  rw [← hε] at p3 ⊢
  have p4 : |(P : ℝ) - v * C1| ≤ S * (5 / 4 * ε) := by
    refine p3.trans ?_
    have := mul_le_mul_of_nonneg_left (show |(v : ℝ) * C1| + 2 ^ (-1022 : ℤ) ≤ S * (5 / 4) by linarith) hε0
    linarith
  have p5 : |(v : ℝ) * C1 - v * K1| ≤ S * δ := by
    rw [← mul_sub, abs_mul]; exact mul_le_mul hv h1 (abs_nonneg _) hS0
  have p6 : |(P : ℝ) - v * K1| ≤ S * (5 / 4 * ε + δ) := by
    have := abs_add_le ((P : ℝ) - v * C1) (v * C1 - v * K1)
    rw [sub_add_sub_cancel] at this; linarith
  have v1 : |(v : ℝ) * K1| ≤ S * 1 := by rw [abs_mul]; exact mul_le_mul hv k1 (abs_nonneg _) hS0
  have p7 : |(P : ℝ) * C2 - v * K1 * K2| ≤ S * (3 * δ + 6 * ε) := by
    rw [show (P : ℝ) * C2 - v * K1 * K2 = (P - v * K1) * C2 + v * K1 * (C2 - K2) by ring]
    refine (abs_add_le _ _).trans ?_
    rw [abs_mul, abs_mul (↑v * K1)]
    have a1 : |(P : ℝ) - v * K1| * |(C2 : ℝ)| ≤ S * (5 / 4 * ε + δ) * (9 / 8) := mul_le_mul p6 c2 (abs_nonneg _) (by positivity)
    have a2 : |(v : ℝ) * K1| * |(C2 : ℝ) - K2| ≤ S * 1 * δ := mul_le_mul v1 h2 (abs_nonneg _) (by positivity)
    have a3 : 0 ≤ S * ε := by positivity
    have a4 : 0 ≤ S * δ := by positivity
    linarith
  have p8 : |(P : ℝ) * C2| ≤ 2 * S := by
    have := abs_add_le ((P : ℝ) * C2 - v * K1 * K2) (v * K1 * K2)
    rw [sub_add_cancel] at this
    have a1 : |(v : ℝ) * K1 * K2| ≤ S * 1 * 1 := by rw [abs_mul (↑v * K1)]; exact mul_le_mul v1 k2 (abs_nonneg _) (by positivity)
    have a2 : S * (3 * δ + 6 * ε) ≤ S * (1 / 2) := mul_le_mul_of_nonneg_left (by linarith) hS0
    linarith
  have m2 := toQ (P * C2) (2 ^ 201) (by
    have big : (2 : ℝ) * 2 ^ 200 ≤ ((2 ^ 201 : ℕ) : ℝ) := by push_cast; norm_num
    push_cast at *; linarith)
  push_cast at m2
  exact ⟨P, p1, by push_cast; exact p7, near_product (b64_rounds libm) (m2.trans (by decide +kernel)), m2, by push_cast; exact p8⟩

/-- gravity in double precision -/
theorem gravity64 : ∃ g : ℚ, (dubinsGravity : Fl (b64Of libm)) = .fin g ∧ |(g : ℝ) - 32.17| ≤ 33 * 2⁻¹ ^ 53 ∧ 0 ≤ g ∧ g ≤ 33 := by
  obtain ⟨g, g1, g2⟩ := round_fin (b64_rounds libm) (x := ((3217 : ℕ) : ℚ) / 10 ^ 2) (by decide +kernel)
  have hτ : ((2 : ℚ) ^ (-1022 : ℤ)) ≤ 1 / 100 := by decide +kernel
  have hε : (0 : ℚ) ≤ 2⁻¹ ^ 53 := by positivity
  have hε1 : (2⁻¹ : ℚ) ^ 53 ≤ 1 / 1000 := by norm_num
  have g3 : |g - 3217 / 100| ≤ 33 * 2⁻¹ ^ 53 := by
    rw [show ((3217 : ℕ) : ℚ) / 10 ^ 2 = 3217 / 100 by norm_num, abs_of_pos (show (0 : ℚ) < 3217 / 100 by norm_num)] at g2
    refine g2.trans ?_
    rw [mul_comm (33 : ℚ)]
    exact mul_le_mul_of_nonneg_left (by linarith) hε
  have g4 := abs_le.1 g3
  refine ⟨g, g1, ?_, by linarith, by linarith⟩
  have := (Rat.cast_le (K := ℝ)).2 g3
  push_cast at this
  rw [show (32.17 : ℝ) = 3217 / 100 by norm_num]
  exact this

/-- the roundings of the turn rate -/
theorem turn_component {g v f : ℚ} {lo t δ : ℝ} (hδ : δ ≤ 1 / 8) (hg : |(g : ℝ) - 32.17| ≤ 33 * 2⁻¹ ^ 53) (hg0 : 0 ≤ g) (hg1 : g ≤ 33)
    (hlo : 0 < lo) (hlo2 : lo ≤ 2 ^ 200) (hv : lo ≤ v) (ht : |Real.tan f| ≤ t) (hf : |(libm.tan f : ℝ) - Real.tan f| ≤ δ)
    (hμ : 33 / lo * (t + 1) ≤ 2 ^ 200) :
    ∃ Q : ℚ, (.fin g / .fin v : Fl (b64Of libm)) = .fin Q ∧
      |((Q * libm.tan f : ℚ) : ℝ) - 32.17 / v * Real.tan f| ≤ 33 / lo * (t + 1) * (δ + 3 * 2⁻¹ ^ 53) ∧
      Near (2⁻¹ ^ 53) 1 (.fin Q * .fin (libm.tan f) : Fl (b64Of libm)) (Q * libm.tan f) (|Q * libm.tan f| + 2 ^ (-1022 : ℤ)) ∧
      |Q * libm.tan f| ≤ 2 ^ 201 ∧ |((Q * libm.tan f : ℚ) : ℝ)| ≤ 2 * (33 / lo * (t + 1)) := by
  obtain ⟨μ, hμe⟩ : ∃ μ, μ = 33 / lo := ⟨_, rfl⟩
  rw [← hμe] at hμ ⊢
  have hμ0 : 0 < μ := by rw [hμe]; positivity
  have ht0 : 0 ≤ t := (abs_nonneg _).trans ht
  have hδ0 : 0 ≤ δ := (abs_nonneg _).trans hf
  have hv0 : (0 : ℝ) < v := hlo.trans_le hv
  have hvq : (0 : ℚ) < v := by exact_mod_cast hv0
  have hg0' : (0 : ℝ) ≤ g := by exact_mod_cast hg0
  have hg1' : (g : ℝ) ≤ 33 := by exact_mod_cast hg1
  have e1 : (g : ℝ) / v ≤ μ := by rw [hμe]; exact div_le_div₀ (by norm_num) hg1' hlo hv
  have e0 : 0 ≤ (g : ℝ) / v := by positivity
  have hμ2 : μ ≤ 2 ^ 200 := by
    have : μ * 1 ≤ μ * (t + 1) := mul_le_mul_of_nonneg_left (by linarith) hμ0.le
    linarith
  have toQ : ∀ z : ℚ, ∀ n : ℕ, |(z : ℝ)| ≤ n → |z| ≤ n := fun z n hz => by exact_mod_cast hz
  have m1 := toQ (g / v) (2 ^ 201) (by
    have big : (2 : ℝ) ^ 200 ≤ ((2 ^ 201 : ℕ) : ℝ) := by push_cast; norm_num
    push_cast at *; rw [abs_of_nonneg e0]; linarith)
  push_cast at m1
  obtain ⟨Q, p1, p2⟩ := round_fin (b64_rounds libm) (x := g / v) (m1.trans (by decide +kernel))
  have p3 := (Rat.cast_le (K := ℝ)).2 p2
  push_cast at p3
  obtain ⟨ε, hε⟩ : ∃ ε : ℝ, ε = 2⁻¹ ^ 53 := ⟨_, rfl⟩
  have hε0 : 0 ≤ ε := by rw [hε]; positivity
  have hε1 : ε ≤ 1 / 1000 := by rw [hε]; norm_num
  have hτ : (2 : ℝ) ^ (-1022 : ℤ) ≤ μ := by
    have h : ((2 : ℚ) ^ (-1022 : ℤ)) * 2 ^ 200 ≤ 33 := by decide +kernel
    have := (Rat.cast_le (K := ℝ)).2 h
    push_cast at this
    rw [hμe, le_div_iff₀ hlo]
    refine le_trans (mul_le_mul_of_nonneg_left hlo2 (by positivity)) this
  rw [← hε] at p3 hg ⊢
  have p4 : |(Q : ℝ) - g / v| ≤ 2 * ε * μ := by
    refine p3.trans ?_
    have := mul_le_mul_of_nonneg_left (show |(g : ℝ) / v| + 2 ^ (-1022 : ℤ) ≤ 2 * μ by rw [abs_of_nonneg e0]; linarith) hε0
    linarith
  have p5 : |(g : ℝ) / v - 32.17 / v| ≤ ε * μ := by
    rw [← sub_div, abs_div, abs_of_pos hv0, hμe, ← mul_div_assoc, mul_comm ε]
    exact div_le_div₀ (by positivity) hg hlo hv
  have p6 : |(Q : ℝ) - 32.17 / v| ≤ 3 * ε * μ := by
    have := abs_add_le ((Q : ℝ) - g / v) (g / v - 32.17 / v)
    rw [sub_add_sub_cancel] at this; linarith
  have p7 : |(32.17 : ℝ) / v| ≤ μ := by
    rw [abs_of_pos (by positivity), hμe]; exact div_le_div₀ (by norm_num) (by norm_num) hlo hv
  have c2 : |(libm.tan f : ℝ)| ≤ t + δ := by
    have := abs_add_le ((libm.tan f : ℝ) - Real.tan f) (Real.tan f)
    rw [sub_add_cancel] at this; linarith
  have p8 : |(Q : ℝ) * libm.tan f - 32.17 / v * Real.tan f| ≤ μ * (t + 1) * (δ + 3 * ε) := by
    rw [show (Q : ℝ) * libm.tan f - 32.17 / v * Real.tan f = (Q - 32.17 / v) * libm.tan f + 32.17 / v * (libm.tan f - Real.tan f) by ring]
    refine (abs_add_le _ _).trans ?_
    rw [abs_mul, abs_mul (32.17 / (v : ℝ))]
    have a1 : |(Q : ℝ) - 32.17 / v| * |(libm.tan f : ℝ)| ≤ 3 * ε * μ * (t + 1) :=
      mul_le_mul p6 (by linarith) (abs_nonneg _) (by positivity)
    have a2 : |(32.17 : ℝ) / v| * |(libm.tan f : ℝ) - Real.tan f| ≤ μ * δ := mul_le_mul p7 hf (abs_nonneg _) hμ0.le
    have a3 : 0 ≤ μ * δ * t := by positivity
    linarith
  have p9 : |(Q : ℝ) * libm.tan f| ≤ 2 * (μ * (t + 1)) := by
    have := abs_add_le ((Q : ℝ) * libm.tan f - 32.17 / v * Real.tan f) (32.17 / v * Real.tan f)
    rw [sub_add_cancel] at this
    have a1 : |(32.17 : ℝ) / v * Real.tan f| ≤ μ * t := by rw [abs_mul]; exact mul_le_mul p7 ht (abs_nonneg _) hμ0.le
    have a2 : μ * (t + 1) * (δ + 3 * ε) ≤ μ * (t + 1) * 1 := mul_le_mul_of_nonneg_left (by linarith) (by positivity)
    linarith
  have m2 := toQ (Q * libm.tan f) (2 ^ 201) (by
    have big : (2 : ℝ) * 2 ^ 200 ≤ ((2 ^ 201 : ℕ) : ℝ) := by push_cast; norm_num
    push_cast at *; linarith)
  push_cast at m2
  refine ⟨Q, ?_, by push_cast; exact p8, near_product (b64_rounds libm) (m2.trans (by decide +kernel)), m2, by push_cast; exact p9⟩
  show Fl.div (.fin g) (.fin v) = _
  simp only [Fl.div, if_neg hvq.ne']
  exact p1

/-- one leg against exact arithmetic -/
theorem EulerDubins3.leg {d : Dyn (b64Of libm)} {glo ghi plo phi lo hi : ℚ} (hd : EulerDubins3 d glo ghi plo phi lo hi) {δ ρ t : ℝ} (hlibm : Trig libm δ)
    (htan : Tangent libm ρ δ) (hδ : δ ≤ 1 / 8) (hρt : ∀ x : ℝ, |x| ≤ ρ → |Real.tan x| ≤ t) (hlg : glo ≤ ghi) (hlp : plo ≤ phi) (hlim : lo ≤ hi)
    (hgl : -2 ≤ glo) (hgh : ghi ≤ 2) (hpl : -2 ≤ plo) (hph : phi ≤ 2) (hlo : 0 < lo) (env : Env (b64Of libm)) {S G : ℝ} (hhi : (hi : ℝ) ≤ S)
    (hS1 : 2⁻¹ ^ 900 ≤ S) (hS2 : S ≤ 2 ^ 200) (hG1 : 2⁻¹ ^ 900 ≤ G) (hG2 : G ≤ 2 ^ 200) (hμ : 33 / (lo : ℝ) * (t + 1) ≤ 2 ^ 200) {T p q a : ℚ} (hT : 0 ≤ T)
    (hT2 : T ≤ 2 ^ 100) (hp : |p| ≤ 2 ^ 200) (hq : |q| ≤ 2 ^ 200) (ha : |a| ≤ 2 ^ 200) {x y z h g f v : ℚ} (hx : |(x : ℝ)| ≤ 2 * G)
    (hy : |(y : ℝ)| ≤ 2 * G) (hz : |(z : ℝ)| ≤ 2 * G) (hh : |h| ≤ 4) (hg : |g| ≤ 3) (hf : |f| ≤ 3) (hfρ : |(f : ℝ)| ≤ ρ) (hv : lo ≤ v) (hv' : v ≤ hi) :
    ∃ (x' y' z' h' g' f' v' : ℚ) (k : ℤ) (sd : Vec (b64Of libm)),
      d.step env (.fin T) [.fin x, .fin y, .fin z, .fin h, .fin g, .fin f, .fin v] [.fin p, .fin q, .fin a]
        = (d, .ok ([.fin x', .fin y', .fin z', .fin h', .fin g', .fin f', .fin v'], sd)) ∧
      |(x' : ℝ) - (x + T * (v * Real.cos h * Real.cos g))| ≤ 7 * 2⁻¹ ^ 53 * G + T * (S * (3 * δ + 20 * 2⁻¹ ^ 53)) ∧
      |(y' : ℝ) - (y + T * (v * Real.sin h * Real.cos g))| ≤ 7 * 2⁻¹ ^ 53 * G + T * (S * (3 * δ + 20 * 2⁻¹ ^ 53)) ∧
      |(z' : ℝ) - (z - T * (v * Real.sin g))| ≤ 7 * 2⁻¹ ^ 53 * G + T * (S * (3 * δ + 20 * 2⁻¹ ^ 53)) ∧
      |h'| ≤ 4 ∧ |(h' : ℝ) - (h + T * (32.17 / v * Real.tan f) + k * (2 * Real.pi))| ≤ 90 * 2⁻¹ ^ 53 + T * (33 / lo * (t + 1) * (δ + 50 * 2⁻¹ ^ 53)) ∧
      glo - 22 * 2⁻¹ ^ 53 ≤ g' ∧ g' ≤ ghi + 22 * 2⁻¹ ^ 53 ∧ |(g' : ℝ) - min (max ((g : ℝ) + T * p) glo) ghi| ≤ 2⁻¹ ^ 53 * (32 + 10 * (T * |(p : ℝ)|)) ∧
      plo - 22 * 2⁻¹ ^ 53 ≤ f' ∧ f' ≤ phi + 22 * 2⁻¹ ^ 53 ∧ |(f' : ℝ) - min (max ((f : ℝ) + T * q) plo) phi| ≤ 2⁻¹ ^ 53 * (32 + 10 * (T * |(q : ℝ)|)) ∧
      lo ≤ v' ∧ v' ≤ hi ∧ |(v' : ℝ) - min (max ((v : ℝ) + T * a) lo) hi| ≤ 2⁻¹ ^ 53 * (4 * S + 10 * (T * |(a : ℝ)|)) := by
  have hlor : (0 : ℝ) < lo := by exact_mod_cast hlo
  have hvr : (lo : ℝ) ≤ v := by exact_mod_cast hv
  have hvr' : (v : ℝ) ≤ hi := by exact_mod_cast hv'
  have hvS : |(v : ℝ)| ≤ S := by rw [abs_of_nonneg (hlor.le.trans hvr)]; exact hvr'.trans hhi
  have hS0 : 0 ≤ S := (abs_nonneg _).trans hvS
  have hTr : (0 : ℝ) ≤ T := by exact_mod_cast hT
  have hδ0 : 0 ≤ δ := (abs_nonneg _).trans (hlibm h hh).1
  obtain ⟨t1, t2⟩ := hlibm h hh
  obtain ⟨t3, t4⟩ := hlibm g (hg.trans (by norm_num))
  obtain ⟨P0, u0, d0, n0, k0, k0'⟩ := component (libm := libm) hδ hS1 hS2 hvS t2 t4 (Real.abs_cos_le_one _) (Real.abs_cos_le_one _)
  obtain ⟨P1, u1, d1, n1, k1, k1'⟩ := component (libm := libm) hδ hS1 hS2 hvS t1 t4 (Real.abs_sin_le_one _) (Real.abs_cos_le_one _)
  obtain ⟨P2, u2, d2, n2, k2, k2'⟩ := component (libm := libm) (C1 := -1) (K1 := -1) hδ hS1 hS2 hvS (by simpa using hδ0) t3 (by simp) (Real.abs_sin_le_one _)
  obtain ⟨γ, v0, v1, v2, v3⟩ := gravity64 (libm := libm)
  obtain ⟨Q, u3, d3, n3, k3, k3'⟩ := turn_component (libm := libm) hδ v1 v2 v3 hlor (hvr.trans (hvr'.trans (hhi.trans hS2))) hvr (hρt f hfρ) (htan f hfρ) hμ
  obtain ⟨r0, r1, r2, r3, r4, r5, r6, hr, b0, b1, b2, b3, b4, b5, b6⟩ := affine_rate3 (b64_rounds libm) (by norm_num)
    (by show rndBin 53 (-1022) 1023 0 = _; decide +kernel) (dubins3dF dubinsGravity) (0 : Fl (b64Of libm)) [.fin x, .fin y, .fin z, .fin h, .fin g, .fin f, .fin v]
    _ _ _ _ _ _ _ _ p q a (by
      show Except.ok [(.fin v * .fin (libm.cos h) : Fl (b64Of libm)) * .fin (libm.cos g), .fin v * .fin (libm.sin h) * .fin (libm.cos g),
        .fin (-((1 : ℕ) : ℚ)) * .fin v * .fin (libm.sin g), dubinsGravity / .fin v * .fin (libm.tan f), 0, 0, 0] = _
      have u2' : (.fin (-((1 : ℕ) : ℚ)) * .fin v : Fl (b64Of libm)) = .fin P2 := by
        rw [← u2]
        show Fl.round (-((1 : ℕ) : ℚ) * v) = Fl.round (v * -1)
        rw [Nat.cast_one, mul_comm]
      rw [u0, u1, u2', v0, u3]) n0 n1 n2 n3 (by
      have e : 4 * (2 ^ 201 + 2 ^ 201 + 2 ^ 201 + 2 ^ 201 + 2 ^ 200 + 2 ^ 200 + 2 ^ 200 + 5 * 2 ^ (-1022 : ℤ)) ≤ (2 : ℚ) ^ (1023 : ℤ) := by decide +kernel
      refine le_trans (mul_le_mul_of_nonneg_left ?_ (by norm_num)) e
      exact add_le_add (add_le_add (add_le_add (add_le_add (add_le_add (add_le_add (add_le_add k0 k1) k2) k3) hp) hq) ha) le_rfl)
  have cap : ∀ z c : ℚ, |z| ≤ 2 ^ 201 → |c| ≤ 2 ^ 201 → 100 * (|z| + |c| + T * |c| + 10) ≤ 2 ^ (1023 : ℤ) := fun z c hz hc => by
    have e1 : T * |c| ≤ 2 ^ 100 * 2 ^ 201 := mul_le_mul hT2 hc (abs_nonneg _) (by norm_num)
    have e2 : 100 * (2 ^ 201 + 2 ^ 201 + 2 ^ 100 * 2 ^ 201 + 10) ≤ (2 : ℚ) ^ (1023 : ℤ) := by decide +kernel
    exact le_trans (mul_le_mul_of_nonneg_left (add_le_add (add_le_add (add_le_add hz hc) e1) le_rfl) (by norm_num)) e2
  have toQ : ∀ z : ℚ, ∀ B : ℝ, |(z : ℝ)| ≤ 2 * B → B ≤ 2 ^ 200 → |z| ≤ 2 ^ 201 := fun z B hz hB => by
    have big : (2 : ℝ) * 2 ^ 200 ≤ ((2 ^ 201 : ℚ) : ℝ) := by push_cast; norm_num
    have := hz.trans (le_trans (by linarith) big)
    exact_mod_cast this
  have n200 : (2 : ℚ) ^ 200 ≤ 2 ^ 201 := by norm_num
  have n3 : (3 : ℚ) ≤ 2 ^ 201 := by norm_num
  have n4 : (4 : ℚ) ≤ 2 ^ 201 := by norm_num
  obtain ⟨x', y', z', h', g', f', v', k, sd, g1, g2, g3, g4, g5, g6, g7, g8, g9, g10, g11, g12, g13, g14, g15, g16⟩ := hd.step (b64_rounds libm) (by norm_num)
    (by decide +kernel)
    (by show rndBin 53 (-1022) 1023 (2 * (884279719003555 / 281474976710656)) = .val (2 * (884279719003555 / 281474976710656)); decide +kernel)
    (by show (31 / 10 : ℚ) ≤ 884279719003555 / 281474976710656; norm_num) (by show (884279719003555 / 281474976710656 : ℚ) ≤ 16 / 5; norm_num)
    hlg hlp hlim hgl hgh hpl hph env hT
    (θ := 2⁻¹ ^ 910) (by
      have e : T * 2 ^ (-1022 : ℤ) ≤ 2 ^ 100 * 2 ^ (-1022 : ℤ) := mul_le_mul_of_nonneg_right hT2 (by positivity)
      have e2 : (2 : ℚ) ^ (-1022 : ℤ) + 2 ^ 100 * 2 ^ (-1022 : ℤ) ≤ 2⁻¹ ^ 910 := by decide +kernel
      exact (add_le_add le_rfl e).trans e2) (by decide +kernel) (cap _ _ (toQ x G hx hG2) k0) (cap _ _ (toQ y G hy hG2) k1) (cap _ _ (toQ z G hz hG2) k2)
    (cap _ _ (hh.trans n4) k3) (cap _ _ (hg.trans n3) (hp.trans n200)) (cap _ _ (hf.trans n3) (hq.trans n200))
    (cap _ _ (toQ v S (hvS.trans (by linarith)) hS2) (ha.trans n200)) (by rw [hd.rhs]; exact hr) b0 b1 b2 b3 b4 b5 b6
  -- to the reals
  have toR : ∀ p r : ℚ, p ≤ r → (p : ℝ) ≤ (r : ℝ) := fun p r => by exact_mod_cast id
  obtain ⟨ε, hε⟩ : ∃ ε : ℝ, ε = 2⁻¹ ^ 53 := ⟨_, rfl⟩
  obtain ⟨θ, hθ⟩ : ∃ θ : ℝ, θ = 2⁻¹ ^ 910 := ⟨_, rfl⟩
  have hε0 : 0 ≤ ε := by rw [hε]; positivity
  have hε1 : ε ≤ 1 / 1000 := by rw [hε]; norm_num
  have hθ0 : 0 ≤ θ := by rw [hθ]; positivity
  have hθS : 33 * θ ≤ 2⁻¹ ^ 900 := by
    rw [hθ]
    have : (33 * 2⁻¹ ^ 910 : ℚ) ≤ 2⁻¹ ^ 900 := by decide +kernel
    have := toR _ _ this
    push_cast at this
    exact this
  have hθ1 : 33 * θ ≤ 1 := hθS.trans (pow_le_one₀ (by norm_num) (by norm_num))
  refine ⟨x', y', z', h', g', f', v', -k, sd, g1, ?_, ?_, ?_, g5, ?_, g8, g9, ?_, g11, g12, ?_, g14, g15, ?_⟩
  all_goals rw [← hε]
  all_goals try rw [← hε] at d0 d1 d2 d3
  · have g2 := toR _ _ g2
    push_cast at g2 d0 k0'
    rw [← hε, ← hθ] at g2
    exact (position hTr hε0 hθ0 (hθS.trans hG1) d0 k0' hx g2).trans (le_of_eq (by ring))
  · have g3 := toR _ _ g3
    push_cast at g3 d1 k1'
    rw [← hε, ← hθ] at g3
    exact (position hTr hε0 hθ0 (hθS.trans hG1) d1 k1' hy g3).trans (le_of_eq (by ring))
  · have g4 := toR _ _ g4
    push_cast at g4 d2 k2'
    rw [← hε, ← hθ] at g4
    have := (position hTr hε0 hθ0 (hθS.trans hG1) d2 k2' hz g4).trans (le_of_eq (by ring : _ = 7 * ε * G + T * (S * (3 * δ + 20 * ε))))
    rwa [show (z : ℝ) + T * (v * -1 * Real.sin g) = z - T * (v * Real.sin g) by ring] at this
  · have g6 := toR _ _ g6
    have g7 := toR _ _ g7
    have hh' := toR _ _ hh
    have hpi := b64_pi_near (libm := libm)
    push_cast at g6 g7 hh' d3 k3'
    rw [← hε] at g6 hpi
    obtain ⟨c, hc⟩ : ∃ c : ℝ, c = Q * libm.tan f := ⟨_, rfl⟩
    obtain ⟨W, hW⟩ : ∃ W : ℝ, W = 33 / lo * (t + 1) := ⟨_, rfl⟩
    obtain ⟨c', hc'⟩ : ∃ c' : ℝ, c' = 32.17 / v * Real.tan f := ⟨_, rfl⟩
    rw [← hc] at g6 g7 d3 k3'
    rw [← hW] at d3 k3' ⊢
    rw [← hc'] at d3 ⊢
    clear g1 g2 g3 g4 g5 g8 g9 g10 g11 g12 g13 g14 g15 g16 d0 d1 d2 n0 n1 n2 u0 u1 u2 u3 k0 k1 k2 k3 k0' k1' k2' b0 b1 b2 b3 b4 b5 b6 hr cap toQ toR hμ hS1 hS2 hG1 hG2
    have hTc : 0 ≤ (T : ℝ) * |c| := by positivity
    have hTW : (T : ℝ) * |c| ≤ T * (2 * W) := mul_le_mul_of_nonneg_left k3' hTr
    have e1 := abs_add_le ((h' : ℝ) - (h + T * c - 2 * (b64Of libm).pi * k)) (2 * (k * (Real.pi - (b64Of libm).pi)))
    rw [show (h' : ℝ) - (h + T * c - 2 * (b64Of libm).pi * k) + 2 * (k * (Real.pi - (b64Of libm).pi)) = h' - (h + T * c + (-k : ℤ) * (2 * Real.pi)) by
      push_cast; ring, abs_mul 2, abs_mul (k : ℝ), abs_sub_comm Real.pi, abs_two] at e1
    have e2 : |(k : ℝ)| * |((b64Of libm).pi : ℝ) - Real.pi| ≤ (2 * |(h : ℝ)| + 2 * (T * |c|) + 4) * (2 * ε) :=
      mul_le_mul g7 hpi (abs_nonneg _) (by positivity)
    have e3 : (2 * |(h : ℝ)| + 2 * (T * |c|) + 4) * (2 * ε) ≤ (12 + 2 * (T * (2 * W))) * (2 * ε) :=
      mul_le_mul_of_nonneg_right (by linarith) (by linarith)
    have e4 : ε * (5 * |(h : ℝ)| + 12 * (T * |c|) + 21) ≤ ε * (41 + 12 * (T * (2 * W))) := mul_le_mul_of_nonneg_left (by linarith) hε0
    have e5 := abs_add_le ((h' : ℝ) - (h + T * c + (-k : ℤ) * (2 * Real.pi))) (T * (c - c'))
    rw [show (h' : ℝ) - (h + T * c + (-k : ℤ) * (2 * Real.pi)) + T * (c - c') = h' - (h + T * c' + (-k : ℤ) * (2 * Real.pi)) by ring, abs_mul (T : ℝ),
      abs_of_nonneg hTr] at e5
    have e6 : (T : ℝ) * |c - c'| ≤ T * (W * (δ + 3 * ε)) := mul_le_mul_of_nonneg_left d3 hTr
    have W0 : 0 ≤ W := by linarith [abs_nonneg c]
    have e7 : 0 ≤ (T : ℝ) * W * ε := by positivity
    nlinarith only [g6, e1, e2, e3, e4, e5, e6, e7, hε0]
  · have g10 := toR _ _ g10
    have hg' := toR _ _ hg
    push_cast at g10 hg'
    rw [← hε, ← hθ] at g10
    exact g10.trans (mul_le_mul_of_nonneg_left (by linarith only [hg', hθ1]) hε0)
  · have g13 := toR _ _ g13
    have hf' := toR _ _ hf
    push_cast at g13 hf'
    rw [← hε, ← hθ] at g13
    exact g13.trans (mul_le_mul_of_nonneg_left (by linarith only [hf', hθ1]) hε0)
  · have g16 := toR _ _ g16
    push_cast at g16
    rw [← hε, ← hθ] at g16
    exact g16.trans (mul_le_mul_of_nonneg_left (by linarith only [hvS, hθS, hS1]) hε0)

/-- the tangent below `ρ` -/
theorem tan_le {ρ t x : ℝ} (hρ : ρ < Real.pi / 2) (ht : Real.tan ρ ≤ t) (hx : |x| ≤ ρ) : |Real.tan x| ≤ t := by
  have h0 : 0 ≤ ρ := (abs_nonneg _).trans hx
  obtain ⟨h1, h2⟩ := abs_le.1 hx
  have m : ∀ y, -ρ ≤ y → y ≤ ρ → Real.tan y ≤ t := fun y hy hy' =>
    ((Real.strictMonoOn_tan.le_iff_le ⟨by linarith, by linarith⟩ ⟨by linarith, hρ⟩).2 hy').trans ht
  rw [abs_le]
  constructor
  · have := m (-x) (by linarith) (by linarith)
    rw [Real.tan_neg] at this; linarith
  · exact m x h1 h2

theorem tan_lip {ρ t x y : ℝ} (hρ : ρ < Real.pi / 2) (ht : Real.tan ρ ≤ t) (hx : |x| ≤ ρ) (hy : |y| ≤ ρ) :
    |Real.tan x - Real.tan y| ≤ (1 + t ^ 2) * |x - y| := by
  have cpos : ∀ z, |z| ≤ ρ → 0 < Real.cos z := fun z hz => by
    obtain ⟨h1, h2⟩ := abs_le.1 hz
    exact Real.cos_pos_of_mem_Ioo ⟨by linarith, by linarith⟩
  have csq : ∀ z, |z| ≤ ρ → (1 + t ^ 2)⁻¹ ≤ Real.cos z ^ 2 := fun z hz => by
    rw [← Real.inv_one_add_tan_sq (cpos z hz).ne']
    have h1 := tan_le hρ ht hz
    have h2 : Real.tan z ^ 2 ≤ t ^ 2 := by rw [← sq_abs (Real.tan z)]; exact pow_le_pow_left₀ (abs_nonneg _) h1 2
    exact inv_anti₀ (by positivity) (by linarith)
  have cx := cpos x hx
  have cy := cpos y hy
  have e : Real.tan x - Real.tan y = Real.sin (x - y) / (Real.cos x * Real.cos y) := by
    rw [Real.tan_eq_sin_div_cos, Real.tan_eq_sin_div_cos, Real.sin_sub]
    field_simp
  have hb : (1 + t ^ 2)⁻¹ ≤ Real.cos x * Real.cos y := by
    have h1 : (1 + t ^ 2)⁻¹ ^ 2 ≤ (Real.cos x * Real.cos y) ^ 2 := by
      rw [mul_pow, sq (1 + t ^ 2)⁻¹]
      exact mul_le_mul (csq x hx) (csq y hy) (by positivity) (by positivity)
    exact (pow_le_pow_iff_left₀ (by positivity) (by positivity) (by norm_num)).1 h1
  rw [e, abs_div, abs_of_pos (mul_pos cx cy), div_le_iff₀ (mul_pos cx cy)]
  have h1 : |Real.sin (x - y)| ≤ |x - y| := Real.abs_sin_le_abs
  have h2 : 1 ≤ (1 + t ^ 2) * (Real.cos x * Real.cos y) := by
    have := mul_le_mul_of_nonneg_left hb (show 0 ≤ 1 + t ^ 2 by positivity)
    rwa [mul_inv_cancel₀ (by positivity)] at this
  have h3 := mul_le_mul_of_nonneg_right h2 (abs_nonneg (x - y))
  linarith

/-- a difference of turn rates -/
theorem turn_diff {ρ t f F v V ef ev lo : ℝ} (hρ : ρ < Real.pi / 2) (ht : Real.tan ρ ≤ t) (hf : |f| ≤ ρ) (hF : |F| ≤ ρ) (hlo : 0 < lo) (hv : lo ≤ v)
    (hV : lo ≤ V) (d1 : |f - F| ≤ ef) (d2 : |v - V| ≤ ev) :
    |32.17 / v * Real.tan f - 32.17 / V * Real.tan F| ≤ 33 / lo * ((1 + t ^ 2) * ef + t / lo * ev) := by
  have hv0 := hlo.trans_le hv
  have hV0 := hlo.trans_le hV
  have ht0 : 0 ≤ t := (abs_nonneg _).trans (tan_le hρ ht hf)
  have hev : 0 ≤ ev := (abs_nonneg _).trans d2
  have hef : 0 ≤ ef := (abs_nonneg _).trans d1
  have e : 32.17 / v * Real.tan f - 32.17 / V * Real.tan F = 32.17 / v * (Real.tan f - Real.tan F) + 32.17 / v * ((V - v) / V * Real.tan F) := by
    field_simp
    ring
  rw [e]
  refine (abs_add_le _ _).trans ?_
  rw [abs_mul, abs_mul, abs_mul ((V - v) / V), abs_div (V - v), abs_of_pos hV0, abs_of_pos (show 0 < 32.17 / v by positivity), abs_sub_comm V]
  have a0 : 32.17 / v ≤ 33 / lo := div_le_div₀ (by norm_num) (by norm_num) hlo hv
  have a1 : |Real.tan f - Real.tan F| ≤ (1 + t ^ 2) * ef := (tan_lip hρ ht hf hF).trans (mul_le_mul_of_nonneg_left d1 (by positivity))
  have a2 : |v - V| / V ≤ ev / lo := div_le_div₀ hev d2 hlo hV
  have a3 : |v - V| / V * |Real.tan F| ≤ ev / lo * t := mul_le_mul a2 (tan_le hρ ht hF) (abs_nonneg _) (by positivity)
  have b1 := mul_le_mul a0 a1 (abs_nonneg _) (by positivity)
  have b2 := mul_le_mul a0 a3 (by positivity) (by positivity)
  refine (add_le_add b1 b2).trans (le_of_eq ?_)
  ring

/-- the limits of a flight -/
def limits3 (glo ghi plo phi lo hi : ℚ) : FlyingLimits := ⟨glo, ghi, plo, phi, lo, hi⟩

theorem flight3_run {δ ρ t : ℝ} (hlibm : Trig libm δ) (htan : Tangent libm ρ δ) (hδ : δ ≤ 1 / 8) (hρ : ρ < Real.pi / 2) (ht : Real.tan ρ ≤ t)
    {glo ghi plo phi lo hi : ℚ} (hlg : glo ≤ ghi) (hlp : plo ≤ phi) (hlim : lo ≤ hi) (hgl : -2 ≤ glo) (hgh : ghi ≤ 2) (hpl : -ρ ≤ plo - 22 * 2⁻¹ ^ 53)
    (hph : phi + 22 * 2⁻¹ ^ 53 ≤ ρ) (hlo : 0 < lo) (env : Env (b64Of libm)) {S G ε : ℝ} (hε : ε = 2⁻¹ ^ 53) (hhi : (hi : ℝ) ≤ S)
    (hS1 : 2⁻¹ ^ 900 ≤ S) (hS2 : S ≤ 2 ^ 200) (hG1 : 2⁻¹ ^ 900 ≤ G) (hG2 : G ≤ 2 ^ 200) (hμ : 33 / (lo : ℝ) * (t + 1) ≤ 2 ^ 200)
    {Eg Ef Ev Eh E : ℝ} (hEG : E ≤ G) {Λ κ : ℝ} (hΛ : Λ = 33 / lo * ((1 + t ^ 2) * Ef + t / lo * Ev) + 33 / lo * (t + 1) * (δ + 50 * ε))
    (hκ : κ = Ev + S * (Eh + Eg) + S * (3 * δ + 20 * ε)) :
    ∀ (legs : List (Leg3 (b64Of libm))) (e : Entity (b64Of libm)), EulerDubins3 e.dynamics glo ghi plo phi lo hi →
      (∀ l ∈ legs, Applied env e l.action [.fin l.p, .fin l.q, .fin l.a] ∧ 0 ≤ l.T ∧ l.T ≤ 2 ^ 100 ∧ |l.p| ≤ 2 ^ 200 ∧ |l.q| ≤ 2 ^ 200 ∧ |l.a| ≤ 2 ^ 200) →
      ∀ (x y z h g f v : ℚ) (s : Flying) (k : ℤ), e.state = [.fin x, .fin y, .fin z, .fin h, .fin g, .fin f, .fin v] → |h| ≤ 4 →
        glo - 22 * 2⁻¹ ^ 53 ≤ g → g ≤ ghi + 22 * 2⁻¹ ^ 53 → plo - 22 * 2⁻¹ ^ 53 ≤ f → f ≤ phi + 22 * 2⁻¹ ^ 53 → lo ≤ v → v ≤ hi →
        |s.roll| ≤ ρ → lo ≤ s.v → s.v ≤ hi →
        |g - s.gamma| + ε * (32 * legs.length + 10 * Leg3.pitch legs) ≤ Eg →
        |f - s.roll| + ε * (32 * legs.length + 10 * Leg3.bank legs) ≤ Ef →
        |v - s.v| + ε * (4 * S * legs.length + 10 * Leg3.gain legs) ≤ Ev →
        |h - (s.heading + k * (2 * Real.pi))| + (90 * ε * legs.length + Leg3.time legs * Λ) ≤ Eh →
        |x - s.x| + (7 * ε * G * legs.length + Leg3.time legs * κ) ≤ E →
        |y - s.y| + (7 * ε * G * legs.length + Leg3.time legs * κ) ≤ E →
        |z - s.z| + (7 * ε * G * legs.length + Leg3.time legs * κ) ≤ E →
        |s.x| + S * Leg3.time legs ≤ G → |s.y| + S * Leg3.time legs ≤ G → |s.z| + S * Leg3.time legs ≤ G →
        ∃ (x' y' z' h' g' f' v' : ℚ) (s' : Flying) (k' : ℤ), eulerFlight3 (limits3 glo ghi plo phi lo hi) (Leg3.exact legs) s = s' ∧
          (e.run env (stepsOf (Leg3.hist legs))).state = [.fin x', .fin y', .fin z', .fin h', .fin g', .fin f', .fin v'] ∧ |h'| ≤ 4 ∧
          glo - 22 * 2⁻¹ ^ 53 ≤ g' ∧ g' ≤ ghi + 22 * 2⁻¹ ^ 53 ∧ plo - 22 * 2⁻¹ ^ 53 ≤ f' ∧ f' ≤ phi + 22 * 2⁻¹ ^ 53 ∧ lo ≤ v' ∧ v' ≤ hi ∧
          |x' - s'.x| ≤ E ∧ |y' - s'.y| ≤ E ∧ |z' - s'.z| ≤ E ∧ |h' - (s'.heading + k' * (2 * Real.pi))| ≤ Eh ∧ |g' - s'.gamma| ≤ Eg ∧
          |f' - s'.roll| ≤ Ef ∧ |v' - s'.v| ≤ Ev
  | [], e, _, _, x, y, z, h, g, f, v, s, k, hs, hh, hg, hg', hf, hf', hv, hv', _, _, _, d1, d2, d3, d4, d5, d6, d7, _, _, _ => by
    refine ⟨x, y, z, h, g, f, v, s, k, rfl, hs, hh, hg, hg', hf, hf', hv, hv', ?_, ?_, ?_, ?_, ?_, ?_, ?_⟩
    · simpa [Leg3.time] using d5
    · simpa [Leg3.time] using d6
    · simpa [Leg3.time] using d7
    · simpa [Leg3.time] using d4
    · simpa [Leg3.pitch] using d1
    · simpa [Leg3.bank] using d2
    · simpa [Leg3.gain] using d3
  | ⟨T, act, p, q, a⟩ :: legs, e, hd, hl, x, y, z, h, g, f, v, s, k, hs, hh, hg, hg', hf, hf', hv, hv', hr, hV, hV', d1, d2, d3, d4, d5, d6, d7, b1, b2, b3 => by
    obtain ⟨ha, hT, hT2, hp2, hq2, ha2⟩ := hl _ List.mem_cons_self
    simp only at ha hT hT2 hp2 hq2 ha2
    have tl := fun l hm => hl l (List.mem_cons_of_mem _ hm)
    have hTr : (0 : ℝ) ≤ T := by exact_mod_cast hT
    have t0 : 0 ≤ Leg3.time legs := List.sum_nonneg fun z hz => by
      obtain ⟨l, hl, rfl⟩ := List.mem_map.1 hz
      have := (tl l hl).2.1
      exact_mod_cast this
    have tT : ∀ l ∈ legs, (0 : ℝ) ≤ l.T := fun l hl => by exact_mod_cast (tl l hl).2.1
    have t1 : 0 ≤ Leg3.pitch legs := List.sum_nonneg fun z hz => by
      obtain ⟨l, hl, rfl⟩ := List.mem_map.1 hz
      have := tT l hl
      positivity
    have t2 : 0 ≤ Leg3.bank legs := List.sum_nonneg fun z hz => by
      obtain ⟨l, hl, rfl⟩ := List.mem_map.1 hz
      have := tT l hl
      positivity
    have t3 : 0 ≤ Leg3.gain legs := List.sum_nonneg fun z hz => by
      obtain ⟨l, hl, rfl⟩ := List.mem_map.1 hz
      have := tT l hl
      positivity
    rw [show Leg3.time (⟨T, act, p, q, a⟩ :: legs) = T + Leg3.time legs by simp [Leg3.time]] at d4 d5 d6 d7 b1 b2 b3
    rw [show Leg3.pitch (⟨T, act, p, q, a⟩ :: legs) = T * |(p : ℝ)| + Leg3.pitch legs by simp [Leg3.pitch]] at d1
    rw [show Leg3.bank (⟨T, act, p, q, a⟩ :: legs) = T * |(q : ℝ)| + Leg3.bank legs by simp [Leg3.bank]] at d2
    rw [show Leg3.gain (⟨T, act, p, q, a⟩ :: legs) = T * |(a : ℝ)| + Leg3.gain legs by simp [Leg3.gain]] at d3
    rw [show (((⟨T, act, p, q, a⟩ : Leg3 (b64Of libm)) :: legs).length : ℝ) = legs.length + 1 by simp] at d1 d2 d3 d4 d5 d6 d7
    have rest := flight3_run hlibm htan hδ hρ ht hlg hlp hlim hgl hgh hpl hph hlo env hε hhi hS1 hS2 hG1 hG2 hμ hEG hΛ hκ legs
    obtain ⟨N, hN⟩ : ∃ N : ℝ, N = legs.length := ⟨_, rfl⟩
    obtain ⟨U, hU⟩ : ∃ U : ℝ, U = Leg3.time legs := ⟨_, rfl⟩
    obtain ⟨A, hA⟩ : ∃ A : ℝ, A = Leg3.pitch legs := ⟨_, rfl⟩
    obtain ⟨B, hB⟩ : ∃ B : ℝ, B = Leg3.bank legs := ⟨_, rfl⟩
    obtain ⟨C, hC⟩ : ∃ C : ℝ, C = Leg3.gain legs := ⟨_, rfl⟩
    have hN0 : 0 ≤ N := by rw [hN]; positivity
    rw [← hN, ← hU, ← hA, ← hB, ← hC] at rest
    rw [← hN, ← hA] at d1
    rw [← hN, ← hB] at d2
    rw [← hN, ← hC] at d3
    rw [← hN, ← hU] at d4 d5 d6 d7
    rw [← hU] at b1 b2 b3 t0
    rw [← hA] at t1
    rw [← hB] at t2
    rw [← hC] at t3
    clear hN hU hA hB hC
    have hε0 : 0 ≤ ε := by rw [hε]; positivity
    have hε1 : (22 : ℝ) * 2⁻¹ ^ 53 ≤ 1 / 1000 := by norm_num
    have hε1' : (22 : ℚ) * 2⁻¹ ^ 53 ≤ 1 / 1000 := by norm_num
    have hlor : (0 : ℝ) < lo := by exact_mod_cast hlo
    have hS0 : 0 ≤ S := le_trans (by positivity) hS1
    have hG0 : 0 ≤ G := le_trans (by positivity) hG1
    have hδ0 : 0 ≤ δ := (abs_nonneg _).trans (hlibm h hh).1
    have hρ0 : 0 ≤ ρ := (abs_nonneg _).trans hr
    have htn : 0 ≤ t := (abs_nonneg _).trans (tan_le hρ ht hr)
    have hTp : 0 ≤ (T : ℝ) * |(p : ℝ)| := by positivity
    have hTq : 0 ≤ (T : ℝ) * |(q : ℝ)| := by positivity
    have hTa : 0 ≤ (T : ℝ) * |(a : ℝ)| := by positivity
    have hfρ : |(f : ℝ)| ≤ ρ := by
      have f1 := (Rat.cast_le (K := ℝ)).2 hf
      have f2 := (Rat.cast_le (K := ℝ)).2 hf'
      push_cast at f1 f2
      exact abs_le.2 ⟨hpl.trans f1, f2.trans hph⟩
    have pi4 := Real.pi_le_four
    have hpl2 : -2 ≤ plo := by
      have : ((-2 : ℚ) : ℝ) ≤ plo := by push_cast; linarith only [hpl, hρ, pi4, show (0 : ℝ) ≤ 22 * 2⁻¹ ^ 53 by positivity]
      exact_mod_cast this
    have hph2 : phi ≤ 2 := by
      have : (phi : ℝ) ≤ ((2 : ℚ) : ℝ) := by push_cast; linarith only [hph, hρ, pi4, show (0 : ℝ) ≤ 22 * 2⁻¹ ^ 53 by positivity]
      exact_mod_cast this
    -- the errors so far
    have nx := abs_nonneg ((x : ℝ) - s.x)
    have ny := abs_nonneg ((y : ℝ) - s.y)
    have nz := abs_nonneg ((z : ℝ) - s.z)
    have nh := abs_nonneg ((h : ℝ) - (s.heading + k * (2 * Real.pi)))
    have ng := abs_nonneg ((g : ℝ) - s.gamma)
    have nf := abs_nonneg ((f : ℝ) - s.roll)
    have nv := abs_nonneg ((v : ℝ) - s.v)
    have eg : |(g : ℝ) - s.gamma| ≤ Eg := by
      have : 0 ≤ ε * (32 * (N + 1) + 10 * (T * |(p : ℝ)| + A)) := by positivity
      linarith only [this, d1]
    have ef : |(f : ℝ) - s.roll| ≤ Ef := by
      have : 0 ≤ ε * (32 * (N + 1) + 10 * (T * |(q : ℝ)| + B)) := by positivity
      linarith only [this, d2]
    have ev : |(v : ℝ) - s.v| ≤ Ev := by
      have : 0 ≤ ε * (4 * S * (N + 1) + 10 * (T * |(a : ℝ)| + C)) := by positivity
      linarith only [this, d3]
    have Eg0 := ng.trans eg
    have Ef0 := nf.trans ef
    have Ev0 := nv.trans ev
    have hΛ0 : 0 ≤ Λ := by rw [hΛ]; positivity
    have eh : |(h : ℝ) - (s.heading + k * (2 * Real.pi))| ≤ Eh := by
      have : 0 ≤ 90 * ε * (N + 1) + (T + U) * Λ := by positivity
      linarith only [this, d4]
    have Eh0 := nh.trans eh
    have hκ0 : 0 ≤ κ := by rw [hκ]; positivity
    have tail0 : 0 ≤ 7 * ε * G * (N + 1) + (T + U) * κ := by positivity
    have STU : 0 ≤ S * (T + U) := by positivity
    have cap : ∀ z Z : ℝ, |z - Z| + (7 * ε * G * (N + 1) + (T + U) * κ) ≤ E → |Z| + S * (T + U) ≤ G → |z| ≤ 2 * G := fun z Z h1 h2 => by
      have := abs_add_le (z - Z) Z
      rw [sub_add_cancel] at this
      linarith only [this, h1, h2, hEG, tail0, STU]
    have hgq : |g| ≤ 3 := abs_le.2 ⟨by linarith only [hg, hgl, hε1'], by linarith only [hg', hgh, hε1']⟩
    have hfq : |f| ≤ 3 := abs_le.2 ⟨by linarith only [hf, hpl2, hε1'], by linarith only [hf', hph2, hε1']⟩
    obtain ⟨x', y', z', h', g', f', v', j, sd, s1, s2, s3, s4, s5, s6, s7, s8, s9, s10, s11, s12, s13, s14, s15⟩ := hd.leg hlibm htan hδ
      (fun x hx => tan_le hρ ht hx) hlg hlp hlim hgl hgh hpl2 hph2 hlo env hhi hS1 hS2 hG1 hG2 hμ hT hT2 hp2 hq2 ha2 (cap _ _ d5 b1) (cap _ _ d6 b2) (cap _ _ d7 b3)
      hh hgq hfq hfρ hv hv'
    rw [← hε] at s2 s3 s4 s6 s9 s12 s15
    have hst := (((C01_step_decided_by_applied_control env e (.fin T) act).1 _ ha).1 e.dynamics _ sd (by rw [hs]; exact s1)).2
    -- the exact step
    have hVS : |s.v| ≤ S := by rw [abs_of_nonneg (hlor.le.trans hV)]; exact hV'.trans hhi
    have hvr : (lo : ℝ) ≤ v := by exact_mod_cast hv
    have cosd : |Real.cos h - Real.cos s.heading| ≤ Eh := by
      rw [← Real.cos_add_int_mul_two_pi s.heading k]
      exact (Real.abs_cos_sub_cos_le _ _).trans eh
    have sind : |Real.sin h - Real.sin s.heading| ≤ Eh := by
      rw [← Real.sin_add_int_mul_two_pi s.heading k]
      exact (Real.abs_sin_sub_sin_le _ _).trans eh
    have cosg : |Real.cos g - Real.cos s.gamma| ≤ Eg := (Real.abs_cos_sub_cos_le _ _).trans eg
    have sing : |Real.sin g - Real.sin s.gamma| ≤ Eg := (Real.abs_sin_sub_sin_le _ _).trans eg
    have prod1 : ∀ a b : ℝ, |a| ≤ 1 → |b| ≤ 1 → |a * b| ≤ 1 := fun a b h1 h2 => by
      rw [abs_mul]; exact mul_le_one₀ h1 (abs_nonneg _) h2
    have vx : |v * (Real.cos h * Real.cos g) - s.v * (Real.cos s.heading * Real.cos s.gamma)| ≤ Ev + S * (Eh + Eg) :=
      velocity_diff ev ((velocity_diff cosd cosg (Real.abs_cos_le_one _) (Real.abs_cos_le_one _) Eg0).trans (by rw [one_mul]))
        (prod1 _ _ (Real.abs_cos_le_one _) (Real.abs_cos_le_one _)) hVS (by linarith only [Eh0, Eg0])
    have vy : |v * (Real.sin h * Real.cos g) - s.v * (Real.sin s.heading * Real.cos s.gamma)| ≤ Ev + S * (Eh + Eg) :=
      velocity_diff ev ((velocity_diff sind cosg (Real.abs_cos_le_one _) (Real.abs_sin_le_one _) Eg0).trans (by rw [one_mul]))
        (prod1 _ _ (Real.abs_sin_le_one _) (Real.abs_cos_le_one _)) hVS (by linarith only [Eh0, Eg0])
    have vz : |v * Real.sin g - s.v * Real.sin s.gamma| ≤ Ev + S * (Eh + Eg) :=
      velocity_diff ev (sing.trans (by linarith only [Eh0])) (Real.abs_sin_le_one _) hVS (by linarith only [Eh0, Eg0])
    have px : ∀ z' z c Z C' : ℝ, |z' - (z + T * c)| ≤ 7 * ε * G + T * (S * (3 * δ + 20 * ε)) → |c - C'| ≤ Ev + S * (Eh + Eg) →
        |z - Z| + (7 * ε * G * (N + 1) + (T + U) * κ) ≤ E → |z' - (Z + T * C')| + (7 * ε * G * N + U * κ) ≤ E := by
      intro z' z c Z C' g1 g2 g3
      have a1 := abs_add_le (z' - (z + T * c)) (z - Z)
      have a2 := abs_add_le (z' - (z + T * c) + (z - Z)) (T * (c - C'))
      rw [show z' - (z + T * c) + (z - Z) + T * (c - C') = z' - (Z + T * C') by ring, abs_mul (T : ℝ), abs_of_nonneg hTr] at a2
      have a3 : (T : ℝ) * |c - C'| ≤ T * (Ev + S * (Eh + Eg)) := mul_le_mul_of_nonneg_left g2 hTr
      have a4 : (T : ℝ) * κ = T * (Ev + S * (Eh + Eg)) + T * (S * (3 * δ + 20 * ε)) := by rw [hκ]; ring
      linarith only [a1, a2, a3, a4, g1, g3]
    have hgo : ∀ (Z C' : ℝ), |C'| ≤ S → |Z| + S * (T + U) ≤ G → |Z + T * C'| + S * U ≤ G := by
      intro Z C' hC hZ
      have a1 := abs_add_le Z (T * C')
      rw [abs_mul (T : ℝ), abs_of_nonneg hTr] at a1
      have a2 : (T : ℝ) * |C'| ≤ T * S := mul_le_mul_of_nonneg_left hC hTr
      linarith only [a1, a2, hZ]
    have vS : ∀ c : ℝ, |c| ≤ 1 → |s.v * c| ≤ S := fun c hc => by
      rw [abs_mul]; exact (mul_le_mul hVS hc (abs_nonneg _) hS0).trans (by rw [mul_one])
    have clip : ∀ z' z Z u w lo hi E : ℝ, |z' - min (max (z + u) lo) hi| ≤ w → |z - Z| ≤ E → |z' - min (max (Z + u) lo) hi| ≤ E + w := by
      intro z' z Z u w lo hi E g1 g2
      have a1 := abs_add_le (z' - min (max (z + u) lo) hi) (min (max (z + u) lo) hi - min (max (Z + u) lo) hi)
      rw [sub_add_sub_cancel] at a1
      have a2 := kclip_lip lo hi (z + u) (Z + u)
      rw [add_sub_add_right_eq_sub] at a2
      linarith only [a1, a2, g1, g2]
    have lim : (lo : ℝ) ≤ hi := by exact_mod_cast hlim
    have limp : (plo : ℝ) ≤ phi := by exact_mod_cast hlp
    have e22 : (0 : ℝ) ≤ 22 * 2⁻¹ ^ 53 := by positivity
    obtain ⟨x2, y2, z2, h2, g2, f2, v2, S2, k2, i1, i2⟩ := rest (e.step env (.fin T) act).entity (by rw [hst]; exact hd)
      (fun l hm => ⟨(applied_config (step_sameConfig env e _ _)).2 (tl l hm).1, (tl l hm).2⟩) x' y' z' h' g' f' v'
      (s.euler (limits3 glo ghi plo phi lo hi) T p q a) (k + j) (by rw [hst]) s5 s7 s8 s10 s11 s13 s14
      (abs_le.2 ⟨(show -ρ ≤ (plo : ℝ) by linarith only [hpl, e22]).trans (le_min (le_max_right _ _) limp), (min_le_right _ _).trans (show (phi : ℝ) ≤ ρ by linarith only [hph, e22])⟩)
      (le_min (le_max_right _ _) lim) (min_le_right _ _)
      (by
        have := clip _ _ s.gamma _ _ _ _ _ s9 le_rfl
        show |(g' : ℝ) - min (max (s.gamma + T * p) glo) ghi| + _ ≤ _
        linarith only [this, d1])
      (by
        have := clip _ _ s.roll _ _ _ _ _ s12 le_rfl
        show |(f' : ℝ) - min (max (s.roll + T * q) plo) phi| + _ ≤ _
        linarith only [this, d2])
      (by
        have := clip _ _ s.v _ _ _ _ _ s15 le_rfl
        show |(v' : ℝ) - min (max (s.v + T * a) lo) hi| + _ ≤ _
        linarith only [this, d3])
      (by
        show |(h' : ℝ) - (s.heading + T * (32.17 / s.v * Real.tan s.roll) + ((k + j : ℤ) : ℝ) * (2 * Real.pi))| + _ ≤ _
        have a0 := turn_diff hρ ht hfρ hr hlor hvr hV ef ev
        obtain ⟨W, hW⟩ : ∃ W : ℝ, W = 32.17 / v * Real.tan f := ⟨_, rfl⟩
        obtain ⟨W', hW'⟩ : ∃ W : ℝ, W = 32.17 / s.v * Real.tan s.roll := ⟨_, rfl⟩
        rw [← hW, ← hW'] at a0
        rw [← hW] at s6
        rw [← hW']
        have a1 := abs_add_le ((h' : ℝ) - (h + T * W + j * (2 * Real.pi))) (h - (s.heading + k * (2 * Real.pi)))
        have a2 := abs_add_le ((h' : ℝ) - (h + T * W + j * (2 * Real.pi)) + (h - (s.heading + k * (2 * Real.pi)))) (T * (W - W'))
        rw [show (h' : ℝ) - (h + T * W + j * (2 * Real.pi)) + (h - (s.heading + k * (2 * Real.pi))) + T * (W - W')
          = h' - (s.heading + T * W' + ((k + j : ℤ) : ℝ) * (2 * Real.pi)) by push_cast; ring, abs_mul (T : ℝ), abs_of_nonneg hTr] at a2
        have a3 : (T : ℝ) * |W - W'| ≤ T * (33 / lo * ((1 + t ^ 2) * Ef + t / lo * Ev)) := mul_le_mul_of_nonneg_left a0 hTr
        have a4 : (T : ℝ) * Λ = T * (33 / lo * ((1 + t ^ 2) * Ef + t / lo * Ev)) + T * (33 / lo * (t + 1) * (δ + 50 * ε)) := by rw [hΛ]; ring
        linarith only [a1, a2, a3, a4, s6, d4])
      (px _ _ _ _ _ s2 (by rw [mul_assoc (v : ℝ), mul_assoc s.v]; exact vx) d5)
      (px _ _ _ _ _ s3 (by rw [mul_assoc (v : ℝ), mul_assoc s.v]; exact vy) d6)
      (by
        have := px z' z (-(v * Real.sin g)) s.z (-(s.v * Real.sin s.gamma)) (by rw [mul_neg, ← sub_eq_add_neg]; exact s4)
          (by rw [neg_sub_neg, abs_sub_comm]; exact vz) d7
        rw [mul_neg, ← sub_eq_add_neg] at this
        exact this)
      (hgo _ _ (by rw [mul_assoc]; exact vS _ (prod1 _ _ (Real.abs_cos_le_one _) (Real.abs_cos_le_one _))) b1)
      (hgo _ _ (by rw [mul_assoc]; exact vS _ (prod1 _ _ (Real.abs_sin_le_one _) (Real.abs_cos_le_one _))) b2)
      (by
        have := hgo s.z (-(s.v * Real.sin s.gamma)) (by rw [abs_neg]; exact vS _ (Real.abs_sin_le_one _)) b3
        rw [mul_neg, ← sub_eq_add_neg] at this
        exact this)
    exact ⟨x2, y2, z2, h2, g2, f2, v2, S2, k2, i1, i2⟩

/-- C113: a flight of the 3d aircraft under Euler's method in double precision, whatever is asked of it, against the same flight in exact arithmetic.
`δ` is the error of sine, cosine and tangent, `S` a bound of the speed, `G` one of the coordinates, `ρ` one of the roll and `t` one of its tangent. If the
bound `E` is at most `G`, every step succeeds, no number overflows, the coordinates are off by at most `E`, the heading by at most `Eh` (modulo whole turns),
the flight path angle by at most `Eg`, the roll by at most `Ef` and the speed by at most `Ev`. -/
theorem C113_flight (libm : Fmt ℚ) (δ ρ t : ℝ) (hlibm : Trig libm δ) (htan : Tangent libm ρ δ) (hδ : δ ≤ 1 / 8) (hρ : ρ < Real.pi / 2) (ht : Real.tan ρ ≤ t)
    (env env' : Env (b64Of libm)) (args : Dubins3dArgs (b64Of libm)) (glo ghi plo phi lo hi : ℚ)
    (hga : args.gammaMin.cast32 = .fin glo ∧ args.gammaMax.cast32 = .fin ghi) (hro : args.rollMin.cast32 = .fin plo ∧ args.rollMax.cast32 = .fin phi)
    (hsp : args.vMin.cast32 = .fin lo ∧ args.vMax.cast32 = .fin hi) (hlg : -2 ≤ glo ∧ glo ≤ ghi ∧ ghi ≤ 2)
    (hlp : -ρ ≤ plo - 22 * 2⁻¹ ^ 53 ∧ plo ≤ phi ∧ phi + 22 * 2⁻¹ ^ 53 ≤ ρ) (hlv : 0 < lo ∧ lo ≤ hi) (hm : args.integrationMethod = "Euler")
    (e0 : Entity (b64Of libm)) (h0 : newDubins3d env args = .ok e0) (hts : e0.dynamics.trajectorySamples ≤ 0) (ops : List (Op (b64Of libm)))
    (e : Entity (b64Of libm)) (he : e = e0.run env' ops) (x y z h g f v : ℚ) (hs : e.state = [.fin x, .fin y, .fin z, .fin h, .fin g, .fin f, .fin v])
    (hh : |h| ≤ 4) (hg : glo ≤ g ∧ g ≤ ghi) (hf : plo ≤ f ∧ f ≤ phi) (hv : lo ≤ v ∧ v ≤ hi) (legs : List (Leg3 (b64Of libm)))
    (hlegs : ∀ l ∈ legs, Applied env' e l.action [.fin l.p, .fin l.q, .fin l.a] ∧ 0 ≤ l.T ∧ l.T ≤ 2 ^ 100 ∧ |l.p| ≤ 2 ^ 200 ∧ |l.q| ≤ 2 ^ 200 ∧ |l.a| ≤ 2 ^ 200)
    (S G E Eh Eg Ef Ev ε : ℝ) (hε : ε = 2⁻¹ ^ 53) (hS : (hi : ℝ) ≤ S ∧ 2⁻¹ ^ 900 ≤ S ∧ S ≤ 2 ^ 200)
    (hG : max |(x : ℝ)| (max |(y : ℝ)| |(z : ℝ)|) + S * Leg3.time legs ≤ G ∧ 2⁻¹ ^ 900 ≤ G ∧ G ≤ 2 ^ 200) (hμ : 33 / (lo : ℝ) * (t + 1) ≤ 2 ^ 200)
    (hEg : Eg = ε * (32 * legs.length + 10 * Leg3.pitch legs)) (hEf : Ef = ε * (32 * legs.length + 10 * Leg3.bank legs))
    (hEv : Ev = ε * (4 * S * legs.length + 10 * Leg3.gain legs))
    (hEh : Eh = 90 * ε * legs.length + Leg3.time legs * (33 / lo * ((1 + t ^ 2) * Ef + t / lo * Ev) + 33 / lo * (t + 1) * (δ + 50 * ε)))
    (hE : E = 7 * ε * G * legs.length + Leg3.time legs * (Ev + S * (Eh + Eg) + S * (3 * δ + 20 * ε))) (hEG : E ≤ G) :
    ∃ (x' y' z' h' g' f' v' : ℚ) (s : Flying) (H : ℝ), eulerFlight3 ⟨glo, ghi, plo, phi, lo, hi⟩ (Leg3.exact legs) ⟨x, y, z, h, g, f, v⟩ = s ∧
      SameAngle Real.pi s.heading H ∧ (e.run env' (stepsOf (Leg3.hist legs))).state = [.fin x', .fin y', .fin z', .fin h', .fin g', .fin f', .fin v'] ∧
      |x' - s.x| ≤ E ∧ |y' - s.y| ≤ E ∧ |z' - s.z| ≤ E ∧ |h' - H| ≤ Eh ∧ |g' - s.gamma| ≤ Eg ∧ |f' - s.roll| ≤ Ef ∧ |v' - s.v| ≤ Ev ∧ |h'| ≤ 4 ∧
      glo - 22 * 2⁻¹ ^ 53 ≤ g' ∧ g' ≤ ghi + 22 * 2⁻¹ ^ 53 ∧ plo - 22 * 2⁻¹ ^ 53 ≤ f' ∧ f' ≤ phi + 22 * 2⁻¹ ^ 53 ∧ lo ≤ v' ∧ v' ≤ hi := by
  obtain ⟨h1, h2, h3, h4, h5, h6, h7, -, h9, -⟩ := dubins3d_config h0
  have hc := run_sameConfig env' ops e0
  rw [← he] at hc
  have hd0 : EulerDubins3 e0.dynamics glo ghi plo phi lo hi := by
    refine ⟨by rw [h1, hga.1, hro.1, hsp.1], by rw [h2, hga.2, hro.2, hsp.2], h3, h4, ?_, h7, h9.trans hm, hts, h6⟩
    rw [h5]
    have : Fl.cast32 (0 : Fl (b64Of libm)) = .fin 0 := by
      show Fl.ofExt (rndBin 24 (-126) 127 (((0 : ℕ) : ℚ))) = _
      rw [show rndBin 24 (-126) 127 (((0 : ℕ) : ℚ)) = .val 0 by decide +kernel]; rfl
    rw [this]
  have hd : EulerDubins3 e.dynamics glo ghi plo phi lo hi := by
    obtain ⟨t, t', ht⟩ := SameConfig.dyn hc
    rw [ht]
    exact ⟨hd0.stateMin, hd0.stateMax, hd0.dotMin, hd0.dotMax, hd0.wrap, hd0.custom, hd0.method, hd0.samples, hd0.rhs⟩
  have e22 : (0 : ℚ) ≤ 22 * 2⁻¹ ^ 53 := by positivity
  have e22r : (0 : ℝ) ≤ 22 * 2⁻¹ ^ 53 := by positivity
  have f1 : (plo : ℝ) ≤ f := by exact_mod_cast hf.1
  have f2 : (f : ℝ) ≤ phi := by exact_mod_cast hf.2
  have v1 : (lo : ℝ) ≤ v := by exact_mod_cast hv.1
  have v2 : (v : ℝ) ≤ hi := by exact_mod_cast hv.2
  have gx := (add_le_add_left (le_max_left |(x : ℝ)| (max |(y : ℝ)| |(z : ℝ)|)) (S * Leg3.time legs)).trans hG.1
  have gy := (add_le_add_left ((le_max_left |(y : ℝ)| |(z : ℝ)|).trans (le_max_right |(x : ℝ)| _)) (S * Leg3.time legs)).trans hG.1
  have gz := (add_le_add_left ((le_max_right |(y : ℝ)| |(z : ℝ)|).trans (le_max_right |(x : ℝ)| _)) (S * Leg3.time legs)).trans hG.1
  obtain ⟨x', y', z', h', g', f', v', s, k, i1, i2, i3, i4, i5, i6, i7, i8, i9, i10, i11, i12, i13, i14, i15, i16⟩ := flight3_run hlibm htan hδ hρ ht hlg.2.1 hlp.2.1
    hlv.2 hlg.1 hlg.2.2 hlp.1 hlp.2.2 hlv.1 env' hε hS.1 hS.2.1 hS.2.2 hG.2.1 hG.2.2 hμ (Eg := Eg) (Ef := Ef) (Ev := Ev) (Eh := Eh) hEG rfl rfl legs e hd hlegs x y z h g f v
    ⟨x, y, z, h, g, f, v⟩ 0 hs hh (by linarith only [hg.1, e22]) (by linarith only [hg.2, e22]) (by linarith only [hf.1, e22]) (by linarith only [hf.2, e22]) hv.1 hv.2
    (abs_le.2 ⟨by linarith only [hlp.1, f1, e22r], by linarith only [hlp.2.2, f2, e22r]⟩) v1 v2 (by simp [hEg]) (by simp [hEf]) (by simp [hEv]) (by simp [hEh])
    (by simp [hE]) (by simp [hE]) (by simp [hE]) gx gy gz
  exact ⟨x', y', z', h', g', f', v', s, _, i1, ⟨k, by ring⟩, i2, i10, i11, i12, i13, i14, i15, i16, i3, i4, i5, i6, i7, i8, i9⟩

end

section
open Real

/-- an Euler step from a state in the domain of the model -/
theorem Realises.step_euler_at {K : Type} {R : Fmt K} [Field K] [LinearOrder K] [IsStrictOrderedRing K] [FloorRing K] [Exact R] {n m : ℕ} (env : Env R)
    (hpi : 0 < R.pi) {e : Entity R} {M : KModel K n m} (h : Realises e M)
    (hm : e.dynamics.integrationMethod = "Euler") (hs : e.dynamics.trajectorySamples ≤ 0) {a : Action R} {u : Fin m → K} (ha : Asks env e a u)
    {y : Fin n → K} (hdom : M.dom y) (he : e.state = toFl y) (T : K) :
    (e.step env (.fin T) a).outcome = .ok () ∧
    (e.step env (.fin T) a).entity.state = toFl (M.post R.pi (y + T • M.field (M.sat u) 0 y)) := by
  obtain ⟨w, hstep⟩ := step_realised h ha (.fin T)
  have hr := rawStep_euler env h.dyn.custom hm hs (h.dyn.liftsOn (S := M.dom) (M.sat u) (fun y hy => hy)) T y hdom
  have hd := dynStep_lift hpi h.dyn hr
  rw [hstep]
  rw [← he] at hd
  cases hds : e.dynamics.step env (.fin T) e.state (toFl (M.sat u)) with
  | mk d r =>
    rw [hds] at hd
    simp only at hd
    subst hd
    exact ⟨rfl, rfl⟩

/-- limiting the rate at the limits does not change the clipped update -/
theorem clip_klimit {lo hi v w T : ℝ} (hT : 0 ≤ T) :
    min (max (v + T * klimit (some lo) (some hi) none none v w) lo) hi = min (max (v + T * w) lo) hi := by
  by_cases c1 : hi ≤ v
  · simp only [klimit, kclip, Option.some.injEq, exists_eq_left', c1, if_true]
    by_cases c2 : w ≤ 0
    · rw [min_eq_left c2]
    · have c3 := mul_nonneg hT (not_le.1 c2).le
      rw [min_eq_right (not_le.1 c2).le, mul_zero, add_zero, min_eq_right (le_max_of_le_left c1), min_eq_right (le_max_of_le_left (by linarith))]
  · by_cases c3 : v ≤ lo
    · simp only [klimit, kclip, Option.some.injEq, exists_eq_left', c1, if_false, c3, if_true]
      by_cases c2 : 0 ≤ w
      · rw [max_eq_left c2]
      · have c4 := mul_nonneg hT (neg_nonneg.2 (not_le.1 c2).le)
        rw [max_eq_right (not_le.1 c2).le, mul_zero, add_zero, max_eq_right c3, max_eq_right (by linarith)]
    · simp only [klimit, kclip, Option.some.injEq, exists_eq_left', c1, if_false, c3]

theorem exact3_run (env : Env realFmt) (p : Dubins3dParams ℝ) (hv : 0 < p.vMin ∧ p.vMin ≤ p.vMax) (hg : -π ≤ p.gammaMin ∧ p.gammaMin ≤ p.gammaMax ∧ p.gammaMax < π)
    (hr : -π ≤ p.rollMin ∧ p.rollMin ≤ p.rollMax ∧ p.rollMax < π) : ∀ (legs : List (ℝ × Action realFmt × (Fin 3 → ℝ)))
    (e : Entity realFmt), Realises e (dubins3dModel realFmt p) → e.dynamics.integrationMethod = "Euler" → e.dynamics.trajectorySamples ≤ 0 →
    (∀ l ∈ legs, 0 ≤ l.1 ∧ Asks env e l.2.1 l.2.2) → ∀ (s : Flying) (h : ℝ), e.state = [.fin s.x, .fin s.y, .fin s.z, .fin h, .fin s.gamma, .fin s.roll, .fin s.v] →
    p.vMin ≤ s.v → SameAngle π s.heading h → ∃ (s' : Flying) (h' : ℝ),
      eulerFlight3 ⟨p.gammaMin, p.gammaMax, p.rollMin, p.rollMax, p.vMin, p.vMax⟩ (legs.map fun l => (l.1, min (max (l.2.2 0) p.gammaRateMin) p.gammaRateMax,
        min (max (l.2.2 1) p.rollRateMin) p.rollRateMax, min (max (l.2.2 2) p.accMin) p.accMax)) s = s' ∧ SameAngle π s'.heading h' ∧
      (e.run env (stepsOf (legs.map fun l => (l.1, l.2.1)))).state = [.fin s'.x, .fin s'.y, .fin s'.z, .fin h', .fin s'.gamma, .fin s'.roll, .fin s'.v]
  | [], e, _, _, _, _, s, h, hs, _, ha => ⟨s, h, rfl, ha, hs⟩
  | (T, act, u) :: legs, e, hre, hm, hts, hl, s, h, hs, hsv, ha => by
    obtain ⟨hT, hask⟩ := hl _ List.mem_cons_self
    simp only at hT hask
    have hv0 : s.v ≠ 0 := (hv.1.trans_le hsv).ne'
    have hst := (Realises.step_euler_at env pi_pos hre hm hts hask (y := ![s.x, s.y, s.z, h, s.gamma, s.roll, s.v]) hv0 (by rw [hs, toFl7]; rfl) T).2
    have hc : SameConfig e (e.step env (.fin T) act).entity := step_sameConfig env e _ _
    obtain ⟨k1, k2⟩ := sameConfig_method hc
    obtain ⟨c1, c2⟩ := sameAngle_cos ha
    obtain ⟨W, hW⟩ : ∃ W, W = (dubins3dModel realFmt p).sat u := ⟨_, rfl⟩
    have W0 : W 0 = min (max (u 0) p.gammaRateMin) p.gammaRateMax := by rw [hW]; simp [KModel.sat, dubins3dModel, kclip]
    have W1 : W 1 = min (max (u 1) p.rollRateMin) p.rollRateMax := by rw [hW]; simp [KModel.sat, dubins3dModel, kclip]
    have W2 : W 2 = min (max (u 2) p.accMin) p.accMax := by rw [hW]; simp [KModel.sat, dubins3dModel, kclip]
    obtain ⟨z, hz⟩ : ∃ z, z = ![s.x, s.y, s.z, h, s.gamma, s.roll, s.v] := ⟨_, rfl⟩
    have z0 : z 0 = s.x := by rw [hz]; rfl
    have z1 : z 1 = s.y := by rw [hz]; rfl
    have z2 : z 2 = s.z := by rw [hz]; rfl
    have z3 : z 3 = h := by rw [hz]; rfl
    have z4 : z 4 = s.gamma := by rw [hz]; rfl
    have z5 : z 5 = s.roll := by rw [hz]; rfl
    have z6 : z 6 = s.v := by rw [hz]; rfl
    obtain ⟨w, hw⟩ : ∃ w, w = z + T • (dubins3dModel realFmt p).field W 0 z := ⟨_, rfl⟩
    rw [← hW, ← hz, ← hw] at hst
    have w0 : w 0 = s.x + T * (s.v * cos s.heading * cos s.gamma) := by
      rw [hw, ← z0, ← z6, ← c1, ← z3, ← z4]; simp [KModel.field, dubins3dModel, klimit_free]; exact Or.inl rfl
    have w1 : w 1 = s.y + T * (s.v * sin s.heading * cos s.gamma) := by
      rw [hw, ← z1, ← z6, ← c2, ← z3, ← z4]; simp [KModel.field, dubins3dModel, klimit_free]; exact Or.inl rfl
    have w2 : w 2 = s.z - T * (s.v * sin s.gamma) := by
      rw [hw, ← z2, ← z6, ← z4]; simp [KModel.field, dubins3dModel, klimit_free, sub_eq_add_neg]; exact Or.inl (Or.inl rfl)
    have w3 : w 3 = h + T * (32.17 / s.v * tan s.roll) := by
      rw [hw, ← z3, ← z6, ← z5, show (32.17 : ℝ) = 3217 / 100 by norm_num]; simp [KModel.field, dubins3dModel, klimit_free]; exact Or.inl (Or.inl rfl)
    have w4 : w 4 = s.gamma + T * klimit (some p.gammaMin) (some p.gammaMax) none none s.gamma (W 0) := by
      rw [hw, ← z4]; simp [KModel.field, dubins3dModel]
    have w5 : w 5 = s.roll + T * klimit (some p.rollMin) (some p.rollMax) none none s.roll (W 1) := by
      rw [hw, ← z5]; simp [KModel.field, dubins3dModel]
    have w6 : w 6 = s.v + T * klimit (some p.vMin) (some p.vMax) none none s.v (W 2) := by
      rw [hw, ← z6]; simp [KModel.field, dubins3dModel]
    have p0 : (dubins3dModel realFmt p).post π w 0 = w 0 := by simp [KModel.post, dubins3dModel, kclip]
    have p1 : (dubins3dModel realFmt p).post π w 1 = w 1 := by simp [KModel.post, dubins3dModel, kclip]
    have p2 : (dubins3dModel realFmt p).post π w 2 = w 2 := by simp [KModel.post, dubins3dModel, kclip]
    have p3 : (dubins3dModel realFmt p).post π w 3 = w 3 + 0 - 2 * π * ⌊(w 3 + π) / (2 * π)⌋ := by simp [KModel.post, dubins3dModel, kclip]
    have p4 : (dubins3dModel realFmt p).post π w 4 = min (max (s.gamma + T * W 0) p.gammaMin) p.gammaMax := by
      have := wrap_zero_id (R := realFmt) pi_pos (x := min (max (w 4) p.gammaMin) p.gammaMax) (hg.1.trans (le_min (le_max_right _ _) hg.2.1))
        ((min_le_right _ _).trans_lt hg.2.2)
      rw [← clip_klimit hT, ← w4, ← this]
      simp [KModel.post, dubins3dModel, kclip]
      rfl
    have p5 : (dubins3dModel realFmt p).post π w 5 = min (max (s.roll + T * W 1) p.rollMin) p.rollMax := by
      have := wrap_zero_id (R := realFmt) pi_pos (x := min (max (w 5) p.rollMin) p.rollMax) (hr.1.trans (le_min (le_max_right _ _) hr.2.1))
        ((min_le_right _ _).trans_lt hr.2.2)
      rw [← clip_klimit hT, ← w5, ← this]
      simp [KModel.post, dubins3dModel, kclip]
      rfl
    have p6 : (dubins3dModel realFmt p).post π w 6 = min (max (s.v + T * W 2) p.vMin) p.vMax := by
      rw [← clip_klimit hT, ← w6]
      simp [KModel.post, dubins3dModel, kclip]
    obtain ⟨s', h', i1, i2, i3⟩ := exact3_run env p hv hg hr legs (e.step env (.fin T) act).entity (hre.congr hc) (k1.trans hm) (k2 ▸ hts)
      (fun l hm => ⟨(hl l (List.mem_cons_of_mem _ hm)).1, requests_congr hc (hl l (List.mem_cons_of_mem _ hm)).2⟩)
      (s.euler ⟨p.gammaMin, p.gammaMax, p.rollMin, p.rollMax, p.vMin, p.vMax⟩ T (W 0) (W 1) (W 2)) ((dubins3dModel realFmt p).post π w 3)
      (by
        rw [hst, toFl7]
        show [Fl.fin ((dubins3dModel realFmt p).post π w 0), .fin ((dubins3dModel realFmt p).post π w 1), .fin ((dubins3dModel realFmt p).post π w 2),
          .fin ((dubins3dModel realFmt p).post π w 3), .fin ((dubins3dModel realFmt p).post π w 4), .fin ((dubins3dModel realFmt p).post π w 5),
          .fin ((dubins3dModel realFmt p).post π w 6)] = _
        rw [p0, p1, p2, p4, p5, p6, w0, w1, w2]
        rfl)
      (le_min (le_max_right _ _) hv.2) (by
        rw [p3, w3]
        refine SameAngle.trans ?_ (wrap_angle _)
        obtain ⟨k, rfl⟩ := ha
        exact ⟨k, by show _ = s.heading + T * (32.17 / s.v * tan s.roll) + 2 * π * k; ring⟩)
    refine ⟨s', h', ?_, i2, i3⟩
    rw [← i1, W0, W1, W2]
    rfl

/-- In exact arithmetic the aircraft computes the reference flight: its coordinates, angles and speed are those of the flight with the requested controls,
limited, and its heading is the heading of the flight up to whole turns. -/
theorem C113_exact (env : Env realFmt) (args : Dubins3dArgs realFmt) (p : Dubins3dParams ℝ) (hp : p.Of args) (hv : 0 < p.vMin ∧ p.vMin ≤ p.vMax)
    (hg : -π ≤ p.gammaMin ∧ p.gammaMin ≤ p.gammaMax ∧ p.gammaMax < π) (hr : -π ≤ p.rollMin ∧ p.rollMin ≤ p.rollMax ∧ p.rollMax < π)
    (e0 : Entity realFmt) (h0 : newDubins3d env args = .ok e0) (hm : args.integrationMethod = "Euler") (hts : e0.dynamics.trajectorySamples ≤ 0)
    (ops : List (Op realFmt)) (e : Entity realFmt) (he : e = e0.run env ops) (s : Flying)
    (hs : e.state = [.fin s.x, .fin s.y, .fin s.z, .fin s.heading, .fin s.gamma, .fin s.roll, .fin s.v])
    (hsv : p.vMin ≤ s.v) (legs : List (ℝ × Action realFmt × (Fin 3 → ℝ))) (hlegs : ∀ l ∈ legs, 0 ≤ l.1 ∧ Asks env e l.2.1 l.2.2) :
    ∃ (s' : Flying) (h' : ℝ),
      eulerFlight3 ⟨p.gammaMin, p.gammaMax, p.rollMin, p.rollMax, p.vMin, p.vMax⟩ (legs.map fun l => (l.1, min (max (l.2.2 0) p.gammaRateMin) p.gammaRateMax,
        min (max (l.2.2 1) p.rollRateMin) p.rollRateMax, min (max (l.2.2 2) p.accMin) p.accMax)) s = s' ∧ SameAngle π s'.heading h' ∧
      (e.run env (stepsOf (legs.map fun l => (l.1, l.2.1)))).state = [.fin s'.x, .fin s'.y, .fin s'.z, .fin h', .fin s'.gamma, .fin s'.roll, .fin s'.v] := by
  have hc := run_sameConfig env ops e0
  obtain ⟨-, -, -, -, -, -, -, -, h9, -⟩ := dubins3d_config h0
  have hre := (dubins3d_realised hp h0).congr hc
  obtain ⟨k1, k2⟩ := sameConfig_method hc
  rw [← he] at hre k1 k2
  exact exact3_run env p hv hg hr legs e hre (k1.trans (h9.trans hm)) (k2 ▸ hts) hlegs s s.heading hs hsv ⟨0, by simp⟩

end

/-! ## A flight of an hour -/

/-- a libm with a sine, a cosine and a tangent as accurate as one likes -/
theorem Demo.accurate3 (ρ δ : ℝ) (hδ : 0 < δ) : ∃ libm : Fmt ℚ, Trig libm δ ∧ Tangent libm ρ δ := by
  have near : ∀ r : ℝ, ∃ q : ℚ, |(q : ℝ) - r| ≤ δ := fun r => by
    obtain ⟨q, h1, h2⟩ := exists_rat_btwn (show r - δ < r by linarith)
    exact ⟨q, by rw [abs_le]; constructor <;> linarith⟩
  choose f hf using near
  exact ⟨{ ratFmt with sin := fun x => f (Real.sin x), cos := fun x => f (Real.cos x), tan := fun x => f (Real.tan x) }, fun x _ => ⟨hf _, hf _⟩, fun x _ => hf _⟩

/-- climbing, banking and accelerating for an hour, in steps of a second: off by less than a tenth of a foot -/
example : ∃ (libm : Fmt ℚ) (env : Env (b64Of libm)) (args : Dubins3dArgs (b64Of libm)) (e0 : Entity (b64Of libm)), newDubins3d env args = .ok e0 ∧
    ∃ (x' y' z' h' g' f' v' : ℚ) (s : Flying), eulerFlight3 ⟨-1 / 4, 1 / 4, -1, 1, 200, 400⟩ (List.replicate 3600 (1, 1 / 100, 1 / 50, 5)) ⟨0, 0, -1000, 1, 0, 0, 300⟩ = s ∧
      ((e0.run env [.setState [.fin 0, .fin 0, .fin (-1000), .fin 1, .fin 0, .fin 0, .fin 300]]).run env
        (stepsOf (List.replicate 3600 (1, .ndarray .f64 [.fin (1 / 100), .fin (1 / 50), .fin 5])))).state
        = [.fin x', .fin y', .fin z', .fin h', .fin g', .fin f', .fin v'] ∧ |x' - s.x| ≤ 1 / 10 ∧ |y' - s.y| ≤ 1 / 10 ∧ |z' - s.z| ≤ 1 / 10 := by
  have hρ3 : Real.pi / 3 ≤ Real.arctan 2 := by
    rw [← Real.arctan_sqrt_three]
    exact Real.arctan_strictMono.monotone (Real.sqrt_le_iff.2 ⟨by norm_num, by norm_num⟩)
  have hρ4 : (1.04 : ℝ) ≤ Real.arctan 2 := by linarith [Real.pi_gt_d2]
  obtain ⟨libm, hlibm, htan⟩ := Demo.accurate3 (Real.arctan 2) (2⁻¹ ^ 50) (by positivity)
  obtain ⟨args, hargs⟩ : ∃ args : Dubins3dArgs (b64Of libm), args = {
      gammaMin := .fin (-1 / 4), gammaMax := .fin (1 / 4), rollMin := .fin (-1), rollMax := .fin 1
      gammaRateMin := .fin (-1), gammaRateMax := .fin 1, rollRateMin := .fin (-1), rollRateMax := .fin 1, accMin := .fin (-96), accMax := .fin 96
      integrationMethod := "Euler", trajectorySamples := some 0, vMin := .fin 200, vMax := .fin 400, kwargs := [("name", .str "a"), ("heading", .num (.fin 1))] } := ⟨_, rfl⟩
  have h0 : ∃ e0 : Entity (b64Of libm), newDubins3d (rkEnv dopri (fun _ _ _ => [])) args = .ok e0 := by rw [hargs]; exact ⟨_, rfl⟩
  obtain ⟨e0, h0⟩ := h0
  obtain ⟨h1, h2, h3, h4, h5, h6, h7, -, h9, h10, h11, h12, h13, -⟩ := dubins3d_config h0
  have hst : (e0.run (rkEnv dopri (fun _ _ _ => [])) [.setState [.fin 0, .fin 0, .fin (-1000), .fin 1, .fin 0, .fin 0, .fin 300]]).state
      = [.fin 0, .fin 0, .fin (-1000), .fin 1, .fin 0, .fin 0, .fin 300] := by
    rw [hargs] at h0
    cases h0
    rfl
  refine ⟨libm, _, args, e0, h0, ?_⟩
  have tiny : (2⁻¹ : ℝ) ^ 900 ≤ 1 := pow_le_one₀ (by norm_num) (by norm_num)
  set l : Leg3 (b64Of libm) := ⟨1, .ndarray .f64 [.fin (1 / 100), .fin (1 / 50), .fin 5], 1 / 100, 1 / 50, 5⟩ with hl
  have t1 : Leg3.time (List.replicate 3600 l) = 3600 := by rw [Leg3.time, List.map_replicate, List.sum_replicate, hl]; norm_num
  have t2 : Leg3.pitch (List.replicate 3600 l) = 36 := by
    rw [Leg3.pitch, List.map_replicate, List.sum_replicate, hl]; norm_num
  have t2' : Leg3.bank (List.replicate 3600 l) = 72 := by
    rw [Leg3.bank, List.map_replicate, List.sum_replicate, hl]; norm_num
  have t3 : Leg3.gain (List.replicate 3600 l) = 18000 := by
    rw [Leg3.gain, List.map_replicate, List.sum_replicate, hl]; norm_num
  have t4 : Leg3.hist (List.replicate 3600 l) = List.replicate 3600 (1, .ndarray .f64 [.fin (1 / 100), .fin (1 / 50), .fin 5]) := by
    rw [Leg3.hist, List.map_replicate]
  have t5 : Leg3.exact (List.replicate 3600 l) = List.replicate 3600 (1, 1 / 100, 1 / 50, 5) := by
    rw [Leg3.exact, List.map_replicate, hl]; norm_num
  have cast : ∀ q : ℚ, rndBin 24 (-126) 127 q = .val q → (Fl.fin q : Fl (b64Of libm)).cast32 = .fin q := fun q hq => by
    show Fl.ofExt (rndBin 24 (-126) 127 q) = _
    rw [hq]; rfl
  obtain ⟨x', y', z', h', g', f', v', s, H, i1, -, i2, i3, i4, i5, -⟩ := C113_flight libm _ (Real.arctan 2) 2 hlibm htan (by norm_num) (Real.arctan_lt_pi_div_two 2)
    (Real.tan_arctan 2).le _ (rkEnv dopri (fun _ _ _ => [])) args (-1 / 4) (1 / 4) (-1) 1 200 400
    (by rw [hargs]; exact ⟨cast _ (by decide +kernel), cast _ (by decide +kernel)⟩) (by rw [hargs]; exact ⟨cast _ (by decide +kernel), cast _ (by decide +kernel)⟩)
    (by rw [hargs]; exact ⟨cast _ (by decide +kernel), cast _ (by decide +kernel)⟩) (by norm_num)
    ⟨by push_cast; norm_num at hρ4 ⊢; linarith, by norm_num, by push_cast; norm_num at hρ4 ⊢; linarith⟩
    (by norm_num) (by rw [hargs]) e0 h0 (by rw [hargs] at h10; exact (Option.some.inj h10).le) _ _ rfl 0 0 (-1000) 1 0 0 300 hst (by norm_num) (by norm_num) (by norm_num) (by norm_num)
    (List.replicate 3600 l) (by
      intro l' hl'
      obtain ⟨-, rfl⟩ := List.mem_replicate.1 hl'
      refine ⟨(applied_config (run_sameConfig _ _ _)).2 (applied_of (ty := .f64) (u := [.fin (1 / 100), .fin (1 / 50), .fin 5]) rfl ?_), by norm_num [hl], by norm_num [hl],
        by norm_num [hl], by norm_num [hl], by norm_num [hl]⟩
      rw [h12, h13, hargs, hl]
      simp [npClip, bcast2, Arr.forDType, Arr.toVec, npMax_fin, npMin_fin, bind, Except.bind]
      norm_num)
    400 (2 ^ 22) _ _ _ _ _ _ rfl ⟨by norm_num, tiny.trans (by norm_num), by norm_num⟩ ⟨by rw [t1]; norm_num, tiny.trans (by norm_num), by norm_num⟩ (by norm_num) rfl rfl rfl rfl rfl
    (by rw [t1, t2, t2', t3, List.length_replicate]; norm_num)
  rw [t4] at i2
  rw [t5] at i1
  rw [t1, t2, t2', t3, List.length_replicate] at i3 i4 i5
  refine ⟨x', y', z', h', g', f', v', s, ?_, i2, i3.trans (by norm_num), i4.trans (by norm_num), i5.trans (by norm_num)⟩
  obtain ⟨L, hL⟩ : ∃ L : List (ℝ × ℝ × ℝ × ℝ), L = List.replicate 3600 (1, 1 / 100, 1 / 50, 5) := ⟨_, rfl⟩
  rw [← hL] at i1 ⊢
  rw [← i1]
  norm_num

end SAD
