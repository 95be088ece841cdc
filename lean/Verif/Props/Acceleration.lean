import Verif.Props.Dubins
import Verif.Lemmas.Single
import Verif.Spec.Legs
import Verif.Props.Stock
import Verif.Props.DubinsPrecision

/-! # C47, C52: the reported velocity and acceleration of an aircraft in floating point -/

set_option linter.unusedSectionVars false

namespace SAD
open Spec

section
variable {libm : Fmt ℚ}

/-- `2^-24` and the smallest normal number of single precision -/
local notation "u₃₂" => ((2⁻¹ : ℚ) ^ 24)
local notation "τ₃₂" => ((2 : ℚ) ^ (-126 : ℤ))

theorem tau32_le : τ₃₂ ≤ 1 / 1000 ∧ 0 < τ₃₂ := ⟨by decide +kernel, by positivity⟩

/-- a number of which NumPy says that it fits rounds to single precision without overflow -/
theorem single_near_fit {x : ℚ} (hx : |x| ≤ 34 * 10 ^ 37) :
    ∃ y, (.fin x : Fl (b64Of libm)).cast32 = .fin y ∧ rndBin 24 (-126) 127 x = .val y ∧ |y - x| ≤ u₃₂ * (|x| + τ₃₂) := by
  have hid : nearestBin 24 (-126) (34 * 10 ^ 37) < 2 ^ ((127 : ℤ) + 1) := by decide +kernel
  have h1 : nearestBin 24 (-126) x < 2 ^ ((127 : ℤ) + 1) := (nearestBin_mono 24 (-126) (by norm_num) ((le_abs_self x).trans hx)).trans_lt hid
  have h2 : -2 ^ ((127 : ℤ) + 1) < nearestBin 24 (-126) x := by
    have := nearestBin_mono 24 (-126) (by norm_num) (neg_le_of_abs_le hx)
    rw [nearestBin_neg] at this
    linarith
  have h3 : rndBin 24 (-126) 127 x = .val (nearestBin 24 (-126) x) := by
    unfold rndBin
    simp only
    rw [if_neg (by linarith), if_neg (by linarith)]
  exact ⟨_, cast32_val h3, h3, nearestBin_error 24 (-126) x⟩

/-- double-precision rounding, much finer than single precision -/
theorem double_near {x : ℚ} (hx : |x| ≤ 2 ^ (1023 : ℤ)) : ∃ y, (Fl.round x : Fl (b64Of libm)) = .fin y ∧ |y - x| ≤ u₃₂ / 1000 * (|x| + τ₃₂) := by
  obtain ⟨y, h1, h2⟩ := (b64_rounds libm).rnd x hx
  refine ⟨y, by rw [Fl.round, h1]; rfl, h2.trans ?_⟩
  have := abs_nonneg x
  have e1 : (2⁻¹ : ℚ) ^ 53 ≤ 2⁻¹ ^ 24 / 1000 := by decide +kernel
  have e2 : (2 : ℚ) ^ (-1022 : ℤ) ≤ 2 ^ (-126 : ℤ) := by decide +kernel
  exact mul_le_mul e1 (by linarith) (by positivity) (by positivity)

theorem round_err {u τ x y ρ A : ℚ} (hu : 0 ≤ u) (h : |y - x| ≤ u * (|x| + τ)) (hx : |x - ρ| ≤ A) : |y - ρ| ≤ A + u * (|ρ| + A + τ) := by
  have h1 : |x| ≤ |ρ| + A := by have := abs_sub_abs_le_abs_sub x ρ; linarith
  have h2 : |y - ρ| ≤ |y - x| + |x - ρ| := abs_sub_le _ _ _
  have := mul_le_mul_of_nonneg_left (show |x| + τ ≤ |ρ| + A + τ by linarith) hu
  linarith

theorem quot_arith {u τ v v' w q' q : ℚ} (hu : 0 < u) (hu' : u ≤ 1 / 1000000) (hτ : 0 < τ) (hv : τ ≤ |v|) (h1 : |v' - v| ≤ u * (|v| + τ))
    (h2 : |q' - w / v'| ≤ u / 1000 * (|w / v'| + τ)) (h3 : |q - q'| ≤ u * (|q'| + τ)) : |q - w / v| ≤ 4 * u * |w / v| + 2 * u * τ := by
  have hv0 : 0 < |v| := hτ.trans_le hv
  have hvn : v ≠ 0 := abs_pos.1 hv0
  have h1' : |v' - v| ≤ 2 * u * |v| := by nlinarith
  have hlow : |v| ≤ 11 / 10 * |v'| := by
    have := abs_sub_abs_le_abs_sub v v'
    rw [abs_sub_comm v v'] at this
    nlinarith
  have hv0' : 0 < |v'| := by linarith
  have hvn' : v' ≠ 0 := abs_pos.1 hv0'
  have hP := abs_nonneg (w / v)
  have e1 : |w / v' - w / v| ≤ 5 / 2 * u * |w / v| := by
    have : w / v' - w / v = w / v * ((v - v') / v') := by field_simp
    rw [this, abs_mul, mul_comm]
    refine mul_le_mul_of_nonneg_right ?_ hP
    rw [abs_div, div_le_iff₀ hv0', abs_sub_comm]
    nlinarith
  have e2 := round_err (by linarith) h2 e1
  have e3 := round_err hu.le h3 e2
  generalize |w / v| = P at *
  have a1 : u * (u * P) ≤ 1 / 1000000 * (u * P) := mul_le_mul_of_nonneg_right hu' (by positivity)
  have a2 : u * (u * τ) ≤ 1 / 1000000 * (u * τ) := mul_le_mul_of_nonneg_right hu' (by positivity)
  have a3 : u * (u * (u * P)) ≤ 1 / 1000000 * (u * (u * P)) := mul_le_mul_of_nonneg_right hu' (by positivity)
  have b1 : 0 ≤ u * P := by positivity
  have b2 : 0 ≤ u * τ := by positivity
  nlinarith

/-- the direction of flight: the quotient of a velocity component and the speed, in single precision -/
theorem direction_single {v w : ℚ} (hv0 : τ₃₂ ≤ |v|) (hv : |v| ≤ 34 * 10 ^ 37) (hw : |w| ≤ 2 * |v|) :
    ∃ q, ((.fin w / (.fin v : Fl (b64Of libm)).cast32).cast32 : Fl (b64Of libm)) = .fin q ∧ |q - w / v| ≤ 4 * u₃₂ * |w / v| + 2 * u₃₂ * τ₃₂ := by
  obtain ⟨t1, t2⟩ := tau32_le
  have hu : (0 : ℚ) < u₃₂ := by positivity
  have hu' : u₃₂ ≤ 1 / 1000000 := by norm_num
  obtain ⟨v', c1, -, h1⟩ := single_near_fit (libm := libm) hv
  have hvp : 0 < |v| := t2.trans_le hv0
  have hlow : |v| ≤ 11 / 10 * |v'| := by
    have := abs_sub_abs_le_abs_sub v v'
    rw [abs_sub_comm v v'] at this
    have := mul_le_mul hu' (show |v| + τ₃₂ ≤ 2 * |v| by linarith) (by positivity) (by norm_num)
    linarith
  have hv0' : 0 < |v'| := by linarith
  have hq : |w / v'| ≤ 3 := by
    rw [abs_div, div_le_iff₀ hv0']
    linarith
  obtain ⟨q', c2, h2⟩ := double_near (libm := libm) (x := w / v') (hq.trans (by decide +kernel))
  have hq' : |q'| ≤ 4 := by
    have := abs_sub_abs_le_abs_sub q' (w / v')
    have := mul_le_mul (show u₃₂ / 1000 ≤ 1 / 1000 by norm_num) (show |w / v'| + τ₃₂ ≤ 4 by linarith) (by positivity) (by norm_num)
    linarith
  obtain ⟨q, c3, -, h3⟩ := single_near_fit (libm := libm) (x := q') (hq'.trans (by norm_num))
  refine ⟨q, ?_, quot_arith hu hu' t2 hv0 h1 h2 h3⟩
  rw [c1]
  show Fl.cast32 (Fl.div _ _) = _
  rw [Fl.div, if_neg (abs_pos.1 hv0'), c2, c3]

theorem prod_arith {u τ d d' ρ q p a : ℚ} (hu : 0 < u) (hu' : u ≤ 1 / 1000000) (hτ : 0 < τ) (hτ' : τ ≤ 1 / 1000) (hρ : |ρ| ≤ 2)
    (hq : |q - ρ| ≤ 4 * u * |ρ| + 2 * u * τ) (h1 : |d' - d| ≤ u * (|d| + τ)) (h2 : |p - d' * q| ≤ u / 1000 * (|d' * q| + τ))
    (h3 : |a - p| ≤ u * (|p| + τ)) : |a - d * ρ| ≤ 8 * u * |d * ρ| + 8 * u * τ * (|d| + 1) := by
  have hP := abs_nonneg ρ
  have hD := abs_nonneg d
  have hqa : |q| ≤ 2 * |ρ| + τ := by
    have := abs_sub_abs_le_abs_sub q ρ
    nlinarith
  have hqa' : |q| ≤ (1 + 4 * u) * |ρ| + 2 * u * τ := by
    have := abs_sub_abs_le_abs_sub q ρ
    linarith
  have e1 : |d' * q - d * ρ| ≤ 51 / 10 * u * (|d| * |ρ|) + 3 * u * τ * (|d| + 1) := by
    have : d' * q - d * ρ = (d' - d) * q + d * (q - ρ) := by ring
    rw [this]
    refine (abs_add_le _ _).trans ?_
    rw [abs_mul, abs_mul]
    have g1 : |d' - d| * |q| ≤ u * (|d| + τ) * ((1 + 4 * u) * |ρ| + 2 * u * τ) :=
      mul_le_mul h1 hqa' (abs_nonneg _) (by positivity)
    have g2 : |d| * |q - ρ| ≤ |d| * (4 * u * |ρ| + 2 * u * τ) := mul_le_mul_of_nonneg_left hq hD
    generalize |d| = D at *
    generalize |ρ| = P at *
    have b1 : 0 ≤ u * (D * P) := by positivity
    have b2 : 0 ≤ u * τ * D := by positivity
    have b3 : 0 ≤ u * τ := by positivity
    have a1 : u * (u * (D * P)) ≤ 1 / 1000000 * (u * (D * P)) := mul_le_mul_of_nonneg_right hu' (by positivity)
    have a2 : u * (u * τ * D) ≤ 1 / 1000000 * (u * τ * D) := mul_le_mul_of_nonneg_right hu' (by positivity)
    have a3 : u * τ * P ≤ u * τ * 2 := mul_le_mul_of_nonneg_left hρ b3
    have a4 : u * (u * τ * P) ≤ 1 / 1000000 * (u * τ * P) := mul_le_mul_of_nonneg_right hu' (by positivity)
    have a5 : u * (u * τ) * τ ≤ 1 / 1000000 * (u * τ) := by
      have := mul_le_mul_of_nonneg_right hu' (show 0 ≤ u * τ by positivity)
      have : u * (u * τ) * τ ≤ u * (u * τ) * 1 := mul_le_mul_of_nonneg_left (by linarith) (by positivity)
      linarith
    nlinarith
  have e2 := round_err (by linarith) h2 e1
  have e3 := round_err hu.le h3 e2
  rw [abs_mul] at e3 ⊢
  refine e3.trans ?_
  generalize |d| = D at *
  generalize |ρ| = P at *
  have hX : 0 ≤ D * P := by positivity
  generalize D * P = X at *
  have b1 : 0 ≤ u * X := by positivity
  have b2 : 0 ≤ u * τ * (D + 1) := by positivity
  have b3 : u * τ ≤ u * τ * (D + 1) := by nlinarith [mul_pos hu hτ]
  have a1 : u * (u * X) ≤ 1 / 1000000 * (u * X) := mul_le_mul_of_nonneg_right hu' b1
  have a2 : u * (u * τ * (D + 1)) ≤ 1 / 1000000 * (u * τ * (D + 1)) := mul_le_mul_of_nonneg_right hu' b2
  have a3 : u * (u * (u * X)) ≤ 1 / 1000000 * (u * (u * X)) := mul_le_mul_of_nonneg_right hu' (by positivity)
  have a4 : u * (u * (u * τ * (D + 1))) ≤ 1 / 1000000 * (u * (u * τ * (D + 1))) := mul_le_mul_of_nonneg_right hu' (by positivity)
  have a5 : u * (u * τ) ≤ 1 / 1000000 * (u * τ) := mul_le_mul_of_nonneg_right hu' (by positivity)
  nlinarith

/-- the product of the rate of the speed and the direction, in single precision -/
theorem along_single {d ρ q : ℚ} (hd : |d| ≤ 2 ^ 125) (hρ : |ρ| ≤ 2) (hq : |q - ρ| ≤ 4 * u₃₂ * |ρ| + 2 * u₃₂ * τ₃₂) :
    ∃ a, (((.fin d : Fl (b64Of libm)).cast32 * .fin q).cast32 : Fl (b64Of libm)) = .fin a ∧
      |a - d * ρ| ≤ 8 * u₃₂ * |d * ρ| + 8 * u₃₂ * τ₃₂ * (|d| + 1) := by
  obtain ⟨t1, t2⟩ := tau32_le
  have hu : (0 : ℚ) < u₃₂ := by positivity
  have hu' : u₃₂ ≤ 1 / 1000000 := by norm_num
  have hqa : |q| ≤ 21 / 10 := by
    have := abs_sub_abs_le_abs_sub q ρ
    have h1 := mul_le_mul hu' (show 4 * |ρ| + 2 * τ₃₂ ≤ 9 from (add_le_add (mul_le_mul_of_nonneg_left hρ (by norm_num)) (mul_le_mul_of_nonneg_left t1 (by norm_num))).trans (by norm_num)) (by positivity) (by norm_num)
    linarith
  obtain ⟨d', c1, -, h1⟩ := single_near_fit (libm := libm) (x := d) (hd.trans (by norm_num))
  have hd' : |d'| ≤ 11 / 10 * 2 ^ 125 := by
    have := abs_sub_abs_le_abs_sub d' d
    have h1 := mul_le_mul hu' (show |d| + τ₃₂ ≤ 2 ^ 126 from (add_le_add hd t1).trans (by norm_num)) (by positivity) (by norm_num)
    linarith
  have hp : |d' * q| ≤ 2 ^ 127 := by
    rw [abs_mul]
    have := mul_le_mul hd' hqa (abs_nonneg _) (by norm_num)
    linarith
  obtain ⟨p, c2, h2⟩ := double_near (libm := libm) (x := d' * q) (hp.trans (by decide +kernel))
  have hpa : |p| ≤ 34 * 10 ^ 37 := by
    have := abs_sub_abs_le_abs_sub p (d' * q)
    have h1 := mul_le_mul (show u₃₂ / 1000 ≤ 1 / 1000 by norm_num) (show |d' * q| + τ₃₂ ≤ 2 ^ 127 + 1 from (add_le_add hp t1).trans (by norm_num)) (by positivity) (by norm_num)
    linarith
  obtain ⟨a, c3, -, h3⟩ := single_near_fit (libm := libm) hpa
  refine ⟨a, ?_, prod_arith hu hu' t2 t1 hρ hq h1 h2 h3⟩
  rw [c1]
  show Fl.cast32 (Fl.round _) = _
  rw [c2, c3]

/-- the same product in double precision -/
theorem along_double {d ρ q : ℚ} (hd : |d| ≤ 2 ^ 500) (hρ : |ρ| ≤ 2) (hq : |q - ρ| ≤ 4 * u₃₂ * |ρ| + 2 * u₃₂ * τ₃₂) :
    ∃ a, (.fin d * .fin q : Fl (b64Of libm)) = .fin a ∧ |a - d * ρ| ≤ 8 * u₃₂ * |d * ρ| + 8 * u₃₂ * τ₃₂ * (|d| + 1) := by
  obtain ⟨t1, t2⟩ := tau32_le
  have hu : (0 : ℚ) < u₃₂ := by positivity
  have hu' : u₃₂ ≤ 1 / 1000000 := by norm_num
  have hqa : |q| ≤ 21 / 10 := by
    have := abs_sub_abs_le_abs_sub q ρ
    have h1 := mul_le_mul hu' (show 4 * |ρ| + 2 * τ₃₂ ≤ 9 from (add_le_add (mul_le_mul_of_nonneg_left hρ (by norm_num)) (mul_le_mul_of_nonneg_left t1 (by norm_num))).trans (by norm_num)) (by positivity) (by norm_num)
    linarith
  have hp : |d * q| ≤ 2 ^ 502 := by
    rw [abs_mul]
    exact (mul_le_mul hd hqa (abs_nonneg _) (by positivity)).trans (by decide +kernel)
  obtain ⟨p, c2, h2⟩ := double_near (libm := libm) (x := d * q) (hp.trans (by decide +kernel))
  exact ⟨p, c2, prod_arith hu hu' t2 t1 hρ hq (by simpa using by positivity) h2 (by simpa using by positivity)⟩

/-- the direction in double precision -/
theorem direction_double {v w : ℚ} (hv0 : τ₃₂ ≤ |v|) (hw : |w| ≤ 2 * |v|) :
    ∃ q, (.fin w / .fin v : Fl (b64Of libm)) = .fin q ∧ |q - w / v| ≤ 4 * u₃₂ * |w / v| + 2 * u₃₂ * τ₃₂ := by
  obtain ⟨t1, t2⟩ := tau32_le
  have hvp : 0 < |v| := t2.trans_le hv0
  have hq : |w / v| ≤ 2 := by rwa [abs_div, div_le_iff₀ hvp]
  obtain ⟨q, c, h⟩ := double_near (libm := libm) (x := w / v) (hq.trans (by decide +kernel))
  refine ⟨q, ?_, h.trans ?_⟩
  · show Fl.div _ _ = _
    rw [Fl.div, if_neg (abs_pos.1 hvp), c]
  · have := abs_nonneg (w / v)
    have : 0 ≤ u₃₂ * |w / v| := by positivity
    have : 0 ≤ u₃₂ * τ₃₂ := by positivity
    linarith

theorem fits32_iff {x : ℚ} : (.fin x : Fl (b64Of libm)).fits32 = true ↔ |x| < 34 * 10 ^ 37 := by
  rw [Fl.fits32, decide_eq_true_eq, abs_lt]

theorem cast32_idem (x : Fl (b64Of libm)) : x.cast32.cast32 = x.cast32 := by
  cases x with
  | fin q =>
    show Fl.cast32 (Fl.ofExt (rndBin 24 (-126) 127 q)) = Fl.ofExt (rndBin 24 (-126) 127 q)
    cases h : rndBin 24 (-126) 127 q with
    | val y => exact cast32_val (single_fix h).1
    | _ => rfl
  | _ => rfl

theorem dubinsAcceleration_double {v d w : ℚ} {vel : Vec (b64Of libm)} {i : ℕ} (hv0 : τ₃₂ ≤ |v|) (hd : |d| ≤ 2 ^ 500)
    (hsd : 2 ^ 125 < |d| → 34 * 10 ^ 37 ≤ |v| ∨ 34 * 10 ^ 37 ≤ |d|) (hw : |w| ≤ 2 * |v|) (hi : vel[i]? = some (.fin w)) :
    ∃ a, (dubinsAcceleration (.fin d) (.fin v) vel)[i]? = some (.fin a) ∧ |a - d * (w / v)| ≤ 8 * u₃₂ * |d * (w / v)| + 8 * u₃₂ * τ₃₂ * (|d| + 1) := by
  have hρ : |w / v| ≤ 2 := by rwa [abs_div, div_le_iff₀ (tau32_le.2.trans_le hv0)]
  unfold dubinsAcceleration scalarOp
  by_cases hv : |v| < 34 * 10 ^ 37
  · obtain ⟨q, c, hq⟩ := direction_single (libm := libm) hv0 hv.le hw
    by_cases hdf : |d| < 34 * 10 ^ 37
    · have hd' : |d| ≤ 2 ^ 125 := by
        by_contra h
        rcases hsd (not_le.1 h) with h | h <;> linarith
      obtain ⟨a, c', ha⟩ := along_single (libm := libm) hd' hρ hq
      exact ⟨a, by simp [fits32_iff.2 hv, fits32_iff.2 hdf, hi, c, c'], ha⟩
    · obtain ⟨a, c', ha⟩ := along_double (libm := libm) hd hρ hq
      exact ⟨a, by simp [fits32_iff.2 hv, mt fits32_iff.1 hdf, hi, c, c'], ha⟩
  · obtain ⟨q, c, hq⟩ := direction_double (libm := libm) hv0 hw
    obtain ⟨a, c', ha⟩ := along_double (libm := libm) hd hρ hq
    exact ⟨a, by simp [mt fits32_iff.1 hv, hi, c, c'], ha⟩

theorem dubinsAcceleration_single {v d : ℚ} (hv : |v| < 34 * 10 ^ 37) (hd : |d| < 34 * 10 ^ 37) (vel : Vec (b64Of libm)) :
    ∀ a ∈ dubinsAcceleration (.fin d) (.fin v) vel, a.cast32 = a := by
  intro a ha
  unfold dubinsAcceleration scalarOp at ha
  simp only [fits32_iff.2 hv, fits32_iff.2 hd, and_self, if_true, List.mem_map] at ha
  obtain ⟨x, -, rfl⟩ := ha
  exact cast32_idem _

/-- a product of three numbers in double precision, cast to single precision -/
theorem triple_single {v c g V : ℚ} (hV : 0 ≤ V) (hv : V ≤ 2 ^ 120) (h1 : |v * c| ≤ 2 * V) (hg : |g| ≤ 2) :
    ∃ w, ((.fin v * .fin c * .fin g : Fl (b64Of libm)).cast32) = .fin w ∧ |w - v * c * g| ≤ 5 * u₃₂ * V + 2 * u₃₂ * τ₃₂ := by
  obtain ⟨t1, t2⟩ := tau32_le
  have hu : (0 : ℚ) < u₃₂ := by positivity
  have hu' : u₃₂ ≤ 1 / 1000000 := by norm_num
  have b121 : 2 * V ≤ 2 ^ 121 := (mul_le_mul_of_nonneg_left hv (by norm_num)).trans (by norm_num)
  obtain ⟨p, c1, e1⟩ := double_near (libm := libm) (x := v * c) ((h1.trans b121).trans (by decide +kernel))
  have e1' : |p - v * c| ≤ u₃₂ / 1000 * (2 * V + τ₃₂) := e1.trans (mul_le_mul_of_nonneg_left (add_le_add h1 le_rfl) (by positivity))
  have hp : |p| ≤ 2 ^ 122 := by
    have a1 := abs_sub_abs_le_abs_sub p (v * c)
    have a2 : u₃₂ / 1000 * (2 * V + τ₃₂) ≤ 1 / 2 * (2 ^ 121 + 1 / 1000) := mul_le_mul (by norm_num) (add_le_add b121 t1) (by positivity) (by norm_num)
    have a3 := h1.trans b121
    have : |p| ≤ 2 ^ 121 + 2 ^ 121 := by linarith only [a1, e1', a2, a3, show (1 / 2 * (2 ^ 121 + 1 / 1000) : ℚ) ≤ 2 ^ 121 by norm_num]
    exact this.trans (by norm_num)
  have hpg : |p * g| ≤ 2 ^ 123 := by
    rw [abs_mul]; exact (mul_le_mul hp hg (abs_nonneg _) (by positivity)).trans (by norm_num)
  obtain ⟨r, c2, e2⟩ := double_near (libm := libm) (x := p * g) (hpg.trans (by decide +kernel))
  have e3 : |p * g - v * c * g| ≤ u₃₂ / 1000 * (4 * V + 2 * τ₃₂) := by
    rw [← sub_mul, abs_mul]
    have := mul_le_mul e1' hg (abs_nonneg _) (by positivity)
    linarith
  have e4 := round_err (by positivity) e2 e3
  have h4 : |v * c * g| ≤ 4 * V := by rw [abs_mul]; have := mul_le_mul h1 hg (abs_nonneg _) (by positivity); linarith
  have hr : |r| ≤ 34 * 10 ^ 37 := by
    have a1 := abs_sub_abs_le_abs_sub r (p * g)
    have a2 : u₃₂ / 1000 * (|p * g| + τ₃₂) ≤ 1 / 2 * (2 ^ 123 + 1 / 1000) := mul_le_mul (by norm_num) (add_le_add hpg t1) (by positivity) (by norm_num)
    have : |r| ≤ 2 ^ 123 + 2 ^ 123 := by linarith only [a1, e2, a2, hpg, show (1 / 2 * (2 ^ 123 + 1 / 1000) : ℚ) ≤ 2 ^ 123 by norm_num]
    exact this.trans (by norm_num)
  obtain ⟨w, c3, -, e5⟩ := single_near_fit (libm := libm) hr
  have e6 := round_err hu.le e5 e4
  refine ⟨w, ?_, e6.trans ?_⟩
  · show Fl.cast32 (Fl.mul (Fl.round _) _) = _
    rw [c1]
    show Fl.cast32 (Fl.round _) = _
    rw [c2, c3]
  · generalize u₃₂ = u at *
    generalize τ₃₂ = τ at *
    generalize |v * c * g| = X at *
    have b1 : 0 ≤ u * V := by positivity
    have b2 : 0 ≤ u * τ := by positivity
    have b3 : u * X ≤ 4 * (u * V) := by have := mul_le_mul_of_nonneg_left h4 hu.le; linarith
    have a1 : u * (u * V) ≤ 1 / 1000000 * (u * V) := mul_le_mul_of_nonneg_right hu' b1
    have a2 : u * (u * τ) ≤ 1 / 1000000 * (u * τ) := mul_le_mul_of_nonneg_right hu' b2
    have a3 : u * (u * (u * V)) ≤ 1 / 1000000 * (u * (u * V)) := mul_le_mul_of_nonneg_right hu' (by positivity)
    have a4 : u * (u * (u * τ)) ≤ 1 / 1000000 * (u * (u * τ)) := mul_le_mul_of_nonneg_right hu' (by positivity)
    have a5 : u * (u * X) ≤ 4 * (u * (u * V)) := by have := mul_le_mul_of_nonneg_left b3 hu.le; linarith
    nlinarith

theorem trig_product {δ C G : ℝ} {c g : ℚ} (hδ0 : 0 ≤ δ) (hδ : δ ≤ 1) (hC : |C| ≤ 1) (hG : |G| ≤ 1) (hc : |(c : ℝ) - C| ≤ δ) (hg : |(g : ℝ) - G| ≤ δ) :
    |c| ≤ 2 ∧ |g| ≤ 2 ∧ |(c : ℝ) * g - C * G| ≤ 3 * δ := by
  have h1 : |(c : ℝ)| ≤ 1 + δ := by have := abs_sub_abs_le_abs_sub (c : ℝ) C; linarith
  have h2 : |(g : ℝ)| ≤ 1 + δ := by have := abs_sub_abs_le_abs_sub (g : ℝ) G; linarith
  refine ⟨by exact_mod_cast (show |(c : ℝ)| ≤ 2 by linarith), by exact_mod_cast (show |(g : ℝ)| ≤ 2 by linarith), ?_⟩
  have : (c : ℝ) * g - C * G = (c - C) * g + C * (g - G) := by ring
  rw [this]
  refine (abs_add_le _ _).trans ?_
  rw [abs_mul, abs_mul]
  have e1 := mul_le_mul hc h2 (abs_nonneg _) hδ0
  have e2 := mul_le_mul hC hg (abs_nonneg _) (by norm_num)
  nlinarith

/-- the three components of the velocity -/
theorem dubinsVelocity_single {δ : ℝ} (hlibm : Trig libm δ) (hδ : δ ≤ 1) {v h g : ℚ} (hv : |v| ≤ 2 ^ 120) (hh : |h| ≤ 4) (hg : |g| ≤ 4) :
    ∃ w : Fin 3 → ℚ, dubinsVelocity (.fin v) (.fin h) (.fin g) = (toFl w : Vec (b64Of libm)) ∧
      ∀ i, |(w i : ℝ) - along (v : ℝ) h g i| ≤ |(v : ℝ)| * (2⁻¹ ^ 21 + 3 * δ) + 2⁻¹ ^ 149 := by
  have hδ0 : 0 ≤ δ := (abs_nonneg _).trans (hlibm 0 (by norm_num)).1
  obtain ⟨sh, ch⟩ := hlibm h hh
  obtain ⟨sg, cg⟩ := hlibm g hg
  have key : ∀ (a b c m n : ℚ) (C G : ℝ), a * b = m * n → |m| = |v| → |C| ≤ 1 → |G| ≤ 1 → |(n : ℝ) - C| ≤ δ → |(c : ℝ) - G| ≤ δ →
      ∃ w : ℚ, ((.fin a * .fin b * .fin c : Fl (b64Of libm)).cast32) = .fin w ∧ |(w : ℝ) - m * C * G| ≤ |(v : ℝ)| * (2⁻¹ ^ 21 + 3 * δ) + 2⁻¹ ^ 149 := by
    intro a b c m n C G hab hm hC hG hb hc
    obtain ⟨h1, h2, h3⟩ := trig_product hδ0 hδ hC hG hb hc
    obtain ⟨w, e1, e2⟩ := triple_single (libm := libm) (v := a) (c := b) (V := |v|) (abs_nonneg _) hv
      (by rw [hab, abs_mul, hm]; have := mul_le_mul_of_nonneg_left h1 (abs_nonneg v); linarith) h2
    refine ⟨w, e1, ?_⟩
    rw [hab] at e2
    have e3 : |(w : ℝ) - m * n * c| ≤ 5 * 2⁻¹ ^ 24 * |(v : ℝ)| + 2 * 2⁻¹ ^ 24 * 2 ^ (-126 : ℤ) := by
      have := (Rat.cast_le (K := ℝ)).2 e2
      push_cast at this
      exact this
    have hm' : |(m : ℝ)| = |(v : ℝ)| := by exact_mod_cast congrArg (Rat.cast (K := ℝ)) hm
    have e4 : |(m : ℝ) * n * c - m * C * G| ≤ |(v : ℝ)| * (3 * δ) := by
      rw [mul_assoc, mul_assoc, ← mul_sub, abs_mul, hm']
      exact mul_le_mul_of_nonneg_left h3 (abs_nonneg _)
    have e5 := abs_sub_le (w : ℝ) (m * n * c) (m * C * G)
    have e6 : (2 : ℝ) * 2⁻¹ ^ 24 * 2 ^ (-126 : ℤ) ≤ 2⁻¹ ^ 149 := by norm_num
    have e7 : (5 : ℝ) * 2⁻¹ ^ 24 * |(v : ℝ)| ≤ |(v : ℝ)| * 2⁻¹ ^ 21 := by
      rw [mul_comm]
      exact mul_le_mul_of_nonneg_left (by norm_num) (abs_nonneg _)
    linarith
  have cs : ∀ x : ℝ, |Real.cos x| ≤ 1 := Real.abs_cos_le_one
  have sn : ∀ x : ℝ, |Real.sin x| ≤ 1 := Real.abs_sin_le_one
  obtain ⟨w0, e0, b0⟩ := key v (libm.cos h) (libm.cos g) v (libm.cos h) _ _ rfl rfl (cs h) (cs g) ch cg
  obtain ⟨w1, e1, b1⟩ := key v (libm.sin h) (libm.cos g) v (libm.sin h) _ _ rfl rfl (sn h) (cs g) sh cg
  obtain ⟨w2, e2, b2⟩ := key (-1) v (libm.sin g) (-v) 1 1 _ (by ring) (abs_neg v) (by norm_num) (sn g) (by simpa using hδ0) sg
  have n1 : (-1 : Fl (b64Of libm)) = .fin (-1) := by
    have : (1 : Fl (b64Of libm)) = .fin 1 := rfl
    rw [this]; rfl
  refine ⟨![w0, w1, w2], ?_, ?_⟩
  · unfold dubinsVelocity
    rw [n1, List.map_cons, List.map_cons, List.map_cons, List.map_nil]
    show _ = [(.fin w0 : Fl (b64Of libm)), .fin w1, .fin w2]
    exact congrArg₂ _ e0 (congrArg₂ _ e1 (congrArg₂ _ e2 rfl))
  · intro i
    fin_cases i
    · simpa [along] using b0
    · simpa [along] using b1
    · simpa [along] using b2

/-! ## The velocity -/

/-- 2d: the components are within `|v| (2^-21 + 3 δ) + 2^-149` of `v (cos h, sin h, 0)`. -/
theorem C47_single_2d {δ : ℝ} (hlibm : Trig libm δ) (hδ : δ ≤ 1) (e : Entity (b64Of libm)) (x y : Fl (b64Of libm)) (h v : ℚ)
    (hs : e.state = [x, y, .fin h, .fin v]) (hv : |v| ≤ 2 ^ 120) (hh : |h| ≤ 4) :
    ∃ w : Fin 3 → ℚ, dubins2dVelocity e = .ok (toFl w) ∧
      |(w 0 : ℝ) - v * Real.cos h| ≤ |(v : ℝ)| * (2⁻¹ ^ 21 + 3 * δ) + 2⁻¹ ^ 149 ∧
      |(w 1 : ℝ) - v * Real.sin h| ≤ |(v : ℝ)| * (2⁻¹ ^ 21 + 3 * δ) + 2⁻¹ ^ 149 ∧
      |(w 2 : ℝ)| ≤ |(v : ℝ)| * (2⁻¹ ^ 21 + 3 * δ) + 2⁻¹ ^ 149 := by
  have n0 : (0 : Fl (b64Of libm)) = .fin 0 := rfl
  obtain ⟨w, e1, e2⟩ := dubinsVelocity_single hlibm hδ hv hh (show |(0 : ℚ)| ≤ 4 by norm_num)
  refine ⟨w, ?_, by simpa [along] using e2 0, by simpa [along] using e2 1, by simpa [along] using e2 2⟩
  unfold dubins2dVelocity
  rw [hs, n0]
  exact congrArg _ e1

/-- 3d: the components are within `|v| (2^-21 + 3 δ) + 2^-149` of `v (cos h cos g, sin h cos g, -sin g)`. -/
theorem C47_single_3d {δ : ℝ} (hlibm : Trig libm δ) (hδ : δ ≤ 1) (e : Entity (b64Of libm)) (x y z r : Fl (b64Of libm)) (h g v : ℚ)
    (hs : e.state = [x, y, z, .fin h, .fin g, r, .fin v]) (hv : |v| ≤ 2 ^ 120) (hh : |h| ≤ 4) (hg : |g| ≤ 4) :
    ∃ w : Fin 3 → ℚ, dubins3dVelocity e = .ok (toFl w) ∧
      |(w 0 : ℝ) - v * Real.cos h * Real.cos g| ≤ |(v : ℝ)| * (2⁻¹ ^ 21 + 3 * δ) + 2⁻¹ ^ 149 ∧
      |(w 1 : ℝ) - v * Real.sin h * Real.cos g| ≤ |(v : ℝ)| * (2⁻¹ ^ 21 + 3 * δ) + 2⁻¹ ^ 149 ∧
      |(w 2 : ℝ) - -(v * Real.sin g)| ≤ |(v : ℝ)| * (2⁻¹ ^ 21 + 3 * δ) + 2⁻¹ ^ 149 := by
  obtain ⟨w, e1, e2⟩ := dubinsVelocity_single hlibm hδ hv hh hg
  refine ⟨w, ?_, by simpa [along] using e2 0, by simpa [along] using e2 1, by simpa [along] using e2 2⟩
  unfold dubins3dVelocity
  rw [hs]
  exact congrArg _ e1

/-! ## The acceleration against the reported velocity -/

/-- 2d: each component `a` is `d w / v`, for the rate of the speed `d` and the reported component `w`, up to rounding in single precision:
to `2^-21` of its size and, near zero, `2^-147 (|d| + 1)`. It is so however fast the aircraft and however large the rate: NumPy turns to double
precision where the speed or the rate is not a number of single precision. Where both are, the components are in single precision. -/
theorem C52_single_2d (e : Entity (b64Of libm)) (x y h d0 d1 d2 : Fl (b64Of libm)) (v d : ℚ) (hs : e.state = [x, y, h, .fin v])
    (hd : e.stateDot = [d0, d1, d2, .fin d]) (vel : Vec (b64Of libm)) (hvel : dubins2dVelocity e = .ok vel) :
    ∃ acc, dubins2dAcceleration e = .ok acc ∧
      (∀ (i : ℕ) (w : ℚ), vel[i]? = some (.fin w) → |w| ≤ 2 * |v| → 2 ^ (-126 : ℤ) ≤ |v| → |d| ≤ 2 ^ 500 →
        (2 ^ 125 < |d| → 34 * 10 ^ 37 ≤ |v| ∨ 34 * 10 ^ 37 ≤ |d|) →
        ∃ a, acc[i]? = some (.fin a) ∧ |a - d * (w / v)| ≤ 8 * 2⁻¹ ^ 24 * |d * (w / v)| + 8 * 2⁻¹ ^ 24 * 2 ^ (-126 : ℤ) * (|d| + 1)) ∧
      (|v| < 34 * 10 ^ 37 → |d| < 34 * 10 ^ 37 → ∀ a ∈ acc, a.cast32 = a) := by
  refine ⟨dubinsAcceleration (.fin d) (.fin v) vel, ?_, fun i w hi hw hv0 hd1 hd2 => dubinsAcceleration_double hv0 hd1 hd2 hw hi,
    fun h1 h2 => dubinsAcceleration_single h1 h2 vel⟩
  unfold dubins2dAcceleration
  rw [hvel, hs, hd]
  rfl

/-- 3d: the same -/
theorem C52_single_3d (e : Entity (b64Of libm)) (x y z h g r d0 d1 d2 d3 d4 d5 : Fl (b64Of libm)) (v d : ℚ) (hs : e.state = [x, y, z, h, g, r, .fin v])
    (hd : e.stateDot = [d0, d1, d2, d3, d4, d5, .fin d]) (vel : Vec (b64Of libm)) (hvel : dubins3dVelocity e = .ok vel) :
    ∃ acc, dubins3dAcceleration e = .ok acc ∧
      (∀ (i : ℕ) (w : ℚ), vel[i]? = some (.fin w) → |w| ≤ 2 * |v| → 2 ^ (-126 : ℤ) ≤ |v| → |d| ≤ 2 ^ 500 →
        (2 ^ 125 < |d| → 34 * 10 ^ 37 ≤ |v| ∨ 34 * 10 ^ 37 ≤ |d|) →
        ∃ a, acc[i]? = some (.fin a) ∧ |a - d * (w / v)| ≤ 8 * 2⁻¹ ^ 24 * |d * (w / v)| + 8 * 2⁻¹ ^ 24 * 2 ^ (-126 : ℤ) * (|d| + 1)) ∧
      (|v| < 34 * 10 ^ 37 → |d| < 34 * 10 ^ 37 → ∀ a ∈ acc, a.cast32 = a) := by
  refine ⟨dubinsAcceleration (.fin d) (.fin v) vel, ?_, fun i w hi hw hv0 hd1 hd2 => dubinsAcceleration_double hv0 hd1 hd2 hw hi,
    fun h1 h2 => dubinsAcceleration_single h1 h2 vel⟩
  unfold dubins3dAcceleration
  rw [hvel, hs, hd]
  rfl

/-! ## The acceleration against the direction of flight -/

theorem dubinsAcceleration64_length (d v : Fl (b64Of libm)) (vel : Vec (b64Of libm)) : (dubinsAcceleration d v vel).length = vel.length := by
  unfold dubinsAcceleration scalarOp
  dsimp only
  split_ifs <;> simp

theorem three {l : Vec (b64Of libm)} {w : Fin 3 → ℚ} {a0 a1 a2 : ℚ} (hl : l.length = (toFl w : Vec (b64Of libm)).length) (h0 : l[0]? = some (.fin a0))
    (h1 : l[1]? = some (.fin a1)) (h2 : l[2]? = some (.fin a2)) : l = toFl ![a0, a1, a2] := by
  rw [toFl, List.length_ofFn] at hl
  match l, hl with
  | [b0, b1, b2], _ =>
    cases h0; cases h1; cases h2
    rfl

theorem dubinsAcceleration_along {δ : ℝ} (hδ : δ ≤ 1 / 8) {v d w : ℚ} {W : ℝ} {vel : Vec (b64Of libm)} {i : ℕ} (hv0 : τ₃₂ ≤ |v|) (hd : |d| ≤ 2 ^ 125)
    (hi : vel[i]? = some (.fin w)) (hW : |W| ≤ 1) (hw : |(w : ℝ) - v * W| ≤ |(v : ℝ)| * (2⁻¹ ^ 21 + 3 * δ) + 2⁻¹ ^ 149) :
    ∃ a : ℚ, (dubinsAcceleration (.fin d) (.fin v) vel)[i]? = some (.fin a) ∧ |(a : ℝ) - d * W| ≤ |(d : ℝ)| * (2⁻¹ ^ 19 + 3 * δ) + 2⁻¹ ^ 146 := by
  have hv0' : (2 : ℝ) ^ (-126 : ℤ) ≤ |(v : ℝ)| := by
    have := (Rat.cast_le (K := ℝ)).2 hv0
    push_cast at this
    exact this
  have hvp : 0 < |(v : ℝ)| := lt_of_lt_of_le (by positivity) hv0'
  have hvn : (v : ℝ) ≠ 0 := abs_pos.1 hvp
  have small : (2⁻¹ : ℝ) ^ 149 ≤ |(v : ℝ)| * 2⁻¹ ^ 23 := le_trans (by norm_num) (mul_le_mul_of_nonneg_right hv0' (by positivity))
  have hw' : |(w : ℝ) - v * W| ≤ |(v : ℝ)| * (2⁻¹ ^ 21 + 2⁻¹ ^ 23 + 3 * δ) := by linarith
  have hq : |(w : ℝ) / v - W| ≤ 2⁻¹ ^ 21 + 2⁻¹ ^ 23 + 3 * δ := by
    have : (w : ℝ) / v - W = (w - v * W) / v := by field_simp
    rw [this, abs_div, div_le_iff₀ hvp]
    linarith
  have hq2 : |(w : ℝ) / v| ≤ 3 / 2 := by
    have := abs_sub_abs_le_abs_sub ((w : ℝ) / v) W
    have : (2⁻¹ : ℝ) ^ 21 + 2⁻¹ ^ 23 ≤ 1 / 8 := by norm_num
    linarith
  have hwv : |w| ≤ 2 * |v| := by
    have : |(w : ℝ)| ≤ 2 * |(v : ℝ)| := by
      rw [abs_div, div_le_iff₀ hvp] at hq2
      linarith
    exact_mod_cast this
  obtain ⟨a, e1, e2⟩ := dubinsAcceleration_double (libm := libm) hv0 (hd.trans (by decide +kernel)) (fun h => absurd hd h.not_ge) hwv hi
  refine ⟨a, e1, ?_⟩
  have e3 : |(a : ℝ) - d * (w / v)| ≤ 8 * 2⁻¹ ^ 24 * |(d : ℝ) * (w / v)| + 8 * 2⁻¹ ^ 24 * 2 ^ (-126 : ℤ) * (|(d : ℝ)| + 1) := by
    have := (Rat.cast_le (K := ℝ)).2 e2
    push_cast at this
    exact this
  have e4 : |(d : ℝ) * (w / v) - d * W| ≤ |(d : ℝ)| * (2⁻¹ ^ 21 + 2⁻¹ ^ 23 + 3 * δ) := by
    rw [← mul_sub, abs_mul]
    exact mul_le_mul_of_nonneg_left hq (abs_nonneg _)
  have e5 : |(d : ℝ) * (w / v)| ≤ |(d : ℝ)| * (3 / 2) := by
    rw [abs_mul]
    exact mul_le_mul_of_nonneg_left hq2 (abs_nonneg _)
  have e6 : 8 * 2⁻¹ ^ 24 * |(d : ℝ) * (w / v)| ≤ 8 * 2⁻¹ ^ 24 * (|(d : ℝ)| * (3 / 2)) := mul_le_mul_of_nonneg_left e5 (by positivity)
  have e7 := abs_sub_le (a : ℝ) (d * (w / v)) (d * W)
  have hD := abs_nonneg (d : ℝ)
  have e8 : |(d : ℝ)| * (8 * 2⁻¹ ^ 24 * (3 / 2) + 8 * 2⁻¹ ^ 24 * 2 ^ (-126 : ℤ) + (2⁻¹ ^ 21 + 2⁻¹ ^ 23)) ≤ |(d : ℝ)| * 2⁻¹ ^ 19 :=
    mul_le_mul_of_nonneg_left (by norm_num) hD
  have e9 : (8 : ℝ) * 2⁻¹ ^ 24 * 2 ^ (-126 : ℤ) ≤ 2⁻¹ ^ 146 := by norm_num
  generalize (2 : ℝ) ^ (-126 : ℤ) = τ at *
  generalize (2⁻¹ : ℝ) ^ 146 = τ' at *
  linarith

/-- 2d: the reported acceleration is within `|d| (2^-19 + 3 δ) + 2^-146` of `d (cos h, sin h, 0)`. -/
theorem C52_along_2d {δ : ℝ} (hlibm : Trig libm δ) (hδ : δ ≤ 1 / 8) (e : Entity (b64Of libm)) (x y d0 d1 d2 : Fl (b64Of libm)) (h v d : ℚ)
    (hs : e.state = [x, y, .fin h, .fin v]) (hd : e.stateDot = [d0, d1, d2, .fin d]) (hh : |h| ≤ 4) (hv0 : 2 ^ (-126 : ℤ) ≤ |v|) (hv : |v| ≤ 2 ^ 120)
    (hd1 : |d| ≤ 2 ^ 125) :
    ∃ a : Fin 3 → ℚ, dubins2dAcceleration e = .ok (toFl a) ∧
      |(a 0 : ℝ) - d * Real.cos h| ≤ |(d : ℝ)| * (2⁻¹ ^ 19 + 3 * δ) + 2⁻¹ ^ 146 ∧
      |(a 1 : ℝ) - d * Real.sin h| ≤ |(d : ℝ)| * (2⁻¹ ^ 19 + 3 * δ) + 2⁻¹ ^ 146 ∧
      |(a 2 : ℝ)| ≤ |(d : ℝ)| * (2⁻¹ ^ 19 + 3 * δ) + 2⁻¹ ^ 146 := by
  obtain ⟨w, e1, b0, b1, b2⟩ := C47_single_2d hlibm (by linarith) e x y h v hs hv hh
  obtain ⟨a0, c0, f0⟩ := dubinsAcceleration_along (vel := toFl w) (i := 0) hδ hv0 hd1 rfl (Real.abs_cos_le_one h) b0
  obtain ⟨a1, c1, f1⟩ := dubinsAcceleration_along (vel := toFl w) (i := 1) hδ hv0 hd1 rfl (Real.abs_sin_le_one h) b1
  obtain ⟨a2, c2, f2⟩ := dubinsAcceleration_along (vel := toFl w) (i := 2) hδ hv0 hd1 rfl (show |(0 : ℝ)| ≤ 1 by norm_num) (by simpa using b2)
  refine ⟨![a0, a1, a2], ?_, f0, f1, by simpa using f2⟩
  unfold dubins2dAcceleration
  rw [e1, hs, hd]
  exact congrArg Except.ok (three (dubinsAcceleration64_length _ _ _) c0 c1 c2)

/-- 3d: the reported acceleration is within `|d| (2^-19 + 3 δ) + 2^-146` of `d (cos h cos g, sin h cos g, -sin g)`. -/
theorem C52_along_3d {δ : ℝ} (hlibm : Trig libm δ) (hδ : δ ≤ 1 / 8) (e : Entity (b64Of libm)) (x y z r d0 d1 d2 d3 d4 d5 : Fl (b64Of libm))
    (h g v d : ℚ) (hs : e.state = [x, y, z, .fin h, .fin g, r, .fin v]) (hd : e.stateDot = [d0, d1, d2, d3, d4, d5, .fin d]) (hh : |h| ≤ 4) (hg : |g| ≤ 4)
    (hv0 : 2 ^ (-126 : ℤ) ≤ |v|) (hv : |v| ≤ 2 ^ 120) (hd1 : |d| ≤ 2 ^ 125) :
    ∃ a : Fin 3 → ℚ, dubins3dAcceleration e = .ok (toFl a) ∧
      |(a 0 : ℝ) - d * (Real.cos h * Real.cos g)| ≤ |(d : ℝ)| * (2⁻¹ ^ 19 + 3 * δ) + 2⁻¹ ^ 146 ∧
      |(a 1 : ℝ) - d * (Real.sin h * Real.cos g)| ≤ |(d : ℝ)| * (2⁻¹ ^ 19 + 3 * δ) + 2⁻¹ ^ 146 ∧
      |(a 2 : ℝ) - d * -Real.sin g| ≤ |(d : ℝ)| * (2⁻¹ ^ 19 + 3 * δ) + 2⁻¹ ^ 146 := by
  have hprod : ∀ a b : ℝ, |a| ≤ 1 → |b| ≤ 1 → |a * b| ≤ 1 := fun a b ha hb => by
    rw [abs_mul]; exact mul_le_one₀ ha (abs_nonneg _) hb
  obtain ⟨w, e1, b0, b1, b2⟩ := C47_single_3d hlibm (by linarith) e x y z r h g v hs hv hh hg
  obtain ⟨a0, c0, f0⟩ := dubinsAcceleration_along (vel := toFl w) (i := 0) hδ hv0 hd1 rfl
    (hprod _ _ (Real.abs_cos_le_one h) (Real.abs_cos_le_one g)) (by rwa [← mul_assoc])
  obtain ⟨a1, c1, f1⟩ := dubinsAcceleration_along (vel := toFl w) (i := 1) hδ hv0 hd1 rfl
    (hprod _ _ (Real.abs_sin_le_one h) (Real.abs_cos_le_one g)) (by rwa [← mul_assoc])
  obtain ⟨a2, c2, f2⟩ := dubinsAcceleration_along (vel := toFl w) (i := 2) hδ hv0 hd1 rfl (W := -Real.sin g) (by rw [abs_neg]; exact Real.abs_sin_le_one g)
    (by rwa [mul_neg])
  refine ⟨![a0, a1, a2], ?_, f0, f1, f2⟩
  unfold dubins3dAcceleration
  rw [e1, hs, hd]
  exact congrArg Except.ok (three (dubinsAcceleration64_length _ _ _) c0 c1 c2)

/-! ## Cases that meet the hypotheses -/

/-- an aircraft at 300 ft/s, heading 1 radian, gaining 5 ft/s each second: velocity and acceleration to a thousandth and to a ten thousandth -/
example : ∃ (libm : Fmt ℚ) (e : Entity (b64Of libm)) (w a : Fin 3 → ℚ), dubins2dVelocity e = .ok (toFl w) ∧ dubins2dAcceleration e = .ok (toFl a) ∧
    |(w 0 : ℝ) - 300 * Real.cos 1| ≤ 1 / 1000 ∧ |(a 1 : ℝ) - 5 * Real.sin 1| ≤ 1 / 10000 := by
  obtain ⟨libm, hlibm⟩ := Demo.accurate (2⁻¹ ^ 50) (by positivity)
  obtain ⟨e0, -⟩ : ∃ e0 : Entity (b64Of libm), newDubins2d (R := b64Of libm) (rkEnv dopri (fun _ _ _ => [])) {
      headingRateMin := .fin (-1), headingRateMax := .fin 1, accMin := .fin (-96), accMax := .fin 96
      integrationMethod := "Euler", trajectorySamples := some 0, vMin := .fin 200, vMax := .fin 400, kwargs := [("name", .str "a"), ("heading", .num (.fin 1))] }
        = .ok e0 := ⟨_, rfl⟩
  obtain ⟨e, he⟩ : ∃ e : Entity (b64Of libm), e = { e0 with state := [.fin 0, .fin 0, .fin 1, .fin 300], stateDot := [.fin 0, .fin 0, .fin 0, .fin 5] } := ⟨_, rfl⟩
  have hs : e.state = [.fin 0, .fin 0, .fin 1, .fin 300] := by rw [he]
  have hd : e.stateDot = [.fin 0, .fin 0, .fin 0, .fin 5] := by rw [he]
  obtain ⟨w, e1, b0, -⟩ := C47_single_2d hlibm (by norm_num) e _ _ 1 300 hs (by norm_num) (by norm_num)
  obtain ⟨a, e2, -, b1, -⟩ := C52_along_2d hlibm (by norm_num) e _ _ _ _ _ 1 300 5 hs hd (by norm_num) (by norm_num) (by norm_num) (by norm_num)
  refine ⟨libm, e, w, a, e1, e2, ?_, ?_⟩
  · push_cast at b0; exact b0.trans (by norm_num)
  · push_cast at b1; exact b1.trans (by norm_num)

/-- in three dimensions: climbing at half a radian -/
example : ∃ (libm : Fmt ℚ) (e : Entity (b64Of libm)) (w a : Fin 3 → ℚ), dubins3dVelocity e = .ok (toFl w) ∧ dubins3dAcceleration e = .ok (toFl a) ∧
    |(w 2 : ℝ) - -(300 * Real.sin (1 / 2))| ≤ 1 / 1000 ∧ |(a 0 : ℝ) - 5 * (Real.cos 1 * Real.cos (1 / 2))| ≤ 1 / 10000 := by
  obtain ⟨libm, hlibm⟩ := Demo.accurate (2⁻¹ ^ 50) (by positivity)
  obtain ⟨e0, -⟩ : ∃ e0 : Entity (b64Of libm), newDubins2d (R := b64Of libm) (rkEnv dopri (fun _ _ _ => [])) {
      headingRateMin := .fin (-1), headingRateMax := .fin 1, accMin := .fin (-96), accMax := .fin 96
      integrationMethod := "Euler", trajectorySamples := some 0, vMin := .fin 200, vMax := .fin 400, kwargs := [("name", .str "a"), ("heading", .num (.fin 1))] }
        = .ok e0 := ⟨_, rfl⟩
  obtain ⟨e, he⟩ : ∃ e : Entity (b64Of libm), e = { e0 with
      state := [.fin 0, .fin 0, .fin 0, .fin 1, .fin (1 / 2), .fin 0, .fin 300], stateDot := [.fin 0, .fin 0, .fin 0, .fin 0, .fin 0, .fin 0, .fin 5] } := ⟨_, rfl⟩
  have hs : e.state = [.fin 0, .fin 0, .fin 0, .fin 1, .fin (1 / 2), .fin 0, .fin 300] := by rw [he]
  have hd : e.stateDot = [.fin 0, .fin 0, .fin 0, .fin 0, .fin 0, .fin 0, .fin 5] := by rw [he]
  obtain ⟨w, e1, -, -, b0⟩ := C47_single_3d hlibm (by norm_num) e _ _ _ _ 1 (1 / 2) 300 hs (by norm_num) (by norm_num) (by norm_num [abs_le])
  obtain ⟨a, e2, b1, -, -⟩ := C52_along_3d hlibm (by norm_num) e _ _ _ _ _ _ _ _ _ _ 1 (1 / 2) 300 5 hs hd (by norm_num) (by norm_num [abs_le]) (by norm_num) (by norm_num) (by norm_num)
  refine ⟨libm, e, w, a, e1, e2, ?_, ?_⟩
  · push_cast at b0; exact b0.trans (by norm_num)
  · push_cast at b1; exact b1.trans (by norm_num)

/-- a libm for which the cosine is a quarter -/
def Demo.quarter : Fmt ℚ := { ratFmt with cos := fun _ => 1 / 4 }

/-- at a speed beyond single precision, where NumPy divides in double precision -/
example : ∃ (e : Entity (b64Of Demo.quarter)) (acc : Vec (b64Of Demo.quarter)) (a w : ℚ), e.state = [0, 0, 0, .fin (10 ^ 39)] ∧
    dubins2dVelocity e = .ok [.fin w, 0, 0] ∧ dubins2dAcceleration e = .ok acc ∧ acc[0]? = some (.fin a) ∧ |a - 5 / 16| ≤ 10 ^ (-6 : ℤ) := by
  obtain ⟨e0, -⟩ : ∃ e0 : Entity (b64Of Demo.quarter), newDubins2d (R := b64Of Demo.quarter) (rkEnv dopri (fun _ _ _ => [])) {
      headingRateMin := .fin (-1), headingRateMax := .fin 1, accMin := .fin (-96), accMax := .fin 96
      integrationMethod := "Euler", trajectorySamples := some 0, vMin := .fin 200, vMax := .fin 400, kwargs := [("name", .str "a"), ("heading", .num (.fin 1))] }
        = .ok e0 := ⟨_, rfl⟩
  obtain ⟨e, he⟩ : ∃ e : Entity (b64Of Demo.quarter), e = { e0 with state := [0, 0, 0, .fin (10 ^ 39)], stateDot := [0, 0, 0, .fin 5] } := ⟨_, rfl⟩
  have hs : e.state = [0, 0, 0, .fin (10 ^ 39)] := by rw [he]
  have hd : e.stateDot = [0, 0, 0, .fin 5] := by rw [he]
  have hw : dubinsVelocity (.fin (10 ^ 39) : Fl (b64Of Demo.quarter)) 0 0 = [.fin 62500001804737378591348367470842871808, 0, 0] := by decide +kernel
  have hvel : dubins2dVelocity e = .ok [.fin 62500001804737378591348367470842871808, 0, 0] := by
    unfold dubins2dVelocity
    rw [hs]
    exact congrArg Except.ok hw
  obtain ⟨acc, e1, e2, -⟩ := C52_single_2d e _ _ _ _ _ _ _ _ hs hd _ hvel
  obtain ⟨a, e3, e4⟩ := e2 0 _ rfl (by decide +kernel) (by decide +kernel) (by decide +kernel) (by decide +kernel)
  refine ⟨e, acc, a, _, hs, hvel, e1, e3, (abs_sub_le a (5 * (62500001804737378591348367470842871808 / 10 ^ 39)) (5 / 16)).trans ?_⟩
  exact (add_le_add_left e4 _).trans (by decide +kernel)

end
end SAD
