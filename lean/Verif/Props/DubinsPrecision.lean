import Verif.Lemmas.RoundDubins
import Verif.Spec.Legs
import Verif.Props.Control
import Verif.Props.Precision
import Verif.Props.Damped
import Verif.Props.Turn

/-!
# C106: flights of the 2d aircraft in double precision
-/

set_option linter.unusedSectionVars false

namespace SAD
open Spec

theorem applied_config {K : Type} {R : Fmt K} [Field K] [LinearOrder K] [FloorRing K] {env : Env R} {e e' : Entity R} (hc : SameConfig e e') {a : Action R}
    {v : Vec R} : Applied env e' a v ↔ Applied env e a v := by
  obtain ⟨-, h2, h3, h4, h5, -⟩ := hc
  have : e'.resolve env a = e.resolve env a := by cases a <;> simp [Entity.resolve, h2, h5]
  rw [applied_iff, applied_iff, this, h3, h4]

section
variable {libm : Fmt ℚ}

theorem b64_pi_near : |((b64Of libm).pi : ℝ) - Real.pi| ≤ 2 * 2⁻¹ ^ 53 := by
  have h1 := Real.pi_gt_d20
  have h2 := Real.pi_lt_d20
  show |((884279719003555 / 281474976710656 : ℚ) : ℝ) - Real.pi| ≤ _
  push_cast
  rw [abs_le]
  constructor <;> norm_num at * <;> linarith

theorem position {x' x c c' T S G δ ε θ : ℝ} (hT : 0 ≤ T) (hε : 0 ≤ ε) (hθ : 0 ≤ θ) (hθG : 33 * θ ≤ G) (hc : |c - c'| ≤ S * δ)
    (hvc : |c| ≤ 2 * S) (hx : |x| ≤ 2 * G) (h : |x' - (x + T * c)| ≤ ε * (3 * |x| + 7 * (T * |c|) + 9 * θ)) :
    |x' - (x + T * c')| ≤ 7 * ε * G + T * (S * (δ + 14 * ε)) := by
  have e1 := abs_add_le (x' - (x + T * c)) (T * (c - c'))
  rw [show x' - (x + T * c) + T * (c - c') = x' - (x + T * c') by ring, abs_mul T, abs_of_nonneg hT] at e1
  have e2 : T * |c - c'| ≤ T * (S * δ) := mul_le_mul_of_nonneg_left hc hT
  have e3 : T * |c| ≤ T * (2 * S) := mul_le_mul_of_nonneg_left hvc hT
  have e4 : ε * (3 * |x| + 7 * (T * |c|) + 9 * θ) ≤ ε * (7 * G + 14 * (T * S)) := mul_le_mul_of_nonneg_left (by linarith) hε
  linarith

/-- one leg against exact arithmetic -/
theorem EulerFlyer.leg {d : Dyn (b64Of libm)} {lo hi : ℚ} (hd : EulerFlyer d lo hi) {δ : ℝ} (hδ : δ ≤ 1) (hlim : lo ≤ hi)
    (env : Env (b64Of libm)) {S G : ℝ} (hlo : |(lo : ℝ)| ≤ S) (hhi : |(hi : ℝ)| ≤ S) (hS1 : 2⁻¹ ^ 900 ≤ S) (hS2 : S ≤ 2 ^ 200) (hG1 : 2⁻¹ ^ 900 ≤ G)
    (hG2 : G ≤ 2 ^ 200) {T w a : ℚ} (hT : 0 ≤ T) (hT2 : T ≤ 2 ^ 100) (hw : |w| ≤ 2 ^ 200) (ha : |a| ≤ 2 ^ 200) {x y h v c s r0 r1 r2 r3 : ℚ} (hx : |(x : ℝ)| ≤ 2 * G)
    (hy : |(y : ℝ)| ≤ 2 * G) (hh : |h| ≤ 4) (hv : lo ≤ v) (hv' : v ≤ hi)
    (t2 : |(c : ℝ) - v * Real.cos h| ≤ S * δ) (t1 : |(s : ℝ) - v * Real.sin h| ≤ S * δ)
    (hr : d.rhs 0 [.fin x, .fin y, .fin h, .fin v] [.fin w, .fin a] = .ok [.fin r0, .fin r1, .fin r2, .fin r3])
    (b0 : |r0 - c| ≤ 3 * 2⁻¹ ^ 53 * (|c| + 2 * 2 ^ (-1022 : ℤ))) (b1 : |r1 - s| ≤ 3 * 2⁻¹ ^ 53 * (|s| + 2 * 2 ^ (-1022 : ℤ)))
    (b2 : |r2 - w| ≤ 6 * 2⁻¹ ^ 53 * (|w| + 5 * 2 ^ (-1022 : ℤ))) (b3 : |r3 - a| ≤ 6 * 2⁻¹ ^ 53 * (|a| + 5 * 2 ^ (-1022 : ℤ))) :
    ∃ (x' y' h' v' : ℚ) (k : ℤ) (sd : Vec (b64Of libm)),
      d.step env (.fin T) [.fin x, .fin y, .fin h, .fin v] [.fin w, .fin a] = (d, .ok ([.fin x', .fin y', .fin h', .fin v'], sd)) ∧
      |(x' : ℝ) - (x + T * (v * Real.cos h))| ≤ 7 * 2⁻¹ ^ 53 * G + T * (S * (δ + 14 * 2⁻¹ ^ 53)) ∧
      |(y' : ℝ) - (y + T * (v * Real.sin h))| ≤ 7 * 2⁻¹ ^ 53 * G + T * (S * (δ + 14 * 2⁻¹ ^ 53)) ∧
      |h'| ≤ 4 ∧ |(h' : ℝ) - (h + T * w + k * (2 * Real.pi))| ≤ 2⁻¹ ^ 53 * (90 + 20 * (T * |(w : ℝ)|)) ∧
      lo ≤ v' ∧ v' ≤ hi ∧ |(v' : ℝ) - min (max ((v : ℝ) + T * a) lo) hi| ≤ 2⁻¹ ^ 53 * (4 * S + 10 * (T * |(a : ℝ)|)) := by
  have hS0 : 0 ≤ S := (abs_nonneg _).trans hlo
  have hG0 : 0 ≤ G := le_trans (by positivity) hG1
  have hTr : (0 : ℝ) ≤ T := by exact_mod_cast hT
  have hvS : |(v : ℝ)| ≤ S := by
    have h1 : (lo : ℝ) ≤ v := by exact_mod_cast hv
    have h2 : (v : ℝ) ≤ hi := by exact_mod_cast hv'
    rw [abs_le] at *
    constructor <;> linarith
  have hvc : |(c : ℝ)| ≤ 2 * S := by
    have := abs_add_le ((c : ℝ) - v * Real.cos h) (v * Real.cos h)
    rw [sub_add_cancel, abs_mul] at this
    have h1 : |(v : ℝ)| * |Real.cos h| ≤ S * 1 := mul_le_mul hvS (Real.abs_cos_le_one _) (abs_nonneg _) hS0
    have h2 : S * δ ≤ S * 1 := mul_le_mul_of_nonneg_left hδ hS0
    linarith
  have hvs : |(s : ℝ)| ≤ 2 * S := by
    have := abs_add_le ((s : ℝ) - v * Real.sin h) (v * Real.sin h)
    rw [sub_add_cancel, abs_mul] at this
    have h1 : |(v : ℝ)| * |Real.sin h| ≤ S * 1 := mul_le_mul hvS (Real.abs_sin_le_one _) (abs_nonneg _) hS0
    have h2 : S * δ ≤ S * 1 := mul_le_mul_of_nonneg_left hδ hS0
    linarith
  have q : ∀ z : ℚ, ∀ n : ℕ, |(z : ℝ)| ≤ n → |z| ≤ n := fun z n hz => by exact_mod_cast hz
  have big : (2 : ℝ) * 2 ^ 200 ≤ ((2 ^ 201 : ℕ) : ℝ) := by push_cast; norm_num
  have hxq := q x (2 ^ 201) (hx.trans (le_trans (by linarith) big))
  have hyq := q y (2 ^ 201) (hy.trans (le_trans (by linarith) big))
  have hvq := q v (2 ^ 201) (hvS.trans (le_trans (by linarith) big))
  have hcq := q c (2 ^ 201) (by push_cast at *; exact hvc.trans (le_trans (by linarith) big))
  have hsq := q s (2 ^ 201) (by push_cast at *; exact hvs.trans (le_trans (by linarith) big))
  push_cast at hxq hyq hvq hcq hsq
  have hM : 100 * (|x| + |y| + |h| + |v| + (1 + T) * (|c| + |s| + |w| + |a|) + 10) ≤ 2 ^ (1023 : ℤ) := by
    have e1 : (1 + T) * (|c| + |s| + |w| + |a|) ≤ (1 + 2 ^ 100) * (2 ^ 201 + 2 ^ 201 + 2 ^ 200 + 2 ^ 200) :=
      mul_le_mul (by linarith) (add_le_add (add_le_add (add_le_add hcq hsq) hw) ha) (by positivity) (by norm_num)
    have e2 : 100 * (2 ^ 201 + 2 ^ 201 + 4 + 2 ^ 201 + (1 + 2 ^ 100) * (2 ^ 201 + 2 ^ 201 + 2 ^ 200 + 2 ^ 200) + 10) ≤ (2 : ℚ) ^ (1023 : ℤ) := by decide +kernel
    refine le_trans (mul_le_mul_of_nonneg_left ?_ (by norm_num)) e2
    exact add_le_add (add_le_add (add_le_add (add_le_add (add_le_add (hxq.trans (by norm_num)) (hyq.trans (by norm_num))) hh) (hvq.trans (by norm_num))) e1) le_rfl
  obtain ⟨x', y', h', v', k, sd, g1, g2, g3, g4, g5, g6, g7, g8, g9⟩ := hd.step (b64_rounds libm) (by norm_num) (by decide +kernel)
    (by show rndBin 53 (-1022) 1023 (2 * (884279719003555 / 281474976710656)) = .val (2 * (884279719003555 / 281474976710656)); decide +kernel)
    (by show (3 : ℚ) ≤ 884279719003555 / 281474976710656; norm_num) (by show (884279719003555 / 281474976710656 : ℚ) ≤ 16 / 5; norm_num) hlim env hT hv hv'
    (θ := 2⁻¹ ^ 910) (by
      have e : T * 2 ^ (-1022 : ℤ) ≤ 2 ^ 100 * 2 ^ (-1022 : ℤ) := mul_le_mul_of_nonneg_right hT2 (by positivity)
      have e2 : (2 : ℚ) ^ (-1022 : ℤ) + 2 ^ 100 * 2 ^ (-1022 : ℤ) ≤ 2⁻¹ ^ 910 := by decide +kernel
      linarith) (by decide +kernel) hM hr b0 b1 b2 b3
  -- to the reals
  have toR : ∀ p r : ℚ, p ≤ r → (p : ℝ) ≤ (r : ℝ) := fun p r => by exact_mod_cast id
  obtain ⟨ε, hε⟩ : ∃ ε : ℝ, ε = 2⁻¹ ^ 53 := ⟨_, rfl⟩
  obtain ⟨θ, hθ⟩ : ∃ θ : ℝ, θ = 2⁻¹ ^ 910 := ⟨_, rfl⟩
  have hε0 : 0 ≤ ε := by rw [hε]; positivity
  have hθ0 : 0 ≤ θ := by rw [hθ]; positivity
  have hθS : 33 * θ ≤ 2⁻¹ ^ 900 := by
    rw [hθ]
    have : (33 * 2⁻¹ ^ 910 : ℚ) ≤ 2⁻¹ ^ 900 := by decide +kernel
    have := toR _ _ this
    push_cast at this
    exact this
  have g2 := toR _ _ g2
  have g3 := toR _ _ g3
  have g5 := toR _ _ g5
  have g6 := toR _ _ g6
  have g9 := toR _ _ g9
  have hh' := toR _ _ hh
  have hpi := b64_pi_near (libm := libm)
  push_cast at g2 g3 g5 g6 g9 hh'
  rw [← hε] at hpi ⊢
  rw [← hε] at g2 g3 g5 g9
  rw [← hθ] at g2 g3 g9
  refine ⟨x', y', h', v', -k, sd, g1, ?_, ?_, g4, ?_, g7, g8, ?_⟩
  · exact position hTr hε0 hθ0 (by linarith) t2 hvc hx g2
  · exact position hTr hε0 hθ0 (by linarith) t1 hvs hy g3
  · have e1 := abs_add_le ((h' : ℝ) - (h + T * w - 2 * (b64Of libm).pi * k)) (2 * (k * (Real.pi - (b64Of libm).pi)))
    rw [show (h' : ℝ) - (h + T * w - 2 * (b64Of libm).pi * k) + 2 * (k * (Real.pi - (b64Of libm).pi)) = h' - (h + T * w + (-k : ℤ) * (2 * Real.pi)) by
      push_cast; ring, abs_mul 2, abs_mul (k : ℝ), abs_sub_comm Real.pi, abs_two] at e1
    have e2 : |(k : ℝ)| * |((b64Of libm).pi : ℝ) - Real.pi| ≤ (2 * |(h : ℝ)| + 2 * (T * |(w : ℝ)|) + 4) * (2 * ε) :=
      mul_le_mul g6 hpi (abs_nonneg _) (by positivity)
    refine e1.trans ?_
    have e3 : (2 * |(h : ℝ)| + 2 * (T * |(w : ℝ)|) + 4) * (2 * ε) ≤ (12 + 2 * (T * |(w : ℝ)|)) * (2 * ε) :=
      mul_le_mul_of_nonneg_right (by linarith) (by linarith)
    have e4 : ε * (5 * |(h : ℝ)| + 12 * (T * |(w : ℝ)|) + 21) ≤ ε * (41 + 12 * (T * |(w : ℝ)|)) := mul_le_mul_of_nonneg_left (by linarith) hε0
    linarith
  · refine g9.trans (mul_le_mul_of_nonneg_left ?_ hε0)
    linarith

/-- one leg against exact arithmetic -/
theorem EulerDubins.leg {d : Dyn (b64Of libm)} {lo hi : ℚ} (hd : EulerDubins d lo hi) {δ : ℝ} (hlibm : Trig libm δ) (hδ : δ ≤ 1) (hlim : lo ≤ hi)
    (env : Env (b64Of libm)) {S G : ℝ} (hlo : |(lo : ℝ)| ≤ S) (hhi : |(hi : ℝ)| ≤ S) (hS1 : 2⁻¹ ^ 900 ≤ S) (hS2 : S ≤ 2 ^ 200) (hG1 : 2⁻¹ ^ 900 ≤ G)
    (hG2 : G ≤ 2 ^ 200) {T w a : ℚ} (hT : 0 ≤ T) (hT2 : T ≤ 2 ^ 100) (hw : |w| ≤ 2 ^ 200) (ha : |a| ≤ 2 ^ 200) {x y h v : ℚ} (hx : |(x : ℝ)| ≤ 2 * G)
    (hy : |(y : ℝ)| ≤ 2 * G) (hh : |h| ≤ 4) (hv : lo ≤ v) (hv' : v ≤ hi) :
    ∃ (x' y' h' v' : ℚ) (k : ℤ) (sd : Vec (b64Of libm)),
      d.step env (.fin T) [.fin x, .fin y, .fin h, .fin v] [.fin w, .fin a] = (d, .ok ([.fin x', .fin y', .fin h', .fin v'], sd)) ∧
      |(x' : ℝ) - (x + T * (v * Real.cos h))| ≤ 7 * 2⁻¹ ^ 53 * G + T * (S * (δ + 14 * 2⁻¹ ^ 53)) ∧
      |(y' : ℝ) - (y + T * (v * Real.sin h))| ≤ 7 * 2⁻¹ ^ 53 * G + T * (S * (δ + 14 * 2⁻¹ ^ 53)) ∧
      |h'| ≤ 4 ∧ |(h' : ℝ) - (h + T * w + k * (2 * Real.pi))| ≤ 2⁻¹ ^ 53 * (90 + 20 * (T * |(w : ℝ)|)) ∧
      lo ≤ v' ∧ v' ≤ hi ∧ |(v' : ℝ) - min (max ((v : ℝ) + T * a) lo) hi| ≤ 2⁻¹ ^ 53 * (4 * S + 10 * (T * |(a : ℝ)|)) := by
  obtain ⟨t1, t2⟩ := hlibm h hh
  have hS0 : 0 ≤ S := (abs_nonneg _).trans hlo
  have hvS : |(v : ℝ)| ≤ S := by
    have h1 : (lo : ℝ) ≤ v := by exact_mod_cast hv
    have h2 : (v : ℝ) ≤ hi := by exact_mod_cast hv'
    rw [abs_le] at *
    constructor <;> linarith
  have mulS : ∀ p q : ℝ, |p - q| ≤ δ → |v * p - v * q| ≤ S * δ := fun p q hpq => by
    rw [← mul_sub, abs_mul]; exact mul_le_mul hvS hpq (abs_nonneg _) hS0
  have cap : ∀ p q : ℝ, |p - q| ≤ δ → |q| ≤ 1 → |v * p| ≤ 2 * S := fun p q hpq hq => by
    have e1 := abs_add_le (p - q) q
    rw [sub_add_cancel] at e1
    rw [abs_mul, mul_comm 2 S]; exact mul_le_mul hvS (by linarith) (abs_nonneg _) hS0
  have q : ∀ z : ℚ, |(z : ℝ)| ≤ 2 * S → |z| ≤ 2 ^ 201 := fun z hz => by
    have big : (2 : ℝ) * 2 ^ 200 ≤ ((2 ^ 201 : ℚ) : ℝ) := by push_cast; norm_num
    have := hz.trans (le_trans (by linarith) big)
    exact_mod_cast this
  have hcq := q (v * libm.cos h) (by push_cast; exact cap _ _ t2 (Real.abs_cos_le_one _))
  have hsq := q (v * libm.sin h) (by push_cast; exact cap _ _ t1 (Real.abs_sin_le_one _))
  obtain ⟨r0, r1, r2, r3, hr, b0, b1, b2, b3⟩ := dubins2d_rate (b64_rounds libm) (by norm_num)
    (by show rndBin 53 (-1022) 1023 0 = _; decide +kernel) (0 : Fl (b64Of libm)) x y h v w a (by
      have e : 4 * (2 ^ 201 + 2 ^ 201 + 2 ^ 200 + 2 ^ 200 + 5 * 2 ^ (-1022 : ℤ)) ≤ (2 : ℚ) ^ (1023 : ℤ) := by decide +kernel
      refine le_trans (mul_le_mul_of_nonneg_left ?_ (by norm_num)) e
      exact add_le_add (add_le_add (add_le_add (add_le_add hcq hsq) hw) ha) le_rfl)
  exact hd.toEulerFlyer.leg hδ hlim env hlo hhi hS1 hS2 hG1 hG2 hT hT2 hw ha hx hy hh hv hv' (c := v * libm.cos h) (s := v * libm.sin h)
    (by push_cast; exact mulS _ _ t2) (by push_cast; exact mulS _ _ t1) (by rw [hd.rhs]; exact hr) b0 b1 b2 b3

/-- a difference of velocities -/
theorem velocity_diff {v V c C ev eh S : ℝ} (hv : |v - V| ≤ ev) (hc : |c - C| ≤ eh) (hc1 : |c| ≤ 1) (hV : |V| ≤ S) (heh : 0 ≤ eh) :
    |v * c - V * C| ≤ ev + S * eh := by
  rw [show v * c - V * C = (v - V) * c + V * (c - C) by ring]
  refine (abs_add_le _ _).trans ?_
  rw [abs_mul, abs_mul]
  have h1 : |v - V| * |c| ≤ ev * 1 := mul_le_mul hv hc1 (abs_nonneg _) ((abs_nonneg _).trans hv)
  have h2 : |V| * |c - C| ≤ S * eh := mul_le_mul hV hc (abs_nonneg _) ((abs_nonneg _).trans hV)
  linarith

theorem flight_run {δ : ℝ} (hlibm : Trig libm δ) (hδ : δ ≤ 1) {lo hi : ℚ} (hlim : lo ≤ hi) (env : Env (b64Of libm)) {S G ε : ℝ} (hε : ε = 2⁻¹ ^ 53)
    (hlo : |(lo : ℝ)| ≤ S) (hhi : |(hi : ℝ)| ≤ S) (hS1 : 2⁻¹ ^ 900 ≤ S) (hS2 : S ≤ 2 ^ 200) (hG1 : 2⁻¹ ^ 900 ≤ G) (hG2 : G ≤ 2 ^ 200) :
    ∀ (legs : List (Leg (b64Of libm))) (e : Entity (b64Of libm)), EulerDubins e.dynamics lo hi →
      (∀ l ∈ legs, Applied env e l.action [.fin l.w, .fin l.a] ∧ 0 ≤ l.T ∧ l.T ≤ 2 ^ 100 ∧ |l.w| ≤ 2 ^ 200 ∧ |l.a| ≤ 2 ^ 200) →
      ∀ (x y h v : ℚ) (X Y H V ex eh ev : ℝ) (k : ℤ), e.state = [.fin x, .fin y, .fin h, .fin v] → |h| ≤ 4 → lo ≤ v → v ≤ hi → lo ≤ V → V ≤ hi →
        |x - X| ≤ ex → |y - Y| ≤ ex → |h - (H + k * (2 * Real.pi))| ≤ eh → |v - V| ≤ ev →
        |X| + S * Leg.time legs ≤ G → |Y| + S * Leg.time legs ≤ G →
        ex + Leg.time legs * (ev + ε * (4 * S * legs.length + 10 * Leg.gain legs) + S * (eh + ε * (90 * legs.length + 20 * Leg.turn legs) + (δ + 14 * ε)))
          + 7 * ε * G * legs.length ≤ G →
        ∃ (x' y' h' v' : ℚ) (X' Y' H' V' : ℝ) (k' : ℤ), eulerFlight lo hi (Leg.exact legs) (X, Y, H, V) = (X', Y', H', V') ∧
          (e.run env (stepsOf (Leg.hist legs))).state = [.fin x', .fin y', .fin h', .fin v'] ∧ |h'| ≤ 4 ∧ lo ≤ v' ∧ v' ≤ hi ∧
          (let E := ex + Leg.time legs * (ev + ε * (4 * S * legs.length + 10 * Leg.gain legs) + S * (eh + ε * (90 * legs.length + 20 * Leg.turn legs) + (δ + 14 * ε)))
            + 7 * ε * G * legs.length
          |x' - X'| ≤ E ∧ |y' - Y'| ≤ E) ∧
          |h' - (H' + k' * (2 * Real.pi))| ≤ eh + ε * (90 * legs.length + 20 * Leg.turn legs) ∧
          |v' - V'| ≤ ev + ε * (4 * S * legs.length + 10 * Leg.gain legs)
  | [], e, _, _, x, y, h, v, X, Y, H, V, ex, eh, ev, k, hs, hh, hv, hv', _, _, d1, d2, d3, d4, _, _, _ => by
    refine ⟨x, y, h, v, X, Y, H, V, k, rfl, hs, hh, hv, hv', ?_, ?_, ?_⟩
    · simpa [Leg.time] using ⟨d1, d2⟩
    · simpa [Leg.turn] using d3
    · simpa [Leg.gain] using d4
  | ⟨T, act, w, a⟩ :: legs, e, hd, hl, x, y, h, v, X, Y, H, V, ex, eh, ev, k, hs, hh, hv, hv', hV, hV', d1, d2, d3, d4, b1, b2, hE => by
    obtain ⟨ha, hT, hT2, hw, ha2⟩ := hl _ List.mem_cons_self
    simp only at ha hT hT2 hw ha2
    have tl : ∀ l ∈ legs, Applied env e l.action [.fin l.w, .fin l.a] ∧ 0 ≤ l.T ∧ l.T ≤ 2 ^ 100 ∧ |l.w| ≤ 2 ^ 200 ∧ |l.a| ≤ 2 ^ 200 :=
      fun l hm => hl l (List.mem_cons_of_mem _ hm)
    have hTr : (0 : ℝ) ≤ T := by exact_mod_cast hT
    have t0 : 0 ≤ Leg.time legs := List.sum_nonneg fun z hz => by
      obtain ⟨l, hl, rfl⟩ := List.mem_map.1 hz
      have := (tl l hl).2.1
      exact_mod_cast this
    have t1 : 0 ≤ Leg.turn legs := List.sum_nonneg fun z hz => by
      obtain ⟨l, hl, rfl⟩ := List.mem_map.1 hz
      have : (0 : ℝ) ≤ l.T := by exact_mod_cast (tl l hl).2.1
      positivity
    have t2 : 0 ≤ Leg.gain legs := List.sum_nonneg fun z hz => by
      obtain ⟨l, hl, rfl⟩ := List.mem_map.1 hz
      have : (0 : ℝ) ≤ l.T := by exact_mod_cast (tl l hl).2.1
      positivity
    have c1 : Leg.time (⟨T, act, w, a⟩ :: legs) = T + Leg.time legs := by simp [Leg.time]
    have c2 : Leg.turn (⟨T, act, w, a⟩ :: legs) = T * |(w : ℝ)| + Leg.turn legs := by simp [Leg.turn]
    have c3 : Leg.gain (⟨T, act, w, a⟩ :: legs) = T * |(a : ℝ)| + Leg.gain legs := by simp [Leg.gain]
    have c4 : (((⟨T, act, w, a⟩ : Leg (b64Of libm)) :: legs).length : ℝ) = legs.length + 1 := by simp
    rw [c1, c2, c3, c4] at hE
    rw [c1] at b1 b2
    rw [c1, c2, c3, c4]
    obtain ⟨N, hN⟩ : ∃ N : ℝ, N = legs.length := ⟨_, rfl⟩
    obtain ⟨U, hU⟩ : ∃ U : ℝ, U = Leg.time legs := ⟨_, rfl⟩
    obtain ⟨A, hA⟩ : ∃ A : ℝ, A = Leg.turn legs := ⟨_, rfl⟩
    obtain ⟨B, hB⟩ : ∃ B : ℝ, B = Leg.gain legs := ⟨_, rfl⟩
    have hN0 : 0 ≤ N := by rw [hN]; positivity
    rw [← hN, ← hU, ← hA, ← hB] at hE ⊢
    rw [← hU] at b1 b2 t0
    rw [← hA] at t1
    rw [← hB] at t2
    have hε0 : 0 ≤ ε := by rw [hε]; positivity
    have hS0 : 0 ≤ S := (abs_nonneg _).trans hlo
    have hG0 : 0 ≤ G := le_trans (by positivity) hG1
    have hδ0 : 0 ≤ δ := (abs_nonneg _).trans (hlibm h hh).1
    have he0 : 0 ≤ ex := (abs_nonneg _).trans d1
    have he1 : 0 ≤ eh := (abs_nonneg _).trans d3
    have he2 : 0 ≤ ev := (abs_nonneg _).trans d4
    have hTw : 0 ≤ (T : ℝ) * |(w : ℝ)| := by positivity
    have hTa : 0 ≤ (T : ℝ) * |(a : ℝ)| := by positivity
    have hVS : |V| ≤ S := by
      rw [abs_le] at *
      constructor <;> linarith
    obtain ⟨rv, hrv⟩ : ∃ r, r = ε * (4 * S + 10 * (T * |(a : ℝ)|)) := ⟨_, rfl⟩
    obtain ⟨rh, hrh⟩ : ∃ r, r = ε * (90 + 20 * (T * |(w : ℝ)|)) := ⟨_, rfl⟩
    obtain ⟨qv, hqv⟩ : ∃ r, r = ε * (4 * S * N + 10 * B) := ⟨_, rfl⟩
    obtain ⟨qh, hqh⟩ : ∃ r, r = ε * (90 * N + 20 * A) := ⟨_, rfl⟩
    obtain ⟨ρ, hρ⟩ : ∃ r, r = S * (δ + 14 * ε) := ⟨_, rfl⟩
    obtain ⟨γ, hγ⟩ : ∃ r, r = 7 * ε * G := ⟨_, rfl⟩
    have rv0 : 0 ≤ rv := by rw [hrv]; positivity
    have rh0 : 0 ≤ rh := by rw [hrh]; positivity
    have qv0 : 0 ≤ qv := by rw [hqv]; positivity
    have qh0 : 0 ≤ qh := by rw [hqh]; positivity
    have ρ0 : 0 ≤ ρ := by rw [hρ]; positivity
    have γ0 : 0 ≤ γ := by rw [hγ]; positivity
    have f1 : ε * (4 * S * (N + 1) + 10 * (T * |(a : ℝ)| + B)) = rv + qv := by rw [hrv, hqv]; ring
    have f2 : ε * (90 * (N + 1) + 20 * (T * |(w : ℝ)| + A)) = rh + qh := by rw [hrh, hqh]; ring
    have f3 : ∀ z, S * (z + (δ + 14 * ε)) = S * z + ρ := fun z => by rw [hρ]; ring
    have f4 : ∀ z, 7 * ε * G * z = γ * z := fun z => by rw [hγ]
    rw [f1, f2, f3, f4] at hE
    rw [f1, f2, f3, f4]
    have hSh : 0 ≤ S * (eh + (rh + qh)) := mul_nonneg hS0 (by linarith)
    have hK0 : 0 ≤ ev + (rv + qv) + (S * (eh + (rh + qh)) + ρ) := by linarith
    have hUK := mul_nonneg t0 hK0
    have hTK := mul_nonneg hTr hK0
    have hγN : 0 ≤ γ * N := mul_nonneg γ0 hN0
    rw [show (↑T + U) * (ev + (rv + qv) + (S * (eh + (rh + qh)) + ρ)) = T * (ev + (rv + qv) + (S * (eh + (rh + qh)) + ρ)) + U * (ev + (rv + qv) + (S * (eh + (rh + qh)) + ρ)) by ring,
      mul_add γ, mul_one] at hE
    have hex : ex ≤ G := by linarith
    have hSU : 0 ≤ S * (T + U) := mul_nonneg hS0 (by linarith)
    have hxG : |(x : ℝ)| ≤ 2 * G := by
      have := abs_add_le ((x : ℝ) - X) X
      rw [sub_add_cancel] at this
      linarith
    have hyG : |(y : ℝ)| ≤ 2 * G := by
      have := abs_add_le ((y : ℝ) - Y) Y
      rw [sub_add_cancel] at this
      linarith
    obtain ⟨x', y', h', v', j, sd, s1, s2, s3, s4, s5, s6, s7, s8⟩ := hd.leg hlibm hδ hlim env hlo hhi hS1 hS2 hG1 hG2 hT hT2 hw ha2 hxG hyG hh hv hv'
    rw [← hε, ← hγ, ← hρ] at s2 s3
    rw [← hε, ← hrh] at s5
    rw [← hε, ← hrv] at s8
    -- the step of the entity
    have hst := (((C01_step_decided_by_applied_control env e (.fin T) act).1 _ ha).1 e.dynamics _ sd (by rw [hs]; exact s1)).2
    -- the exact step
    have cosd : |Real.cos h - Real.cos H| ≤ eh := by
      rw [← Real.cos_add_int_mul_two_pi H k]
      exact (Real.abs_cos_sub_cos_le _ _).trans d3
    have sind : |Real.sin h - Real.sin H| ≤ eh := by
      rw [← Real.sin_add_int_mul_two_pi H k]
      exact (Real.abs_sin_sub_sin_le _ _).trans d3
    have vx := velocity_diff d4 cosd (Real.abs_cos_le_one _) hVS he1
    have vy := velocity_diff d4 sind (Real.abs_sin_le_one _) hVS he1
    have px : ∀ (z' z c Z C : ℝ), |z' - (z + T * (v * c))| ≤ γ + T * ρ → |z - Z| ≤ ex → |v * c - V * C| ≤ ev + S * eh →
        |z' - (Z + T * (V * C))| ≤ ex + T * (ev + S * eh + ρ) + γ := by
      intro z' z c Z C g1 g2 g3
      have a1 := abs_add_le (z' - (z + T * (v * c))) (z - Z)
      have a2 := abs_add_le (z' - (z + T * (v * c)) + (z - Z)) (T * (v * c - V * C))
      rw [show z' - (z + T * (v * c)) + (z - Z) + T * (v * c - V * C) = z' - (Z + T * (V * C)) by ring, abs_mul (T : ℝ), abs_of_nonneg hTr] at a2
      have a3 : (T : ℝ) * |v * c - V * C| ≤ T * (ev + S * eh) := mul_le_mul_of_nonneg_left g3 hTr
      linarith
    have hgo : ∀ (Z C : ℝ), |C| ≤ 1 → |Z| + S * (T + U) ≤ G → |Z + T * (V * C)| + S * U ≤ G := by
      intro Z C hC hZ
      have a1 := abs_add_le Z (T * (V * C))
      rw [abs_mul (T : ℝ), abs_mul V, abs_of_nonneg hTr] at a1
      have a2 : (T : ℝ) * (|V| * |C|) ≤ T * (S * 1) := mul_le_mul_of_nonneg_left (mul_le_mul hVS hC (abs_nonneg _) hS0) hTr
      linarith
    have hsum : ∀ p, p = ex + T * (ev + S * eh + ρ) + γ →
        p + U * (ev + rv + qv + (S * (eh + rh + qh) + ρ)) + γ * N
          ≤ ex + (T * (ev + (rv + qv) + (S * (eh + (rh + qh)) + ρ)) + U * (ev + (rv + qv) + (S * (eh + (rh + qh)) + ρ))) + (γ * N + γ) := by
      rintro p rfl
      have : (T : ℝ) * (ev + S * eh + ρ) ≤ T * (ev + (rv + qv) + (S * (eh + (rh + qh)) + ρ)) := by
        refine mul_le_mul_of_nonneg_left ?_ hTr
        have : S * eh ≤ S * (eh + (rh + qh)) := mul_le_mul_of_nonneg_left (by linarith) hS0
        linarith
      have e : U * (ev + rv + qv + (S * (eh + rh + qh) + ρ)) = U * (ev + (rv + qv) + (S * (eh + (rh + qh)) + ρ)) := by ring
      rw [e]
      linarith
    obtain ⟨p, hp⟩ : ∃ p, p = ex + T * (ev + S * eh + ρ) + γ := ⟨_, rfl⟩
    have hps := hsum p hp
    have lim : (lo : ℝ) ≤ hi := by exact_mod_cast hlim
    obtain ⟨x2, y2, h2, v2, X2, Y2, H2, V2, k2, i1, i2, i3, i4, i5, ⟨i6, i7⟩, i8, i9⟩ := flight_run hlibm hδ hlim env hε hlo hhi hS1 hS2 hG1 hG2 legs
      (e.step env (.fin T) act).entity (by rw [hst]; exact hd) (fun l hm => ⟨(applied_config (step_sameConfig env e _ _)).2 (tl l hm).1, (tl l hm).2⟩) x' y' h' v'
      (X + T * (V * Real.cos H)) (Y + T * (V * Real.sin H)) (H + T * w) (min (max (V + T * a) lo) hi) p (eh + rh) (ev + rv) (k + j) (by rw [hst]) s4 s6 s7
      (le_min (le_max_right _ _) lim) (min_le_right _ _)
      (by rw [hp]; exact px _ _ _ _ _ s2 d1 vx) (by rw [hp]; exact px _ _ _ _ _ s3 d2 vy)
      (by
        have a1 := abs_add_le ((h' : ℝ) - (h + T * w + j * (2 * Real.pi))) (h - (H + k * (2 * Real.pi)))
        rw [show (h' : ℝ) - (h + T * w + j * (2 * Real.pi)) + (h - (H + k * (2 * Real.pi))) = h' - (H + T * w + ((k + j : ℤ) : ℝ) * (2 * Real.pi)) by
          push_cast; ring] at a1
        linarith)
      (by
        have a1 := abs_add_le ((v' : ℝ) - min (max ((v : ℝ) + T * a) lo) hi) (min (max ((v : ℝ) + T * a) lo) hi - min (max (V + T * a) lo) hi)
        rw [sub_add_sub_cancel] at a1
        have a2 := kclip_lip (lo : ℝ) hi ((v : ℝ) + T * a) (V + T * a)
        rw [add_sub_add_right_eq_sub] at a2
        linarith)
      (by rw [← hU]; exact hgo X _ (Real.abs_cos_le_one _) b1) (by rw [← hU]; exact hgo Y _ (Real.abs_sin_le_one _) b2)
      (by rw [← hN, ← hU, ← hA, ← hB, ← hqv, ← hqh, f3, f4]; linarith)
    rw [← hN, ← hU, ← hA, ← hB, ← hqv, ← hqh, f3, f4] at i6 i7
    rw [← hN, ← hA, ← hqh] at i8
    rw [← hN, ← hB, ← hqv] at i9
    refine ⟨x2, y2, h2, v2, X2, Y2, H2, V2, k2, i1, i2, i3, i4, i5, ?_, by linarith, by linarith⟩
    have e : ex + (↑T + U) * (ev + (rv + qv) + (S * (eh + (rh + qh)) + ρ)) + γ * (N + 1)
        = ex + (T * (ev + (rv + qv) + (S * (eh + (rh + qh)) + ρ)) + U * (ev + (rv + qv) + (S * (eh + (rh + qh)) + ρ))) + (γ * N + γ) := by ring
    simp only [e]
    exact ⟨by linarith, by linarith⟩

/-- C106: a flight of the 2d aircraft under Euler's method in double precision, whatever is asked of it, against the same flight in exact arithmetic.
`δ` is the error of sine and cosine, `S` a bound of the speed and `G` one of the coordinates. If the bound `E` is at most `G`, every step succeeds, no
number overflows, the coordinates are off by at most `E`, the heading by at most `Eh` (modulo whole turns) and the speed by at most `Ev`. -/
theorem C106_flight (libm : Fmt ℚ) (δ : ℝ) (hlibm : Trig libm δ) (hδ : δ ≤ 1) (env env' : Env (b64Of libm)) (args : Dubins2dArgs (b64Of libm)) (lo hi : ℚ)
    (hlo : args.vMin.cast32 = .fin lo) (hhi : args.vMax.cast32 = .fin hi) (hlim : lo ≤ hi) (hm : args.integrationMethod = "Euler")
    (e0 : Entity (b64Of libm)) (h0 : newDubins2d env args = .ok e0) (hts : e0.dynamics.trajectorySamples ≤ 0) (ops : List (Op (b64Of libm)))
    (e : Entity (b64Of libm)) (he : e = e0.run env' ops) (x y h v : ℚ) (hs : e.state = [.fin x, .fin y, .fin h, .fin v]) (hh : |h| ≤ 4) (hv : lo ≤ v)
    (hv' : v ≤ hi) (legs : List (Leg (b64Of libm)))
    (hlegs : ∀ l ∈ legs, Applied env' e l.action [.fin l.w, .fin l.a] ∧ 0 ≤ l.T ∧ l.T ≤ 2 ^ 100 ∧ |l.w| ≤ 2 ^ 200 ∧ |l.a| ≤ 2 ^ 200)
    (S G E Eh Ev : ℝ) (hS : max |(lo : ℝ)| |(hi : ℝ)| ≤ S ∧ 2⁻¹ ^ 900 ≤ S ∧ S ≤ 2 ^ 200)
    (hG : max |(x : ℝ)| |(y : ℝ)| + S * Leg.time legs ≤ G ∧ 2⁻¹ ^ 900 ≤ G ∧ G ≤ 2 ^ 200)
    (hEh : Eh = 2⁻¹ ^ 53 * (90 * legs.length + 20 * Leg.turn legs)) (hEv : Ev = 2⁻¹ ^ 53 * (4 * S * legs.length + 10 * Leg.gain legs))
    (hE : E = Leg.time legs * (Ev + S * (Eh + (δ + 14 * 2⁻¹ ^ 53))) + 7 * 2⁻¹ ^ 53 * G * legs.length) (hEG : E ≤ G) :
    ∃ (x' y' h' v' : ℚ) (X Y H V H' : ℝ), eulerFlight lo hi (Leg.exact legs) (x, y, h, v) = (X, Y, H, V) ∧ SameAngle Real.pi H H' ∧
      (e.run env' (stepsOf (Leg.hist legs))).state = [.fin x', .fin y', .fin h', .fin v'] ∧
      |x' - X| ≤ E ∧ |y' - Y| ≤ E ∧ |h' - H'| ≤ Eh ∧ |v' - V| ≤ Ev ∧ |h'| ≤ 4 ∧ lo ≤ v' ∧ v' ≤ hi := by
  obtain ⟨h1, h2, h3, h4, h5, h6, h7, -, h9, -⟩ := dubins2d_config h0
  have hc := run_sameConfig env' ops e0
  rw [← he] at hc
  have hd0 : EulerDubins e0.dynamics lo hi := by
    refine ⟨⟨by rw [h1, hlo], by rw [h2, hhi], h3, h4, ?_, h7, h9.trans hm, hts⟩, h6⟩
    rw [h5]
    have : Fl.cast32 (0 : Fl (b64Of libm)) = .fin 0 := by
      show Fl.ofExt (rndBin 24 (-126) 127 (((0 : ℕ) : ℚ))) = _
      rw [show rndBin 24 (-126) 127 (((0 : ℕ) : ℚ)) = .val 0 by decide +kernel]; rfl
    rw [this]
  have hd : EulerDubins e.dynamics lo hi := by
    obtain ⟨t, t', ht⟩ := SameConfig.dyn hc
    rw [ht]
    exact ⟨⟨hd0.stateMin, hd0.stateMax, hd0.dotMin, hd0.dotMax, hd0.wrap, hd0.custom, hd0.method, hd0.samples⟩, hd0.rhs⟩
  have vr1 : (lo : ℝ) ≤ v := by exact_mod_cast hv
  have vr2 : (v : ℝ) ≤ hi := by exact_mod_cast hv'
  obtain ⟨x', y', h', v', X, Y, H, V, k, i1, i2, i3, i4, i5, ⟨i6, i7⟩, i8, i9⟩ := flight_run hlibm hδ hlim env' rfl ((le_max_left _ _).trans hS.1)
    ((le_max_right _ _).trans hS.1) hS.2.1 hS.2.2 hG.2.1 hG.2.2 legs e hd hlegs x y h v x y h v 0 0 0 0 hs hh hv hv' vr1 vr2 (by simp) (by simp) (by simp)
    (by simp) (le_trans (add_le_add_left (le_max_left _ _) _) hG.1) (le_trans (add_le_add_left (le_max_right _ _) _) hG.1)
    (by rw [zero_add, zero_add, zero_add, ← hEh, ← hEv, ← hE]; exact hEG)
  simp only [zero_add] at i6 i7 i8 i9
  rw [← hEh, ← hEv, ← hE] at i6 i7
  rw [← hEh] at i8
  rw [← hEv] at i9
  exact ⟨x', y', h', v', X, Y, H, V, _, i1, ⟨k, by ring⟩, i2, i6, i7, i8, i9, i3, i4, i5⟩

end

section
open Real

theorem sameAngle_cos {a b : ℝ} (h : SameAngle π a b) : cos b = cos a ∧ sin b = sin a := by
  obtain ⟨k, rfl⟩ := h
  rw [show a + 2 * π * k = a + k * (2 * π) by ring]
  exact ⟨cos_add_int_mul_two_pi _ _, sin_add_int_mul_two_pi _ _⟩

theorem exact_run (env : Env realFmt) (p : Dubins2dParams ℝ) (hlim : p.vMin ≤ p.vMax) : ∀ (legs : List (ℝ × Action realFmt × (Fin 2 → ℝ)))
    (e : Entity realFmt), Realises e (dubins2dModel realFmt p) → e.dynamics.integrationMethod = "Euler" → e.dynamics.trajectorySamples ≤ 0 →
    (∀ l ∈ legs, 0 ≤ l.1 ∧ Asks env e l.2.1 l.2.2) → ∀ (x y h v h' : ℝ), e.state = [.fin x, .fin y, .fin h', .fin v] → p.vMin ≤ v → v ≤ p.vMax →
    SameAngle π h h' → ∃ X Y H V H' : ℝ,
      eulerFlight p.vMin p.vMax (legs.map fun l => (l.1, min (max (l.2.2 0) p.headingRateMin) p.headingRateMax, min (max (l.2.2 1) p.accMin) p.accMax)) (x, y, h, v)
        = (X, Y, H, V) ∧ SameAngle π H H' ∧ (e.run env (stepsOf (legs.map fun l => (l.1, l.2.1)))).state = [.fin X, .fin Y, .fin H', .fin V]
  | [], e, _, _, _, _, x, y, h, v, h', hs, _, _, ha => ⟨x, y, h, v, h', rfl, ha, hs⟩
  | (T, act, u) :: legs, e, hr, hm, hts, hl, x, y, h, v, h', hs, hv, hv', ha => by
    obtain ⟨hT, hask⟩ := hl _ List.mem_cons_self
    simp only at hT hask
    have hst := (Realises.step_euler env pi_pos hr hm hts hask (fun _ => trivial) (y := ![x, y, h', v]) (by rw [hs, toFl4]; rfl) T).2
    have hc : SameConfig e (e.step env (.fin T) act).entity := step_sameConfig env e _ _
    obtain ⟨k1, k2⟩ := sameConfig_method hc
    obtain ⟨c1, c2⟩ := sameAngle_cos ha
    obtain ⟨W, hW⟩ : ∃ W, W = (dubins2dModel realFmt p).sat u := ⟨_, rfl⟩
    have W0 : W 0 = min (max (u 0) p.headingRateMin) p.headingRateMax := by rw [hW]; simp [KModel.sat, dubins2dModel, kclip]
    have W1 : W 1 = min (max (u 1) p.accMin) p.accMax := by rw [hW]; simp [KModel.sat, dubins2dModel, kclip]
    obtain ⟨z, hz⟩ : ∃ z, z = ![x, y, h', v] := ⟨_, rfl⟩
    have z0 : z 0 = x := by rw [hz]; rfl
    have z1 : z 1 = y := by rw [hz]; rfl
    have z2 : z 2 = h' := by rw [hz]; rfl
    have z3 : z 3 = v := by rw [hz]; rfl
    obtain ⟨w, hw⟩ : ∃ w, w = z + T • (dubins2dModel realFmt p).field W 0 z := ⟨_, rfl⟩
    rw [← hW, ← hz, ← hw] at hst
    have w0 : w 0 = x + T * (v * cos h) := by
      rw [hw, ← z0, ← z3, ← c1, ← z2]; simp [KModel.field, dubins2dModel, klimit_free]; exact Or.inl (Or.inl rfl)
    have w1 : w 1 = y + T * (v * sin h) := by
      rw [hw, ← z1, ← z3, ← c2, ← z2]; simp [KModel.field, dubins2dModel, klimit_free]; exact Or.inl (Or.inl rfl)
    have w2 : w 2 = h' + T * W 0 := by
      rw [hw, ← z2]; simp [KModel.field, dubins2dModel, klimit_free]
    have w3 : w 3 = v + T * klimit (some p.vMin) (some p.vMax) none none v (W 1) := by
      rw [hw, ← z3]; simp [KModel.field, dubins2dModel]
    have p0 : (dubins2dModel realFmt p).post π w 0 = w 0 := by simp [KModel.post, dubins2dModel, kclip]
    have p1 : (dubins2dModel realFmt p).post π w 1 = w 1 := by simp [KModel.post, dubins2dModel, kclip]
    have p2 : (dubins2dModel realFmt p).post π w 2 = w 2 + 0 - 2 * π * ⌊(w 2 + π) / (2 * π)⌋ := by simp [KModel.post, dubins2dModel, kclip]
    have p3 : (dubins2dModel realFmt p).post π w 3 = min (max (v + T * W 1) p.vMin) p.vMax := by
      have : (dubins2dModel realFmt p).post π w 3 = min (max (w 3) p.vMin) p.vMax := by simp [KModel.post, dubins2dModel, kclip]
      rw [this, w3]
      by_cases c1 : p.vMax ≤ v
      · have hvh : v = p.vMax := le_antisymm hv' c1
        simp only [klimit, kclip, Option.some.injEq, exists_eq_left', c1, if_true]
        by_cases c2 : W 1 ≤ 0
        · rw [min_eq_left c2]
        · have c3 := mul_nonneg hT (not_le.1 c2).le
          rw [min_eq_right (not_le.1 c2).le, mul_zero, add_zero, min_eq_right (le_max_of_le_left c1), min_eq_right (le_max_of_le_left (by linarith))]
      · by_cases c3 : v ≤ p.vMin
        · have hvl : v = p.vMin := le_antisymm c3 hv
          simp only [klimit, kclip, Option.some.injEq, exists_eq_left', c1, if_false, c3, if_true]
          by_cases c2 : 0 ≤ W 1
          · rw [max_eq_left c2]
          · have c4 := mul_nonneg hT (neg_nonneg.2 (not_le.1 c2).le)
            rw [max_eq_right (not_le.1 c2).le, mul_zero, add_zero, max_eq_right c3, max_eq_right (by linarith)]
        · simp only [klimit, kclip, Option.some.injEq, exists_eq_left', c1, if_false, c3]
    obtain ⟨X, Y, H, V, H', i1, i2, i3⟩ := exact_run env p hlim legs (e.step env (.fin T) act).entity (hr.congr hc) (k1.trans hm) (k2 ▸ hts)
      (fun l hm => ⟨(hl l (List.mem_cons_of_mem _ hm)).1, requests_congr hc (hl l (List.mem_cons_of_mem _ hm)).2⟩)
      (x + T * (v * cos h)) (y + T * (v * sin h)) (h + T * W 0) (min (max (v + T * W 1) p.vMin) p.vMax) ((dubins2dModel realFmt p).post π w 2)
      (by
        rw [hst, toFl4]
        show [Fl.fin ((dubins2dModel realFmt p).post π w 0), .fin ((dubins2dModel realFmt p).post π w 1), .fin ((dubins2dModel realFmt p).post π w 2),
          .fin ((dubins2dModel realFmt p).post π w 3)] = _
        rw [p0, p1, p3, w0, w1])
      (le_min (le_max_right _ _) hlim) (min_le_right _ _) (by
        rw [p2, w2]
        refine SameAngle.trans ?_ (wrap_angle _)
        obtain ⟨k, rfl⟩ := ha
        exact ⟨k, by ring⟩)
    refine ⟨X, Y, H, V, H', ?_, i2, i3⟩
    rw [← i1, W0, W1]
    rfl

/-- In exact arithmetic the aircraft computes the reference flight: its coordinates and speed are those of the flight with the requested controls,
limited, and its heading is the heading of the flight up to whole turns. -/
theorem C106_exact (env : Env realFmt) (args : Dubins2dArgs realFmt) (p : Dubins2dParams ℝ) (hp : p.Of args) (hlim : p.vMin ≤ p.vMax)
    (e0 : Entity realFmt) (h0 : newDubins2d env args = .ok e0) (hm : args.integrationMethod = "Euler") (hts : e0.dynamics.trajectorySamples ≤ 0)
    (ops : List (Op realFmt)) (e : Entity realFmt) (he : e = e0.run env ops) (x y h v : ℝ) (hs : e.state = [.fin x, .fin y, .fin h, .fin v])
    (hv : p.vMin ≤ v ∧ v ≤ p.vMax) (legs : List (ℝ × Action realFmt × (Fin 2 → ℝ))) (hlegs : ∀ l ∈ legs, 0 ≤ l.1 ∧ Asks env e l.2.1 l.2.2) :
    ∃ X Y H V H' : ℝ,
      eulerFlight p.vMin p.vMax (legs.map fun l => (l.1, min (max (l.2.2 0) p.headingRateMin) p.headingRateMax, min (max (l.2.2 1) p.accMin) p.accMax)) (x, y, h, v)
        = (X, Y, H, V) ∧ SameAngle π H H' ∧ (e.run env (stepsOf (legs.map fun l => (l.1, l.2.1)))).state = [.fin X, .fin Y, .fin H', .fin V] := by
  have hc := run_sameConfig env ops e0
  obtain ⟨-, -, -, -, -, -, -, -, h9, -⟩ := dubins2d_config h0
  have hr := (dubins2d_realised hp h0).congr hc
  obtain ⟨k1, k2⟩ := sameConfig_method hc
  rw [← he] at hr k1 k2
  exact exact_run env p hlim legs e hr (k1.trans (h9.trans hm)) (k2 ▸ hts) hlegs x y h v h hs hv.1 hv.2 ⟨0, by simp⟩

end

/-! ## A flight of an hour -/

/-- a libm with a sine and a cosine as accurate as one likes -/
theorem Demo.accurate (δ : ℝ) (hδ : 0 < δ) : ∃ libm : Fmt ℚ, Trig libm δ := by
  have near : ∀ r : ℝ, ∃ q : ℚ, |(q : ℝ) - r| ≤ δ := fun r => by
    obtain ⟨q, h1, h2⟩ := exists_rat_btwn (show r - δ < r by linarith)
    exact ⟨q, by rw [abs_le]; constructor <;> linarith⟩
  choose f hf using near
  exact ⟨{ ratFmt with sin := fun x => f (Real.sin x), cos := fun x => f (Real.cos x) }, fun x _ => ⟨hf _, hf _⟩⟩

/-- turning and accelerating for an hour, in steps of a second: off by less than a ten thousandth of a foot -/
example : ∃ (libm : Fmt ℚ) (env : Env (b64Of libm)) (args : Dubins2dArgs (b64Of libm)) (e0 : Entity (b64Of libm)), newDubins2d env args = .ok e0 ∧
    ∃ (x' y' h' v' : ℚ) (X Y H V : ℝ), eulerFlight 200 400 (List.replicate 3600 (1, 1 / 10, 5)) (0, 0, 1, 300) = (X, Y, H, V) ∧
      ((e0.run env [.setState [.fin 0, .fin 0, .fin 1, .fin 300]]).run env (stepsOf (List.replicate 3600 (1, .ndarray .f64 [.fin (1 / 10), .fin 5])))).state
        = [.fin x', .fin y', .fin h', .fin v'] ∧ |x' - X| ≤ 1 / 10000 ∧ |y' - Y| ≤ 1 / 10000 := by
  obtain ⟨libm, hlibm⟩ := Demo.accurate (2⁻¹ ^ 50) (by positivity)
  obtain ⟨args, hargs⟩ : ∃ args : Dubins2dArgs (b64Of libm), args = {
      headingRateMin := .fin (-1), headingRateMax := .fin 1, accMin := .fin (-96), accMax := .fin 96
      integrationMethod := "Euler", trajectorySamples := some 0, vMin := .fin 200, vMax := .fin 400, kwargs := [("name", .str "a"), ("heading", .num (.fin 1))] } := ⟨_, rfl⟩
  have h0 : ∃ e0 : Entity (b64Of libm), newDubins2d (rkEnv dopri (fun _ _ _ => [])) args = .ok e0 := by rw [hargs]; exact ⟨_, rfl⟩
  obtain ⟨e0, h0⟩ := h0
  obtain ⟨h1, h2, h3, h4, h5, h6, h7, -, h9, h10, h11, h12, h13, -⟩ := dubins2d_config h0
  have hst : (e0.run (rkEnv dopri (fun _ _ _ => [])) [.setState [.fin 0, .fin 0, .fin 1, .fin 300]]).state = [.fin 0, .fin 0, .fin 1, .fin 300] := by
    rw [hargs] at h0
    cases h0
    rfl
  refine ⟨libm, _, args, e0, h0, ?_⟩
  have tiny : (2⁻¹ : ℝ) ^ 900 ≤ 1 := pow_le_one₀ (by norm_num) (by norm_num)
  set l : Leg (b64Of libm) := ⟨1, .ndarray .f64 [.fin (1 / 10), .fin 5], 1 / 10, 5⟩ with hl
  have t1 : Leg.time (List.replicate 3600 l) = 3600 := by rw [Leg.time, List.map_replicate, List.sum_replicate, hl]; norm_num
  have t2 : Leg.turn (List.replicate 3600 l) = 360 := by
    rw [Leg.turn, List.map_replicate, List.sum_replicate, hl]; norm_num
  have t3 : Leg.gain (List.replicate 3600 l) = 18000 := by
    rw [Leg.gain, List.map_replicate, List.sum_replicate, hl]; norm_num
  have t4 : Leg.hist (List.replicate 3600 l) = List.replicate 3600 (1, .ndarray .f64 [.fin (1 / 10), .fin 5]) := by
    rw [Leg.hist, List.map_replicate]
  have t5 : Leg.exact (List.replicate 3600 l) = List.replicate 3600 (1, 1 / 10, 5) := by
    rw [Leg.exact, List.map_replicate, hl]; norm_num
  obtain ⟨x', y', h', v', X, Y, H, V, H', i1, -, i2, i3, i4, -⟩ := C106_flight libm _ hlibm (by norm_num) _ (rkEnv dopri (fun _ _ _ => [])) args 200 400
    (by rw [hargs]; show Fl.ofExt (rndBin 24 (-126) 127 200) = _; rw [show rndBin 24 (-126) 127 200 = .val 200 by decide +kernel]; rfl)
    (by rw [hargs]; show Fl.ofExt (rndBin 24 (-126) 127 400) = _; rw [show rndBin 24 (-126) 127 400 = .val 400 by decide +kernel]; rfl)
    (by norm_num) (by rw [hargs]) e0 h0 (by rw [hargs] at h10; exact (Option.some.inj h10).le) _ _ rfl 0 0 1 300 hst (by norm_num) (by norm_num) (by norm_num)
    (List.replicate 3600 l) (by
      intro l' hl'
      obtain ⟨-, rfl⟩ := List.mem_replicate.1 hl'
      refine ⟨(applied_config (run_sameConfig _ _ _)).2 (applied_of (ty := .f64) (u := [.fin (1 / 10), .fin 5]) rfl ?_), by norm_num [hl], by norm_num [hl],
        by norm_num [hl], by norm_num [hl]⟩
      rw [h12, h13, hargs, hl]
      simp [npClip, bcast2, Arr.forDType, Arr.toVec, npMax_fin, npMin_fin, bind, Except.bind]
      norm_num)
    400 (2 ^ 22) _ _ _ ⟨by norm_num, tiny.trans (by norm_num), by norm_num⟩ ⟨by rw [t1]; norm_num, tiny.trans (by norm_num), by norm_num⟩ rfl rfl rfl (by rw [t1, t2, t3]; norm_num)
  rw [t4] at i2
  rw [t5] at i1
  rw [t1, t2, t3, List.length_replicate] at i3 i4
  refine ⟨x', y', h', v', X, Y, H, V, ?_, i2, i3.trans (by norm_num), i4.trans (by norm_num)⟩
  obtain ⟨L, hL⟩ : ∃ L : List (ℝ × ℝ × ℝ), L = List.replicate 3600 (1, 1 / 10, 5) := ⟨_, rfl⟩
  rw [← hL] at i1 ⊢
  simpa using i1

end SAD
