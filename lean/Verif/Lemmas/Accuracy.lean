import Verif.Lemmas.History
import Verif.Lemmas.Matrix
import Mathlib.Analysis.Calculus.MeanValue
import Mathlib.Analysis.ODE.Gronwall
import Mathlib.Analysis.Complex.Exponential
import Mathlib.Analysis.SpecialFunctions.ExpDeriv
import Mathlib.Analysis.Calculus.Deriv.Pow
import Mathlib.Analysis.Calculus.Deriv.Add
import Mathlib.Analysis.Calculus.Deriv.Mul
import Mathlib.Analysis.Calculus.Deriv.Shift
import Mathlib.Tactic.Module
import Mathlib.Topology.Algebra.Module.FiniteDimension
import Mathlib.Analysis.Normed.Group.Constructions

/-!
# Accuracy of Runge-Kutta chains on linear systems

`y' = A y + w` with constant `w`. On such a system a step of the methods here is a Taylor polynomial of the flow, plus a term of the
next order; the errors of the steps of a chain add up, amplified by at most the growth of the method.
-/

set_option linter.unusedSectionVars false

namespace SAD
open Set Finset

variable {V : Type} [NormedAddCommGroup V] [NormedSpace ℝ V]

/-- Taylor sum of the derivative -/
noncomputable def taylorD (A : V →L[ℝ] V) (p : ℕ) (s : ℝ) (d : V) : V := ∑ j ∈ range p, (s ^ j / (j.factorial : ℝ)) • (A ^ j) d

/-- Taylor sum of the displacement -/
noncomputable def taylorG (A : V →L[ℝ] V) (p : ℕ) (s : ℝ) (d : V) : V := ∑ j ∈ range p, (s ^ (j + 1) / ((j + 1).factorial : ℝ)) • (A ^ j) d

theorem hasDerivAt_monomial (j : ℕ) (s : ℝ) (v : V) :
    HasDerivAt (fun s : ℝ => (s ^ (j + 1) / ((j + 1).factorial : ℝ)) • v) ((s ^ j / (j.factorial : ℝ)) • v) s := by
  have h := ((hasDerivAt_pow (j + 1) s).div_const ((j + 1).factorial : ℝ)).smul_const v
  convert h using 2
  rw [Nat.factorial_succ]
  push_cast
  field_simp

theorem taylorG_deriv (A : V →L[ℝ] V) (p : ℕ) (s : ℝ) (d : V) :
    HasDerivAt (fun s => taylorG A p s d) (taylorD A p s d) s := by
  unfold taylorG taylorD
  exact HasDerivAt.fun_sum fun j _ => hasDerivAt_monomial j s _

theorem taylorD_succ (A : V →L[ℝ] V) (p : ℕ) (s : ℝ) (d : V) : taylorD A (p + 1) s d = d + taylorG A p s (A d) := by
  unfold taylorD taylorG
  rw [Finset.sum_range_succ', add_comm]
  congr 1
  simp

theorem taylorD_map (A : V →L[ℝ] V) (p : ℕ) (s : ℝ) (d : V) : taylorD A p s (A d) = A (taylorD A p s d) := by
  unfold taylorD
  rw [map_sum]
  refine Finset.sum_congr rfl fun j _ => ?_
  rw [map_smul, ← ContinuousLinearMap.mul_apply, ← ContinuousLinearMap.mul_apply, ← pow_succ, ← pow_succ']

theorem taylorG_zero (A : V →L[ℝ] V) (p : ℕ) (d : V) : taylorG A p 0 d = 0 := by
  unfold taylorG
  exact Finset.sum_eq_zero fun j _ => by simp

/-- the mean value inequality from zero -/
theorem mean_value {φ φ' : ℝ → V} {h C : ℝ} (hh : 0 ≤ h) (hd : ∀ s, HasDerivAt φ (φ' s) s) (h0 : φ 0 = 0)
    (hb : ∀ s, 0 ≤ s → s ≤ h → ‖φ' s‖ ≤ C) : ‖φ h‖ ≤ C * h := by
  have := norm_image_sub_le_of_norm_deriv_le_segment' (a := 0) (b := h) (f := φ) (f' := φ') (C := C)
    (fun s _ => (hd s).hasDerivWithinAt) (fun s hs => hb s hs.1 hs.2.le) h ⟨hh, le_rfl⟩
  simpa [h0] using this

variable {A : V →L[ℝ] V} {a : ℝ}

theorem taylorD_error (ha : 0 ≤ a) (hA : ∀ v, ‖A v‖ ≤ a * ‖v‖) {d : ℝ → V} (hd : ∀ t, HasDerivAt d (A (d t)) t) {M t H : ℝ}
    (hM : ∀ s, 0 ≤ s → s ≤ H → ‖d (t + s)‖ ≤ M) (p : ℕ) :
    ∀ h, 0 ≤ h → h ≤ H → ‖d (t + h) - taylorD A p h (d t)‖ ≤ (a * h) ^ p * M := by
  induction p with
  | zero => intro h h0 h1; simpa [taylorD] using hM h h0 h1
  | succ p ih =>
    intro h h0 h1
    have key := mean_value (φ := fun s => d (t + s) - taylorD A (p + 1) s (d t))
      (φ' := fun s => A (d (t + s) - taylorD A p s (d t))) (h := h) (C := a * ((a * h) ^ p * M)) h0 (fun s => ?_) (by simp [taylorD_succ, taylorG_zero])
      (fun s hs0 hs1 => ?_)
    · calc _ ≤ a * ((a * h) ^ p * M) * h := key
        _ = _ := by ring
    · rw [map_sub]
      refine HasDerivAt.sub ?_ ?_
      · have := (hd (t + s)).scomp s (((hasDerivAt_id s).const_add t))
        simpa [Function.comp_def] using this
      · simp only [taylorD_succ]
        rw [← taylorD_map]
        simpa using (taylorG_deriv A p s (A (d t))).const_add (d t)
    · refine (hA _).trans (mul_le_mul_of_nonneg_left ((ih s hs0 (hs1.trans h1)).trans ?_) ha)
      have hM0 : 0 ≤ M := (norm_nonneg _).trans (hM h h0 h1)
      exact mul_le_mul_of_nonneg_right (pow_le_pow_left₀ (mul_nonneg ha hs0) (mul_le_mul_of_nonneg_left hs1 ha) p) hM0

theorem taylorG_error (ha : 0 ≤ a) (hA : ∀ v, ‖A v‖ ≤ a * ‖v‖) {f d : ℝ → V} (hf : ∀ t, HasDerivAt f (d t) t)
    (hd : ∀ t, HasDerivAt d (A (d t)) t) {M t H : ℝ} (hM : ∀ s, 0 ≤ s → s ≤ H → ‖d (t + s)‖ ≤ M) (p : ℕ) {h : ℝ} (h0 : 0 ≤ h) (h1 : h ≤ H) :
    ‖f (t + h) - f t - taylorG A p h (d t)‖ ≤ (a * h) ^ p * M * h := by
  refine mean_value (φ := fun s => f (t + s) - f t - taylorG A p s (d t)) (φ' := fun s => d (t + s) - taylorD A p s (d t)) h0
    (fun s => ?_) (by simp [taylorG_zero]) (fun s hs0 hs1 => ?_)
  · refine HasDerivAt.sub ?_ (taylorG_deriv A p s (d t))
    have := ((hf (t + s)).scomp s (((hasDerivAt_id s).const_add t)))
    simpa [Function.comp_def] using this.sub_const (f t)
  · refine (taylorD_error ha hA hd hM p s hs0 (hs1.trans h1)).trans ?_
    have hM0 : 0 ≤ M := (norm_nonneg _).trans (hM h h0 h1)
    exact mul_le_mul_of_nonneg_right (pow_le_pow_left₀ (mul_nonneg ha hs0) (mul_le_mul_of_nonneg_left hs1 ha) p) hM0

/-- growth of the derivative -/
theorem rate_growth (hA : ∀ v, ‖A v‖ ≤ a * ‖v‖) {d : ℝ → V} (hd : ∀ t, HasDerivAt d (A (d t)) t) {T : ℝ} (hT : 0 ≤ T) :
    ‖d T‖ ≤ ‖d 0‖ * Real.exp (a * T) := by
  have := norm_le_gronwallBound_of_norm_deriv_right_le (f := d) (f' := fun t => A (d t)) (δ := ‖d 0‖) (K := a) (ε := 0) (a := 0) (b := T)
    (fun t _ => (hd t).continuousAt.continuousWithinAt) (fun t _ => (hd t).hasDerivWithinAt) le_rfl (fun t _ => by simpa using hA (d t)) T ⟨hT, le_rfl⟩
  simpa [gronwallBound_ε0] using this

/-- On `y' = A y + w` a step of the method is the Taylor polynomial of order `p` of the flow plus a term of order `p + 1`. -/
def TaylorStep (tab : KTab ℝ) (p : ℕ) (c : ℝ) : Prop :=
  ∀ {V : Type} [NormedAddCommGroup V] [NormedSpace ℝ V] (A : V →L[ℝ] V) (w : V) (t h : ℝ) (y : V),
    rkStep tab (fun _ y => A y + w) t h y = y + taylorG A p h (A y + w) + (c * h ^ (p + 1)) • (A ^ p) (A y + w)

theorem keuler_taylor : TaylorStep keuler 1 0 := by
  intro V _ _ A w t h y
  simp [rkStep, keuler, rkStages, combo, taylorG]

theorem kdopri_taylor : TaylorStep kdopri 5 (1 / 600) := by
  intro V _ _ A w t h y
  have e : ∀ v, A (y + v) + w = (A y + w) + A v := fun v => by rw [map_add]; abel
  simp only [rkStep, kdopri, rkStages, combo, List.zip_cons_cons, List.zip_nil_right, List.foldl_cons, List.foldl_nil, List.cons_append, List.nil_append,
    e]
  generalize A y + w = d
  simp only [taylorG, Finset.sum_range_succ, Finset.sum_range_zero, zero_add, pow_succ', pow_zero, one_mul, map_add, map_smul, map_zero,
    ContinuousLinearMap.mul_apply, ContinuousLinearMap.one_apply, mul_one, Nat.factorial]
  generalize A d = d1
  generalize A d1 = d2
  generalize A d2 = d3
  generalize A d3 = d4
  generalize A d4 = d5
  push_cast
  module

theorem pow_apply_norm (ha : 0 ≤ a) (hA : ∀ v, ‖A v‖ ≤ a * ‖v‖) (j : ℕ) (v : V) : ‖(A ^ j) v‖ ≤ a ^ j * ‖v‖ := by
  induction j with
  | zero => simp
  | succ j ih =>
    rw [pow_succ', ContinuousLinearMap.mul_apply]
    calc _ ≤ a * ‖(A ^ j) v‖ := hA _
      _ ≤ a * (a ^ j * ‖v‖) := mul_le_mul_of_nonneg_left ih ha
      _ = _ := by ring

theorem taylorD_sub (p : ℕ) (s : ℝ) (x y : V) : taylorD A p s x - taylorD A p s y = taylorD A p s (x - y) := by
  unfold taylorD
  rw [← Finset.sum_sub_distrib]
  exact Finset.sum_congr rfl fun j _ => by rw [map_sub, smul_sub]

/-- the two sums of a step over the difference of two states -/
theorem TaylorStep.sub {tab : KTab ℝ} {p : ℕ} {c : ℝ} (ht : TaylorStep tab p c) (w : V) (t h : ℝ) (x y : V) :
    rkStep tab (fun _ y => A y + w) t h x - rkStep tab (fun _ y => A y + w) t h y
      = taylorD A (p + 1) h (x - y) + (c * h ^ (p + 1)) • (A ^ (p + 1)) (x - y) := by
  rw [ht, ht]
  have hG : taylorG A p h (A x + w) - taylorG A p h (A y + w) = taylorG A p h (A (x - y)) := by
    unfold taylorG
    rw [← Finset.sum_sub_distrib]
    refine Finset.sum_congr rfl fun j _ => ?_
    rw [← smul_sub, ← map_sub]
    congr 2
    rw [map_sub]; abel
  have hP : (A ^ p) (A x + w) - (A ^ p) (A y + w) = (A ^ (p + 1)) (x - y) := by
    rw [← map_sub, pow_succ, ContinuousLinearMap.mul_apply]
    congr 1
    rw [map_sub]; abel
  rw [taylorD_succ, ← hG, ← hP, smul_sub]
  abel

/-- a step amplifies differences by at most `exp (2 a h)` -/
theorem TaylorStep.growth {tab : KTab ℝ} {p : ℕ} {c : ℝ} (ht : TaylorStep tab p c) (hc0 : 0 ≤ c) (hc : c ≤ 2 ^ (p + 1) / ((p + 1).factorial : ℝ))
    (ha : 0 ≤ a) (hA : ∀ v, ‖A v‖ ≤ a * ‖v‖) (w : V) (t : ℝ) {h : ℝ} (hh : 0 ≤ h) (x y : V) :
    ‖rkStep tab (fun _ y => A y + w) t h x - rkStep tab (fun _ y => A y + w) t h y‖ ≤ Real.exp (2 * (a * h)) * ‖x - y‖ := by
  rw [ht.sub]
  have hz : 0 ≤ a * h := mul_nonneg ha hh
  have h1 : ‖taylorD A (p + 1) h (x - y)‖ ≤ (∑ j ∈ range (p + 1), (2 * (a * h)) ^ j / (j.factorial : ℝ)) * ‖x - y‖ := by
    unfold taylorD
    rw [Finset.sum_mul]
    refine norm_sum_le_of_le _ fun j _ => ?_
    rw [norm_smul, Real.norm_of_nonneg (by positivity)]
    calc _ ≤ h ^ j / (j.factorial : ℝ) * (a ^ j * ‖x - y‖) := mul_le_mul_of_nonneg_left (pow_apply_norm ha hA j _) (by positivity)
      _ = (a * h) ^ j / (j.factorial : ℝ) * ‖x - y‖ := by rw [mul_pow]; ring
      _ ≤ _ := by
        refine mul_le_mul_of_nonneg_right (div_le_div_of_nonneg_right (pow_le_pow_left₀ hz (by linarith) j) (by positivity)) (norm_nonneg _)
  have h2 : ‖(c * h ^ (p + 1)) • (A ^ (p + 1)) (x - y)‖ ≤ (2 * (a * h)) ^ (p + 1) / ((p + 1).factorial : ℝ) * ‖x - y‖ := by
    rw [norm_smul, Real.norm_of_nonneg (by positivity)]
    calc _ ≤ c * h ^ (p + 1) * (a ^ (p + 1) * ‖x - y‖) := mul_le_mul_of_nonneg_left (pow_apply_norm ha hA _ _) (by positivity)
      _ = c * (a * h) ^ (p + 1) * ‖x - y‖ := by rw [mul_pow]; ring
      _ ≤ 2 ^ (p + 1) / ((p + 1).factorial : ℝ) * (a * h) ^ (p + 1) * ‖x - y‖ := by gcongr
      _ = _ := by rw [mul_pow 2]; ring
  have h3 : (∑ j ∈ range (p + 1), (2 * (a * h)) ^ j / (j.factorial : ℝ)) + (2 * (a * h)) ^ (p + 1) / ((p + 1).factorial : ℝ) ≤ Real.exp (2 * (a * h)) := by
    rw [← Finset.sum_range_succ]
    exact Real.sum_le_exp_of_nonneg (by linarith) _
  calc _ ≤ _ := norm_add_le _ _
    _ ≤ _ := add_le_add h1 h2
    _ = _ := by rw [← add_mul]
    _ ≤ _ := mul_le_mul_of_nonneg_right h3 (norm_nonneg _)

/-- the error of one step -/
theorem TaylorStep.local {tab : KTab ℝ} {p : ℕ} {c : ℝ} (ht : TaylorStep tab p c) (hc0 : 0 ≤ c) (hc : c ≤ 1) (ha : 0 ≤ a)
    (hA : ∀ v, ‖A v‖ ≤ a * ‖v‖) {w : V} {f : ℝ → V} (hf : ∀ t, HasDerivAt f (A (f t) + w) t) {M t h : ℝ} (hh : 0 ≤ h)
    (hM : ∀ s, 0 ≤ s → s ≤ h → ‖A (f (t + s)) + w‖ ≤ M) (r : ℝ) :
    ‖rkStep tab (fun _ y => A y + w) r h (f t) - f (t + h)‖ ≤ 2 * a ^ p * M * h ^ (p + 1) := by
  have hd : ∀ t, HasDerivAt (fun t => A (f t) + w) (A (A (f t) + w)) t := fun t =>
    ((A.hasFDerivAt.comp_hasDerivAt t (hf t))).add_const w
  have h1 := taylorG_error ha hA hf hd hM p hh le_rfl
  have hM0 : ‖A (f t) + w‖ ≤ M := by simpa using hM 0 le_rfl hh
  have h2 : ‖(c * h ^ (p + 1)) • (A ^ p) (A (f t) + w)‖ ≤ a ^ p * M * h ^ (p + 1) := by
    rw [norm_smul, Real.norm_of_nonneg (by positivity)]
    have hm : 0 ≤ M := (norm_nonneg _).trans hM0
    calc _ ≤ c * h ^ (p + 1) * (a ^ p * ‖A (f t) + w‖) := mul_le_mul_of_nonneg_left (pow_apply_norm ha hA _ _) (by positivity)
      _ ≤ 1 * h ^ (p + 1) * (a ^ p * M) := by gcongr
      _ = _ := by ring
  rw [ht]
  have e : f t + taylorG A p h (A (f t) + w) + (c * h ^ (p + 1)) • (A ^ p) (A (f t) + w) - f (t + h)
      = (c * h ^ (p + 1)) • (A ^ p) (A (f t) + w) - (f (t + h) - f t - taylorG A p h (A (f t) + w)) := by abel
  rw [e]
  calc _ ≤ _ := norm_sub_le _ _
    _ ≤ _ := add_le_add h2 h1
    _ = _ := by rw [mul_pow]; ring

/-- the error of a chain of steps of size at most `η` -/
theorem TaylorStep.chain {tab : KTab ℝ} {p : ℕ} {c : ℝ} (ht : TaylorStep tab p c) (hc0 : 0 ≤ c) (hc : c ≤ 1)
    (hc' : c ≤ 2 ^ (p + 1) / ((p + 1).factorial : ℝ)) (ha : 0 ≤ a)
    (hA : ∀ v, ‖A v‖ ≤ a * ‖v‖) {w : V} {f : ℝ → V} (hf : ∀ t, HasDerivAt f (A (f t) + w) t) {M T η : ℝ}
    (hM : ∀ s, 0 ≤ s → s ≤ T → ‖A (f s) + w‖ ≤ M) (hs : List ℝ) (h0 : ∀ h ∈ hs, 0 ≤ h ∧ h ≤ η) :
    ∀ (r t : ℝ) (y : V), 0 ≤ t → t + hs.sum ≤ T →
      ‖rkChain tab (fun _ y => A y + w) r y hs - f (t + hs.sum)‖
        ≤ Real.exp (2 * (a * hs.sum)) * (‖y - f t‖ + 2 * a ^ p * M * η ^ p * hs.sum) := by
  induction hs with
  | nil => intro r t y _ _; simp [rkChain]
  | cons h hs ih =>
    intro r t y ht0 hT
    have hh := h0 h (by simp)
    have hsum : 0 ≤ hs.sum := List.sum_nonneg fun x hx => (h0 x (by simp [hx])).1
    simp only [List.sum_cons] at hT ⊢
    have hM0 : 0 ≤ M := (norm_nonneg _).trans (hM t ht0 (by linarith [hh.1]))
    have h1 := ih (fun x hx => h0 x (by simp [hx])) (r + h) (t + h) (rkStep tab (fun _ y => A y + w) r h y) (by linarith [hh.1]) (by linarith)
    have h2 : ‖rkStep tab (fun _ y => A y + w) r h y - f (t + h)‖ ≤ Real.exp (2 * (a * h)) * ‖y - f t‖ + 2 * a ^ p * M * η ^ p * h := by
      have e1 := ht.growth hc0 hc' ha hA w r hh.1 y (f t)
      have e2 := ht.local hc0 hc ha hA hf (M := M) (t := t) hh.1 (fun s hs0 hs1 => hM _ (by linarith) (by linarith)) r
      calc _ ≤ _ := norm_sub_le_norm_sub_add_norm_sub _ (rkStep tab (fun _ y => A y + w) r h (f t)) _
        _ ≤ _ := add_le_add e1 e2
        _ ≤ _ := by
          have : h ^ (p + 1) ≤ η ^ p * h := by
            rw [pow_succ]
            exact mul_le_mul_of_nonneg_right (pow_le_pow_left₀ hh.1 hh.2 p) hh.1
          have h3 : 0 ≤ 2 * a ^ p * M := by positivity
          nlinarith [mul_le_mul_of_nonneg_left this h3]
    have hη : 0 ≤ η := hh.1.trans hh.2
    have hexp : 1 ≤ Real.exp (2 * (a * h)) := Real.one_le_exp (by have := hh.1; positivity)
    have hC : 0 ≤ 2 * a ^ p * M * η ^ p := by positivity
    rw [show t + (h + hs.sum) = t + h + hs.sum by ring]
    calc _ ≤ _ := h1
      _ ≤ Real.exp (2 * (a * hs.sum)) * (Real.exp (2 * (a * h)) * ‖y - f t‖ + 2 * a ^ p * M * η ^ p * h + 2 * a ^ p * M * η ^ p * hs.sum) := by
        gcongr
      _ ≤ Real.exp (2 * (a * hs.sum)) * (Real.exp (2 * (a * h)) * (‖y - f t‖ + 2 * a ^ p * M * η ^ p * (h + hs.sum))) := by
        refine mul_le_mul_of_nonneg_left ?_ (Real.exp_pos _).le
        have : 0 ≤ 2 * a ^ p * M * η ^ p * (h + hs.sum) := mul_nonneg hC (by linarith [hh.1])
        nlinarith [mul_le_mul_of_nonneg_right hexp this]
      _ = _ := by
        rw [← mul_assoc, ← Real.exp_add]
        congr 2
        ring

/-- the error of a chain, with the growth of the derivative bounded from its initial value -/
theorem TaylorStep.global {tab : KTab ℝ} {p : ℕ} {c : ℝ} (ht : TaylorStep tab p c) (hc0 : 0 ≤ c) (hc : c ≤ 1)
    (hc' : c ≤ 2 ^ (p + 1) / ((p + 1).factorial : ℝ)) (ha : 0 ≤ a)
    (hA : ∀ v, ‖A v‖ ≤ a * ‖v‖) {w : V} {f : ℝ → V} (hf : ∀ t, HasDerivAt f (A (f t) + w) t) {δ η ε : ℝ} (hδ : ‖A (f 0) + w‖ ≤ δ)
    {y : V} (hε : ‖y - f 0‖ ≤ ε) (hs : List ℝ) (h0 : ∀ h ∈ hs, 0 ≤ h ∧ h ≤ η) :
    ‖rkChain tab (fun _ y => A y + w) 0 y hs - f hs.sum‖
        ≤ Real.exp (2 * a * hs.sum) * (ε + 2 * a ^ p * hs.sum * Real.exp (a * hs.sum) * δ * η ^ p) := by
  have hsum : 0 ≤ hs.sum := List.sum_nonneg fun x hx => (h0 x hx).1
  have hd : ∀ t, HasDerivAt (fun t => A (f t) + w) (A (A (f t) + w)) t := fun t =>
    ((A.hasFDerivAt.comp_hasDerivAt t (hf t))).add_const w
  have hδ0 : 0 ≤ δ := (norm_nonneg _).trans hδ
  have hM : ∀ s, 0 ≤ s → s ≤ hs.sum → ‖A (f s) + w‖ ≤ δ * Real.exp (a * hs.sum) := fun s h1 h2 => by
    refine (rate_growth hA hd h1).trans ?_
    gcongr
  have := ht.chain hc0 hc hc' ha hA hf hM hs h0 0 0 y le_rfl (by simp)
  simp only [zero_add] at this
  refine this.trans ?_
  rw [show 2 * (a * hs.sum) = 2 * a * hs.sum by ring]
  refine mul_le_mul_of_nonneg_left ?_ (Real.exp_pos _).le
  rw [show 2 * a ^ p * (δ * Real.exp (a * hs.sum)) * η ^ p * hs.sum = 2 * a ^ p * hs.sum * Real.exp (a * hs.sum) * δ * η ^ p by ring]
  linarith

/-! ### matrices -/

/-- a matrix as a continuous linear map -/
noncomputable def matMap {n : ℕ} (A : Fin n → Fin n → ℝ) : (Fin n → ℝ) →L[ℝ] (Fin n → ℝ) :=
  LinearMap.toContinuousLinearMap { toFun := mulVec A, map_add' := mulVec_add A, map_smul' := mulVec_smul A }

theorem matMap_apply {n : ℕ} (A : Fin n → Fin n → ℝ) (v : Fin n → ℝ) : matMap A v = mulVec A v := rfl

theorem matMap_norm {n : ℕ} {A : Fin n → Fin n → ℝ} {a : ℝ} (ha : 0 ≤ a) (hrow : ∀ i, ∑ j, |A i j| ≤ a) (v : Fin n → ℝ) :
    ‖matMap A v‖ ≤ a * ‖v‖ := by
  rw [pi_norm_le_iff_of_nonneg (by positivity)]
  intro i
  rw [matMap_apply, mulVec, Real.norm_eq_abs]
  calc _ ≤ ∑ j, |A i j * v j| := Finset.abs_sum_le_sum_abs _ _
    _ ≤ ∑ j, |A i j| * ‖v‖ := Finset.sum_le_sum fun j _ => by
        rw [abs_mul]
        exact mul_le_mul_of_nonneg_left (norm_le_pi_norm v j) (abs_nonneg _)
    _ = (∑ j, |A i j|) * ‖v‖ := by rw [Finset.sum_mul]
    _ ≤ _ := mul_le_mul_of_nonneg_right (hrow i) (norm_nonneg _)

/-- order of the method -/
def Order (tab : KTab ℝ) (p : ℕ) : Prop := (tab = kdopri ∧ p = 5) ∨ (tab = keuler ∧ p = 1)

theorem linear_accuracy {n : ℕ} {tab : KTab ℝ} {p : ℕ} (ho : Order tab p) {A : Fin n → Fin n → ℝ} {w : Fin n → ℝ} {a : ℝ} (ha : 0 ≤ a)
    (hrow : ∀ i, ∑ j, |A i j| ≤ a) {f : ℝ → Fin n → ℝ} (hf : ∀ t, HasDerivAt f (mulVec A (f t) + w) t) {δ η ε : ℝ}
    (hδ0 : 0 ≤ δ) (hδ : ∀ i, |(mulVec A (f 0) + w) i| ≤ δ) {y : Fin n → ℝ} (hε0 : 0 ≤ ε) (hε : ∀ i, |y i - f 0 i| ≤ ε) (hs : List ℝ)
    (h0 : ∀ h ∈ hs, 0 ≤ h ∧ h ≤ η) (i : Fin n) :
    |rkChain tab (fun _ y => mulVec A y + w) 0 y hs i - f hs.sum i|
      ≤ Real.exp (2 * a * hs.sum) * (ε + 2 * a ^ p * hs.sum * Real.exp (a * hs.sum) * δ * η ^ p) := by
  have h1 : ‖matMap A (f 0) + w‖ ≤ δ := (pi_norm_le_iff_of_nonneg hδ0).2 fun i => hδ i
  have h2 : ‖y - f 0‖ ≤ ε := (pi_norm_le_iff_of_nonneg hε0).2 fun i => hε i
  have key : ‖rkChain tab (fun _ y => matMap A y + w) 0 y hs - f hs.sum‖
      ≤ Real.exp (2 * a * hs.sum) * (ε + 2 * a ^ p * hs.sum * Real.exp (a * hs.sum) * δ * η ^ p) := by
    rcases ho with ⟨rfl, rfl⟩ | ⟨rfl, rfl⟩
    · exact kdopri_taylor.global (by norm_num) (by norm_num) (by norm_num [Nat.factorial]) ha (matMap_norm ha hrow) (w := w) hf h1 h2 hs h0
    · exact keuler_taylor.global (by norm_num) (by norm_num) (by norm_num [Nat.factorial]) ha (matMap_norm ha hrow) (w := w) hf h1 h2 hs h0
  exact (norm_le_pi_norm _ i).trans key

/-! ### histories of an unlimited autonomous system -/

section
variable {K : Type} [Field K] {W : Type} [AddCommGroup W] [Module K W]

theorem rkChain_append (tab : KTab K) (F : K → W → W) (hs hs' : List K) : ∀ (t : K) (y : W),
    rkChain tab F t y (hs ++ hs') = rkChain tab F (t + hs.sum) (rkChain tab F t y hs) hs' := by
  induction hs with
  | nil => intro t y; simp [rkChain]
  | cons h hs ih => intro t y; simp only [List.cons_append, rkChain, ih, List.sum_cons, add_assoc]

theorem rkStages_time {F : K → W → W} (hF : ∀ t t' y, F t y = F t' y) (t t' h : K) (y : W) (st : List (K × List K)) (ks : List W) :
    rkStages F t h y st ks = rkStages F t' h y st ks := by
  induction st generalizing ks with
  | nil => rfl
  | cons p st ih =>
    obtain ⟨c, row⟩ := p
    simp only [rkStages]
    rw [hF (t + c * h) (t' + c * h)]
    exact ih _

/-- the clock does not matter to an autonomous system -/
theorem rkChain_time (tab : KTab K) {F : K → W → W} (hF : ∀ t t' y, F t y = F t' y) (hs : List K) : ∀ (t t' : K) (y : W),
    rkChain tab F t y hs = rkChain tab F t' y hs := by
  induction hs with
  | nil => intros; rfl
  | cons h hs ih =>
    intro t t' y
    simp only [rkChain, rkStep]
    rw [hF t t', rkStages_time hF t t']
    exact ih _ _ _

end

section
open Spec
variable {K : Type} {R : Fmt K} [Field K] [LinearOrder K] [IsStrictOrderedRing K] [FloorRing K] [Exact R] {n m : ℕ}

/-- A history of calls with one control is one chain of all the accepted steps. -/
theorem Realises.run_chain (hpi : 0 < R.pi) {M : KModel K n m} (hdom : ∀ y, M.dom y) (hpost : ∀ y, M.post R.pi y = y) {u : Fin m → K}
    (hF : ∀ t t' y, M.field (M.sat u) t y = M.field (M.sat u) t' y) {d : Dyn R}
    (hist : List (List K × K × Action R)) : ∀ {e : Entity R}, Realises e M → PlainMethod e.dynamics →
      e.dynamics.integrationMethod = d.integrationMethod →
      (∀ h ∈ hist, Asks (scheduled h.1) e h.2.2 u) → ∀ {y : Fin n → K}, e.state = toFl y →
      (runScheduled e hist).state = toFl (rkChain (flowTab d) (M.field (M.sat u)) 0 y (hist.flatMap fun h => flowHs d h.1 h.2.1)) := by
  induction hist with
  | nil => intro e _ _ _ _ y he; exact he
  | cons h hist ih =>
    intro e hr hm hd hq y he
    have hc : SameConfig e (e.step (scheduled h.1) (.fin h.2.1) h.2.2).entity := step_sameConfig _ e _ _
    have s1 := (hr.step_fixed h.1 hpi hm (hq h (by simp)) (S := fun _ => True) (fun y _ => hdom y) (Stable.univ _) he trivial h.2.1).2.1
    rw [hpost] at s1
    have t1 : (flowTab e.dynamics : KTab K) = flowTab d := by unfold flowTab; rw [hd]
    have g1 : flowHs e.dynamics h.1 h.2.1 = flowHs d h.1 h.2.1 := by unfold flowHs; rw [hd]
    rw [t1, g1] at s1
    have := ih (hr.congr hc) (plain_congr hc hm) ((sameConfig_method hc).1.trans hd)
      (fun g hg => requests_congr hc (hq g (by simp [hg]))) s1
    rw [List.flatMap_cons, rkChain_append, rkChain_time _ hF _ _ 0]
    exact this

end
end SAD
