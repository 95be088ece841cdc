import Verif.Lemmas.Matrix
import Verif.Lemmas.Binary
import Verif.Spec.Rounding
import Mathlib.Tactic.Linarith
import Mathlib.Tactic.Positivity
import Mathlib.Tactic.GCongr

/-! # Propagation of rounding errors -/

set_option linter.unusedSectionVars false

namespace SAD
open Spec

section near
variable {K : Type} [Field K] [LinearOrder K] [IsStrictOrderedRing K] {R : Fmt K}

/-- `z` is a finite float that approximates `x`, after `k` roundings, relative to the magnitude `a` -/
def Near (ε : K) (k : ℕ) (z : Fl R) (x a : K) : Prop := |x| ≤ a ∧ ∃ w, z = .fin w ∧ |w - x| ≤ ((1 + ε) ^ k - 1) * a

variable {ε τ M : K}

theorem one_le_pow_eps (h : 0 ≤ ε) (k : ℕ) : 1 ≤ (1 + ε) ^ k := one_le_pow₀ (by linarith)

theorem Near.nonneg {k : ℕ} {z : Fl R} {x a : K} (h : Near ε k z x a) : 0 ≤ a := (abs_nonneg x).trans h.1

theorem near_fin (x : K) : Near ε 0 (.fin x : Fl R) x |x| := ⟨le_rfl, x, rfl, by simp⟩

theorem Near.mono (hε : 0 ≤ ε) {k l : ℕ} {z : Fl R} {x a b : K} (h : Near ε k z x a) (hk : k ≤ l) (hab : a ≤ b) : Near ε l z x b := by
  obtain ⟨h1, w, rfl, h2⟩ := h
  have e : (1 + ε) ^ k ≤ (1 + ε) ^ l := pow_le_pow_right₀ (by linarith) hk
  have e1 := one_le_pow_eps hε k
  have ha := (abs_nonneg x).trans h1
  refine ⟨h1.trans hab, w, rfl, h2.trans ?_⟩
  exact mul_le_mul (by linarith) hab ha (by linarith)

theorem Near.neg {k : ℕ} {z : Fl R} {x a : K} (h : Near ε k z x a) : Near ε k (-z) (-x) a := by
  obtain ⟨h1, w, rfl, h2⟩ := h
  refine ⟨by simpa using h1, -w, rfl, ?_⟩
  rw [show -w - -x = -(w - x) by ring, abs_neg]; exact h2

theorem near_round (hR : Rounds R ε τ M) {k : ℕ} {w x a : K} (h1 : |x| ≤ a) (h2 : |w - x| ≤ ((1 + ε) ^ k - 1) * a)
    (hM : (1 + ε) ^ k * a ≤ M) : Near ε (k + 1) (Fl.round w : Fl R) x (a + τ) := by
  have hw : |w| ≤ (1 + ε) ^ k * a := by
    have := abs_add_le (w - x) x
    rw [sub_add_cancel] at this
    linarith
  obtain ⟨y, hy, hd⟩ := hR.rnd w (hw.trans hM)
  have hτ := hR.tau
  have hε := hR.eps
  refine ⟨by linarith, y, by simp [Fl.round, hy, Fl.ofExt], ?_⟩
  have h3 : |y - x| ≤ |y - w| + |w - x| := by
    have := abs_add_le (y - w) (w - x)
    rwa [sub_add_sub_cancel] at this
  have h4 : ε * (|w| + τ) ≤ ε * ((1 + ε) ^ k * a + τ) := by gcongr
  have e1 := one_le_pow_eps hε k
  have h5 : ε * τ ≤ ((1 + ε) ^ (k + 1) - 1) * τ := by
    apply mul_le_mul_of_nonneg_right _ hτ
    rw [pow_succ]; nlinarith
  calc |y - x| ≤ ε * ((1 + ε) ^ k * a + τ) + ((1 + ε) ^ k - 1) * a := by linarith
    _ = ((1 + ε) ^ (k + 1) - 1) * a + ε * τ := by rw [pow_succ]; ring
    _ ≤ ((1 + ε) ^ (k + 1) - 1) * (a + τ) := by rw [mul_add]; linarith

theorem Near.add (hR : Rounds R ε τ M) {k : ℕ} {z z' : Fl R} {x x' a a' : K} (h : Near ε k z x a) (h' : Near ε k z' x' a')
    (hM : (1 + ε) ^ k * (a + a') ≤ M) : Near ε (k + 1) (z + z') (x + x') (a + a' + τ) := by
  obtain ⟨h1, w, rfl, h2⟩ := h
  obtain ⟨h1', w', rfl, h2'⟩ := h'
  refine near_round hR ((abs_add_le _ _).trans (add_le_add h1 h1')) ?_ hM
  rw [show w + w' - (x + x') = (w - x) + (w' - x') by ring, mul_add]
  exact (abs_add_le _ _).trans (add_le_add h2 h2')

theorem Near.mul (hR : Rounds R ε τ M) {k k' : ℕ} {z z' : Fl R} {x x' a a' : K} (h : Near ε k z x a) (h' : Near ε k' z' x' a')
    (hM : (1 + ε) ^ (k + k') * (a * a') ≤ M) : Near ε (k + k' + 1) (z * z') (x * x') (a * a' + τ) := by
  have ha := h.nonneg
  have ha' := h'.nonneg
  obtain ⟨h1, w, rfl, h2⟩ := h
  obtain ⟨h1', w', rfl, h2'⟩ := h'
  have e := one_le_pow_eps hR.eps k
  have e' := one_le_pow_eps hR.eps k'
  refine near_round hR (by rw [abs_mul]; exact mul_le_mul h1 h1' (abs_nonneg _) ha) ?_ hM
  have hw : |w| ≤ (1 + ε) ^ k * a := by
    have := abs_add_le (w - x) x
    rw [sub_add_cancel] at this
    linarith
  calc |w * w' - x * x'| = |w * (w' - x') + (w - x) * x'| := by congr 1; ring
    _ ≤ |w * (w' - x')| + |(w - x) * x'| := abs_add_le _ _
    _ = |w| * |w' - x'| + |w - x| * |x'| := by rw [abs_mul, abs_mul]
    _ ≤ ((1 + ε) ^ k * a) * (((1 + ε) ^ k' - 1) * a') + (((1 + ε) ^ k - 1) * a) * a' := by
      refine add_le_add (mul_le_mul hw h2' (abs_nonneg _) (by positivity)) (mul_le_mul h2 h1' (abs_nonneg _) ?_)
      exact mul_nonneg (by linarith) ha
    _ = ((1 + ε) ^ (k + k') - 1) * (a * a') := by rw [pow_add]; ring

theorem near_div (hR : Rounds R ε τ M) {a b : K} (hb : b ≠ 0) (hM : |a / b| ≤ M) :
    Near ε 1 ((.fin a : Fl R) / .fin b) (a / b) (|a / b| + τ) := by
  have : ((.fin a : Fl R) / .fin b) = Fl.round (a / b) := by
    show Fl.div _ _ = _
    simp [Fl.div, hb]
  rw [this]
  exact near_round hR (k := 0) le_rfl (by simp) (by simpa using hM)

/-- a running sum of approximate terms -/
theorem near_foldl (hR : Rounds R ε τ M) {k : ℕ} : ∀ (l : List (Fl R × K × K)) {j : ℕ} {z : Fl R} {x a : K}, k ≤ j →
    (∀ t ∈ l, Near ε k t.1 t.2.1 t.2.2) → Near ε j z x a →
    (1 + ε) ^ (j + l.length) * (a + (l.map (fun t => t.2.2 + τ)).sum) ≤ M →
    Near ε (j + l.length) ((l.map (·.1)).foldl (· + ·) z) (x + (l.map (·.2.1)).sum) (a + (l.map (fun t => t.2.2 + τ)).sum)
  | [], j, z, x, a, _, _, h, _ => by simpa using h
  | t :: l, j, z, x, a, hk, ht, h, hM => by
    have ht0 := ht t (by simp)
    have hτ := hR.tau
    have hε := hR.eps
    have hs : 0 ≤ (l.map (fun t => t.2.2 + τ)).sum := by
      refine List.sum_nonneg fun y hy => ?_
      obtain ⟨q, hq, rfl⟩ := List.mem_map.1 hy
      have := (ht q (by simp [hq])).nonneg
      linarith
    have h0 := h.nonneg
    have h1 := ht0.nonneg
    have e1 := one_le_pow_eps hε j
    have hstep := h.add hR (ht0.mono hε hk le_rfl) (by
      refine le_trans ?_ hM
      simp only [List.map_cons, List.sum_cons, List.length_cons]
      exact mul_le_mul (pow_le_pow_right₀ (by linarith) (by omega)) (by linarith) (by linarith) (by positivity))
    have := near_foldl hR l (j := j + 1) (by omega) (fun q hq => ht q (by simp [hq])) hstep (by
      refine le_trans (le_of_eq ?_) hM
      simp only [List.map_cons, List.sum_cons, List.length_cons]
      rw [show j + 1 + l.length = j + (l.length + 1) by omega]; ring)
    simp only [List.map_cons, List.sum_cons, List.length_cons, List.foldl_cons]
    rw [show j + (l.length + 1) = j + 1 + l.length by omega,
      show a + (t.2.2 + τ + (l.map (fun t => t.2.2 + τ)).sum) = a + t.2.2 + τ + (l.map (fun t => t.2.2 + τ)).sum by ring, ← add_assoc]
    exact this

/-- a scalar product of approximate vectors -/
theorem near_dot (hR : Rounds R ε τ M) {k k' n : ℕ} {z z' : Fin n → Fl R} {x x' a a' : Fin n → K}
    (h : ∀ i, Near ε k (z i) (x i) (a i)) (h' : ∀ i, Near ε k' (z' i) (x' i) (a' i))
    (hM : (1 + ε) ^ (k + k' + 1 + n) * ∑ i, (a i * a' i + 2 * τ) ≤ M) :
    Near ε (k + k' + 1 + n) (dot (List.ofFn z) (List.ofFn z')) (∑ i, x i * x' i) (∑ i, (a i * a' i + 2 * τ)) := by
  have hτ := hR.tau
  have hε := hR.eps
  have hpos : ∀ i, 0 ≤ a i * a' i := fun i => mul_nonneg (h i).nonneg (h' i).nonneg
  have hmul : ∀ i, Near ε (k + k' + 1) (z i * z' i) (x i * x' i) (a i * a' i + τ) := fun i => by
    refine (h i).mul hR (h' i) (le_trans ?_ hM)
    have e1 := one_le_pow_eps hε (k + k')
    refine mul_le_mul (pow_le_pow_right₀ (by linarith) (by omega)) ?_ (hpos i) (by positivity)
    have := Finset.single_le_sum (f := fun i => a i * a' i + 2 * τ) (fun j _ => by have := hpos j; positivity) (Finset.mem_univ i)
    linarith
  have hz : Near ε (k + k' + 1) (0 : Fl R) 0 0 := by
    have := (near_fin (R := R) (ε := ε) (0 : K)).mono hε (Nat.zero_le (k + k' + 1)) le_rfl
    rw [abs_zero] at this
    rwa [Fl.zero_fin]
  have := near_foldl hR (List.ofFn (fun i => ((z i * z' i, x i * x' i, a i * a' i + τ) : Fl R × K × K))) le_rfl
    (by simp only [List.mem_ofFn, forall_exists_index]; rintro t i rfl; exact hmul i) hz
    (by
      simp only [List.map_ofFn, List.length_ofFn, List.sum_ofFn, zero_add, Function.comp]
      refine le_trans (le_of_eq ?_) hM
      congr 1
      exact Finset.sum_congr rfl fun i _ => by ring)
  simp only [List.map_ofFn, List.length_ofFn, List.sum_ofFn, zero_add, Function.comp] at this
  unfold dot
  rw [zipWith_ofFn]
  refine this.mono hε le_rfl (le_of_eq (Finset.sum_congr rfl fun i _ => by ring))

/-- a list of approximate floats is an array of finite numbers -/
theorem near_ofFn {k n : ℕ} {z : Fin n → Fl R} {x a : Fin n → K} (h : ∀ i, Near ε k (z i) (x i) (a i)) :
    ∃ v : Fin n → K, List.ofFn z = toFl v ∧ ∀ i, |v i - x i| ≤ ((1 + ε) ^ k - 1) * a i := by
  choose h1 v h2 h3 using h
  exact ⟨v, by simp only [toFl, funext h2], h3⟩

/-- a matrix of floats as a 2-d array -/
def flMat {n m : ℕ} (z : Fin n → Fin m → Fl R) : Mat R := ⟨List.ofFn (fun i => List.ofFn (z i)), m⟩

/-- magnitude of the terms of a row of `A x + B u` -/
def rowMag {n m : ℕ} (τ : K) (a : Fin n → Fin n → K) (b : Fin n → Fin m → K) (x : Fin n → K) (u : Fin m → K) (i : Fin n) : K :=
  ∑ j, (a i j * |x j| + 2 * τ) + ∑ j, (b i j * |u j| + 2 * τ) + τ

/-- the derivative of a linear model -/
theorem near_affine (hR : Rounds R ε τ M) {k n m : ℕ} {zA : Fin n → Fin n → Fl R} {zB : Fin n → Fin m → Fl R}
    {A a : Fin n → Fin n → K} {B b : Fin n → Fin m → K} (hA : ∀ i j, Near ε k (zA i j) (A i j) (a i j))
    (hB : ∀ i j, Near ε k (zB i j) (B i j) (b i j)) (t : Fl R) (x : Fin n → K) (u : Fin m → K)
    (hM : ∀ i, (1 + ε) ^ (k + 2 + max n m) * rowMag τ a b x u i ≤ M) :
    ∃ v : Fin n → K, affineRhs (fun x => matVec (flMat zA) x) (fun _ => .ok (flMat zB)) t (toFl x) (toFl u) = .ok (toFl v) ∧
      ∀ i, |v i - (∑ j, A i j * x j + ∑ j, B i j * u j)| ≤ ((1 + ε) ^ (k + 2 + max n m) - 1) * rowMag τ a b x u i := by
  have hτ := hR.tau
  have hε := hR.eps
  have hm1 : ∀ (x : Fin n → K) (y : Fin n → K), matVec (flMat zA) (toFl y) = .ok (List.ofFn fun i => dot (List.ofFn (zA i)) (toFl y)) := by
    intro x y; simp [matVec, flMat, List.map_ofFn, toFl]; rfl
  have hm2 : ∀ (y : Fin m → K), matVec (flMat zB) (toFl y) = .ok (List.ofFn fun i => dot (List.ofFn (zB i)) (toFl y)) := by
    intro y; simp [matVec, flMat, List.map_ofFn, toFl]; rfl
  have pa : ∀ i, 0 ≤ ∑ j, (a i j * |x j| + 2 * τ) := fun i => Finset.sum_nonneg fun j _ => by
    have := mul_nonneg (hA i j).nonneg (abs_nonneg (x j)); positivity
  have pb : ∀ i, 0 ≤ ∑ j, (b i j * |u j| + 2 * τ) := fun i => Finset.sum_nonneg fun j _ => by
    have := mul_nonneg (hB i j).nonneg (abs_nonneg (u j)); positivity
  have mono : ∀ i (l : ℕ) (y : K), l ≤ k + 2 + max n m → 0 ≤ y → y ≤ rowMag τ a b x u i → (1 + ε) ^ l * y ≤ M := fun i l y hl hy hy' =>
    le_trans (mul_le_mul (pow_le_pow_right₀ (by linarith) hl) hy' hy (by positivity)) (hM i)
  have row : ∀ i, Near ε (k + 2 + max n m) (dot (List.ofFn (zA i)) (toFl x) + dot (List.ofFn (zB i)) (toFl u))
      (∑ j, A i j * x j + ∑ j, B i j * u j) (rowMag τ a b x u i) := by
    intro i
    have ha := near_dot hR (k' := 0) (hA i) (fun j => near_fin (x j))
      (mono i _ _ (by have := le_max_left n m; omega) (pa i) (by unfold rowMag; have := pb i; linarith))
    have hb := near_dot hR (k' := 0) (hB i) (fun j => near_fin (u j))
      (mono i _ _ (by have := le_max_right n m; omega) (pb i) (by unfold rowMag; have := pa i; linarith))
    have ha' := ha.mono hε (l := k + 1 + max n m) (by have := le_max_left n m; omega) le_rfl
    have hb' := hb.mono hε (l := k + 1 + max n m) (by have := le_max_right n m; omega) le_rfl
    have := ha'.add hR hb' (mono i _ _ (by omega) (add_nonneg (pa i) (pb i)) (by unfold rowMag; linarith))
    rw [show k + 1 + max n m + 1 = k + 2 + max n m by omega] at this
    exact this
  obtain ⟨v, h1, h2⟩ := near_ofFn row
  refine ⟨v, ?_, h2⟩
  simp only [affineRhs, hm1 x, hm2, bind, Except.bind, vadd]
  rw [bcast2_same (by simp), zipWith_ofFn, h1]

/-- a forward Euler update -/
theorem near_euler (hR : Rounds R ε τ M) {k n : ℕ} (T : K) (x v w a : Fin n → K) (hw : ∀ i, |w i| ≤ a i)
    (hv : ∀ i, |v i - w i| ≤ ((1 + ε) ^ k - 1) * a i) (hM : ∀ i, (1 + ε) ^ (k + 2) * (|x i| + |T| * a i + 2 * τ) ≤ M) :
    ∃ x' : Fin n → K, vadd (toFl x : Vec R) (vscale (.fin T) (toFl v)) = .ok (toFl x') ∧
      ∀ i, |x' i - (x i + T * w i)| ≤ ((1 + ε) ^ (k + 2) - 1) * (|x i| + |T| * a i + 2 * τ) := by
  have hτ := hR.tau
  have hε := hR.eps
  have row : ∀ i, Near ε (k + 2) ((.fin (x i) : Fl R) + .fin T * .fin (v i)) (x i + T * w i) (|x i| + |T| * a i + 2 * τ) := by
    intro i
    have ha : 0 ≤ a i := (abs_nonneg _).trans (hw i)
    have mono : ∀ (l : ℕ) (y : K), l ≤ k + 2 → 0 ≤ y → y ≤ |x i| + |T| * a i + 2 * τ → (1 + ε) ^ l * y ≤ M := fun l y hl hy hy' =>
      le_trans (mul_le_mul (pow_le_pow_right₀ (by linarith) hl) hy' hy (by positivity)) (hM i)
    have hx := abs_nonneg (x i)
    have hv' : Near ε k (.fin (v i) : Fl R) (w i) (a i) := ⟨hw i, v i, rfl, hv i⟩
    have h1 := (near_fin (R := R) (ε := ε) T).mul hR hv' (mono _ _ (by omega) (by positivity) (by linarith))
    rw [show 0 + k + 1 = k + 1 by omega] at h1
    have h2 := ((near_fin (R := R) (ε := ε) (x i)).mono hε (Nat.zero_le (k + 1)) le_rfl).add hR h1
      (mono _ _ (by omega) (by positivity) (by linarith))
    exact h2.mono hε le_rfl (by linarith)
  obtain ⟨x', h1, h2⟩ := near_ofFn row
  refine ⟨x', ?_, h2⟩
  simp only [vadd, vscale, toFl, List.map_ofFn]
  rw [bcast2_same (by simp), zipWith_ofFn]
  exact congrArg _ h1

variable [FloorRing K]

/-- The derivative of a dynamics without limits is its raw derivative. -/
theorem computeStateDot_unlimited {d : Dyn R} (hu : Unlimited d) {n : ℕ} {t : Fl R} {u : Vec R} {y v : Fin n → K}
    (h : d.rhs t (toFl y) u = .ok (toFl v)) : d.computeStateDot t (toFl y) u = .ok (toFl v) := by
  have := computeStateDot_lift (lo := fun _ => none) (hi := fun _ => none) (dlo := fun _ => none) (dhi := fun _ => none)
    (.inr ⟨_, hu.stateMin, fun i => rfl⟩) (.inr ⟨_, hu.stateMax, fun i => rfl⟩) (.inr ⟨_, hu.stateDotMin, fun i => rfl⟩)
    (.inr ⟨_, hu.stateDotMax, fun i => rfl⟩) h
  simpa [klimit_free] using this

/-- An Euler step of a dynamics without limits. -/
theorem eulerStep_unlimited {d : Dyn R} (hu : Unlimited d) (hm : d.integrationMethod = "Euler") (hs : d.trajectorySamples ≤ 0) {n : ℕ}
    {u : Vec R} {y v y' : Fin n → K} {T : Fl R} (h : d.rhs 0 (toFl y) u = .ok (toFl v))
    (h' : vadd (toFl y) (vscale T (toFl v)) = .ok (toFl y')) (env : Env R) :
    d.step env T (toFl y) u = (d, .ok (toFl y', toFl v)) := by
  have hs' : ¬ 0 < d.trajectorySamples := by omega
  have hclip : npClip (toFl y' : Vec R) d.stateMin d.stateMax = .ok (toFl y') := by
    have := npClip_toFl (R := R) y' (lo := d.stateMin) (hi := d.stateMax) (l := fun _ => none) (h := fun _ => none)
      (.inr ⟨_, hu.stateMin, fun i => rfl⟩) (.inr ⟨_, hu.stateMax, fun i => rfl⟩)
    simpa [kclip] using this
  simp only [Dyn.step, Dyn.rawStep, hu.custom, Dyn.odeStep, hm]
  simp only [show ("Euler" = "RK45") = False from by simp, show ("Euler" = "RK45_JAX") = False from by simp, if_false,
    if_true, hs', computeStateDot_unlimited hu h, bind, Except.bind, pure, Except.pure, h', hclip, Dyn.wrapAngles, hu.wrap]

end near

/-! ### double precision -/

theorem roundEven_error (x : ℚ) : |(roundEven x : ℚ) - x| ≤ 1 / 2 := by
  have h1 := Int.floor_le x
  have h2 := Int.lt_floor_add_one x
  unfold roundEven
  simp only
  rw [abs_le]
  split_ifs <;> push_cast <;> constructor <;> linarith

theorem nearestBin_error (p : ℕ) (emin : ℤ) (x : ℚ) : |nearestBin p emin x - x| ≤ 2⁻¹ ^ p * (|x| + 2 ^ emin) := by
  by_cases hx0 : x = 0
  · subst hx0
    rw [nearestBin_zero]
    simp
    positivity
  have hu := ulpOf_pos p emin x
  have e : nearestBin p emin x - x = (roundEven (x / ulpOf p emin x) - x / ulpOf p emin x) * ulpOf p emin x := by
    unfold nearestBin; rw [sub_mul, div_mul_cancel₀ _ hu.ne']
  rw [e, abs_mul, abs_of_pos hu]
  have h1 : |(roundEven (x / ulpOf p emin x) : ℚ) - x / ulpOf p emin x| * ulpOf p emin x ≤ 1 / 2 * ulpOf p emin x :=
    mul_le_mul_of_nonneg_right (roundEven_error _) hu.le
  refine h1.trans ?_
  have h2 : ulpOf p emin x = 2 * 2⁻¹ ^ p * 2 ^ (binExp emin x) := by
    unfold ulpOf
    rw [zpow_sub₀ (by norm_num), zpow_sub₀ (by norm_num), zpow_natCast, zpow_one, inv_pow]
    field_simp
  have h3 : (2 : ℚ) ^ (binExp emin x) ≤ |x| + 2 ^ emin := by
    by_cases hb : emin < binExp emin x
    · have hx : 0 < |x| := abs_pos.2 hx0
      have := binExp_le emin (x := |x|) hx (by simpa [binExp] using hb)
      have e : binExp emin |x| = binExp emin x := by simp [binExp]
      rw [e] at this
      have : (0 : ℚ) < 2 ^ emin := by positivity
      linarith
    · have : binExp emin x = emin := by unfold binExp at *; omega
      rw [this]
      have := abs_nonneg x
      linarith
  rw [h2]
  have : (0 : ℚ) < 2⁻¹ ^ p := by positivity
  nlinarith

/-- IEEE double precision rounds with relative error `2^-53` and absolute error `2^-1075` up to `2^1023`. -/
theorem b64_rounds (libm : Fmt ℚ) : Rounds (b64Of libm) (2⁻¹ ^ 53) (2 ^ (-1022 : ℤ)) (2 ^ (1023 : ℤ)) where
  eps := by positivity
  tau := by positivity
  rnd := by
    intro x hx
    have hlt : (2 : ℚ) ^ (1023 : ℤ) < 2 ^ ((1023 : ℤ) + 1) := zpow_lt_zpow_right₀ (by norm_num) (by norm_num)
    have hid : nearestBin 53 (-1022) (2 ^ (1023 : ℤ)) = 2 ^ (1023 : ℤ) := by decide +kernel
    have h1 : nearestBin 53 (-1022) x ≤ 2 ^ (1023 : ℤ) := by
      have := nearestBin_mono 53 (-1022) (by norm_num) ((le_abs_self x).trans hx)
      rwa [hid] at this
    have h2 : -2 ^ (1023 : ℤ) ≤ nearestBin 53 (-1022) x := by
      have := nearestBin_mono 53 (-1022) (by norm_num) (neg_le_of_abs_le hx)
      rwa [nearestBin_neg, hid] at this
    refine ⟨nearestBin 53 (-1022) x, ?_, nearestBin_error 53 (-1022) x⟩
    show rndBin 53 (-1022) 1023 x = _
    unfold rndBin
    simp only
    rw [if_neg, if_neg]
    · intro h
      exact absurd (h2.trans h) (not_le.2 (neg_lt_neg hlt))
    · intro h
      exact absurd (h.trans h1) (not_le.2 hlt)

end SAD
