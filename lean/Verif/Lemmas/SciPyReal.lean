import Verif.Lemmas.SciPy
import Verif.Spec.ErrorControl
import Verif.Model.Formats

/-! # SciPy's error estimate over the real numbers -/

set_option linter.unusedSectionVars false

namespace SAD
open Spec

section exact
variable {K : Type} {R : Fmt K} [Field K] [LinearOrder K] [IsStrictOrderedRing K] [Exact R] {n : Nat}

/-- `RK45.E` over a field -/
def kdopriE : List K := [-71/57600, 0, 71/16695, -71/1920, 17253/339200, -22/525, 1/40]

theorem dopriE_lift : (dopriE : Vec R) = (kdopriE : List K).map .fin := by
  have e : ∀ a b : ℕ, b ≠ 0 → ∀ x : K, x = (a : K) / b → (Fl.fin (a : K) / Fl.fin (b : K) : Fl R) = .fin x := by
    intro a b hb x hx; rw [div_lit a b hb, hx]
  have e' : ∀ a b : ℕ, b ≠ 0 → ∀ x : K, x = -(a : K) / b → (-(Fl.fin (a : K)) / Fl.fin (b : K) : Fl R) = .fin x := by
    intro a b hb x hx; rw [Fl.neg_fin, Fl.fin_div_fin _ _ (by exact_mod_cast hb), hx]
  unfold dopriE kdopriE
  simp only [List.map_cons, List.map_nil, List.cons.injEq, and_true]
  refine ⟨?_, ?_, ?_, ?_, ?_, ?_, ?_⟩ <;>
  first
    | exact Fl.one_fin
    | exact Fl.zero_fin
    | exact e _ _ (by norm_num) _ (by norm_num)
    | exact e' _ _ (by norm_num) _ (by norm_num)

/-- the weighted squares that the norm sums up -/
def ksq (x : Fin n → K) : K := ∑ i, x i * x i

theorem foldl_sq_lift (x : Fin n → K) (acc : K) :
    (toFl x : Vec R).foldl (fun acc a => acc + a * a) (.fin acc) = .fin (acc + ksq x) := by
  induction n generalizing acc with
  | zero => simp [toFl, ksq]
  | succ n ih =>
    have := ih (fun i => x i.succ) (acc + x 0 * x 0)
    simp only [toFl, List.ofFn_succ, List.foldl_cons, Fl.fin_mul_fin, Fl.fin_add_fin] at this ⊢
    rw [this]
    simp only [ksq, Fin.sum_univ_succ, add_assoc]

theorem rmsNorm_lift (x : Fin n → K) : rmsNorm (toFl x : Vec R) = .fin (R.sqrt (ksq x)) / powSci (.fin (n : K)) (1 / 2) := by
  have h0 : ¬ ksq x < 0 := not_lt.2 (Finset.sum_nonneg fun i _ => mul_self_nonneg _)
  unfold rmsNorm
  rw [Fl.zero_fin, foldl_sq_lift, zero_add, toFl_length]
  simp [Fl.sqrt, h0]

def kscale (y y' : Fin n → K) : Fin n → K := fun i => 1/1000000 + max |y i| |y' i| * (1/1000)

theorem kscale_pos (y y' : Fin n → K) (i : Fin n) : 0 < kscale y y' i := by
  have := le_max_of_le_left (c := |y' i|) (abs_nonneg (y i))
  have h1 : (0 : K) < 1/1000000 := by norm_num
  have h2 : 0 ≤ max |y i| |y' i| * (1/1000) := mul_nonneg this (by norm_num)
  unfold kscale
  linarith

theorem sciAbs_fin (x : K) : (Fl.fin x : Fl R).abs = .fin |x| := by
  simp only [Fl.abs]
  by_cases h : x < 0
  · rw [if_pos h, abs_of_neg h]
  · rw [if_neg h, abs_of_nonneg (not_lt.1 h)]

theorem div_lit_eq (a b : ℕ) (hb : b ≠ 0) (x : K) (hx : x = (a : K) / b) : (Fl.fin (a : K) / Fl.fin (b : K) : Fl R) = .fin x := by
  rw [div_lit a b hb, hx]

theorem rtol_fin : (rtol : Fl R) = .fin (1/1000) := div_lit_eq 1 1000 (by norm_num) _ (by norm_num)

theorem atol_fin : (atol : Fl R) = .fin (1/1000000) := div_lit_eq 1 1000000 (by norm_num) _ (by norm_num)

theorem errorScale_lift (y y' : Fin n → K) : errorScale (toFl y : Vec R) (toFl y') = toFl (kscale y y') := by
  unfold errorScale toFl
  rw [zipWith_ofFn]
  congr 1
  funext i
  rw [sciAbs_fin, sciAbs_fin, npMax_fin, rtol_fin, atol_fin, Fl.fin_mul_fin, Fl.fin_add_fin]
  rfl

theorem toFl_div (a b : Fin n → K) (hb : ∀ i, b i ≠ 0) : List.zipWith (· / ·) (toFl a : Vec R) (toFl b) = toFl (fun i => a i / b i) := by
  unfold toFl
  rw [zipWith_ofFn]
  congr 1
  funext i
  exact Fl.fin_div_fin _ _ (hb i)

/-- the estimated error relative to the tolerance -/
def kerr (y y' : Fin n → K) (ks : List (Fin n → K)) (h : K) : Fin n → K := fun i => (h • combo (kdopriE : List K) ks) i / kscale y y' i

theorem errorNorm_lift (y y' : Fin n → K) (ks : List (Fin n → K)) (h : K) :
    errorNorm (toFl y : Vec R) (toFl y') (ks.map toFl) (.fin h) =
      .fin (R.sqrt (ksq (kerr y y' ks h))) / powSci (.fin (n : K)) (1 / 2) := by
  unfold errorNorm
  rw [dopriE_lift, toFl_length, comboFl_lift, toFl_mul_right, errorScale_lift, toFl_div _ _ (fun i => (kscale_pos y y' i).ne'), rmsNorm_lift]
  rfl

/-- the rows `K` of a step over the field -/
def krows (F : K → (Fin n → K) → (Fin n → K)) (t h : K) (y : Fin n → K) : List (Fin n → K) :=
  rkStages F t h y (kdopri : KTab K).stages [F t y] ++ [F (t + h) (rkStep kdopri F t h y)]

theorem rkStepK_lift {f : Rhs R} {F : K → (Fin n → K) → (Fin n → K)} {S : (Fin n → K) → Prop} {D : Submodule K (Fin n → K)}
    (hf : LiftsOn S f F) (hst : Stable F S D) (t h : K) {y : Fin n → K} (hy : S y) :
    rkStepK f (.fin t) (.fin h) (toFl y) (toFl (F t y)) =
      .ok (toFl (rkStep kdopri F t h y), (krows F t h y).map toFl, (toFl (F (t + h) (rkStep kdopri F t h y)) : Vec R)) ∧
      S (rkStep kdopri F t h y) := by
  have hst' := rkStagesFl_liftOn hf hst t h y hy (kdopri : KTab K).stages [F t y] (by
    intro k hk; simp at hk; subst hk; exact hst.field _ _ hy)
  have hS := rkChain_inv kdopri F S D hst.field hst.move t y [h] hy
  simp only [rkChain] at hS
  refine ⟨?_, hS⟩
  unfold rkStepK
  rw [dopri_lift]
  change (rkStagesFl f (.fin t) (.fin h) (toFl y) (liftStages kdopri.stages) ([F t y].map toFl) >>= _) = _
  rw [hst']
  simp only [bind, Except.bind, toFl_length, liftTab]
  rw [comboFl_lift, toFl_mul_left, toFl_add, Fl.fin_add_fin]
  have e0 : rkStep kdopri F t h y = y + h • combo (kdopri : KTab K).b (rkStages F t h y (kdopri : KTab K).stages [F t y]) := rfl
  rw [← e0, hf _ _ hS]
  simp only [fitRow_toFl, pure, Except.pure, krows, List.map_append, List.map_cons, List.map_nil]

/-- the rows of an accepted step are the stages over the field -/
theorem Accepts.rows {f : Rhs R} {F : K → (Fin n → K) → (Fin n → K)} {S : (Fin n → K) → Prop} {D : Submodule K (Fin n → K)}
    (hf : LiftsOn S f F) (hst : Stable F S D) {t : K} {y y' : Fin n → K} (hy : S y) {f0 : Vec R} (hf0 : Slope f t y f0)
    {h : K} {ks : List (Fin n → K)} {a : RkAccepted R} (ha : Accepts f t y f0 h y' ks a) :
    ks = rkStages F t h y (kdopri : KTab K).stages [F t y] ++ [F (t + h) y'] ∧ y' = SAD.rkStep kdopri F t h y ∧ S y' := by
  obtain ⟨k, h1, h2⟩ := hf0
  rw [hf t y hy] at h1
  cases h1
  rw [fitRow_toFl] at h2
  cases h2
  have hs := ha.step
  rw [(rkStepK_lift hf hst t h hy).1] at hs
  simp only [Except.ok.injEq, Prod.mk.injEq] at hs
  obtain ⟨e1, e2, e3⟩ := hs
  have e1 : SAD.rkStep kdopri F t h y = y' := toFl_inj (R := R) e1
  refine ⟨?_, e1.symm, e1 ▸ (rkStepK_lift hf hst t h hy).2⟩
  rw [← e1]
  exact (List.map_injective_iff.2 (fun a b h => toFl_inj (R := R) h) e2).symm

/-! ### sampled trajectories -/

/-- the interpolant of a step of `x' = v`, `v' = a` is the parabola -/
theorem kdense_double {F : K → (Fin n → K) → (Fin n → K)} (X U : (Fin n → K) →ₗ[K] K) (a : K) (hX : ∀ t y, X (F t y) = U y)
    (hU : ∀ t y, U (F t y) = a) (t h : K) (y : Fin n → K) (x : K) :
    X (kdense y h (rkStages F t h y (kdopri : KTab K).stages [F t y] ++ [F (t + h) (rkStep kdopri F t h y)]) x)
      = X y + U y * (x * h) + a * (x * h) ^ 2 * (1 / 2) ∧
    U (kdense y h (rkStages F t h y (kdopri : KTab K).stages [F t y] ++ [F (t + h) (rkStep kdopri F t h y)]) x) = U y + a * (x * h) := by
  have hUs : U (rkStep kdopri F t h y) = U y + a * h := by
    have := rkChain_const_rate kdopri kdopri_consistent.b1 kdopri_consistent.blen F U a hU t y [h]
    simpa [rkChain] using this
  obtain ⟨h1, h2⟩ := rkStages_double_integrator F X U a hX hU t h y (kdopri : KTab K).stages [F t y] [0] kdopri_consistent.rows rfl (by simp [hX])
    (by intro k hk; simp at hk; subst hk; exact hU _ _)
  have hl : (rkStages F t h y (kdopri : KTab K).stages [F t y]).length = 6 := by rw [rkStages_length]; rfl
  generalize rkStages F t h y (kdopri : KTab K).stages [F t y] = ks at *
  obtain ⟨k0, k1, k2, k3, k4, k5, rfl⟩ : ∃ k0 k1 k2 k3 k4 k5, ks = [k0, k1, k2, k3, k4, k5] := by
    match ks, hl with
    | [k0, k1, k2, k3, k4, k5], _ => exact ⟨k0, k1, k2, k3, k4, k5, rfl⟩
  have h6 := hX (t + h) (rkStep kdopri F t h y)
  have g6 := hU (t + h) (rkStep kdopri F t h y)
  rw [hUs] at h6
  generalize F (t + h) (rkStep kdopri F t h y) = k6 at *
  simp only [kdopri, List.map_cons, List.map_nil, List.cons_append, List.nil_append, List.cons.injEq, and_true] at h1
  simp only [List.mem_cons, List.not_mem_nil, or_false, forall_eq_or_imp, forall_eq] at h2
  obtain ⟨a0, a1, a2, a3, a4, a5⟩ := h1
  obtain ⟨b0, b1, b2, b3, b4, b5⟩ := h2
  constructor
  · simp only [kdense, combo, kdopriP, List.map_cons, List.map_nil, List.zip_cons_cons, List.foldl_cons, List.zip_nil_right, List.foldl_nil,
      List.cons_append, List.nil_append, map_add, map_smul, map_zero, smul_eq_mul, a0, a1, a2, a3, a4, a5, h6]
    ring
  · simp only [kdense, combo, kdopriP, List.map_cons, List.map_nil, List.zip_cons_cons, List.foldl_cons, List.zip_nil_right, List.foldl_nil,
      List.cons_append, List.nil_append, map_add, map_smul, map_zero, smul_eq_mul, b0, b1, b2, b3, b4, b5, g6]
    ring

theorem reached_iff {δ : K} (hδ : δ = 1 ∨ δ = -1) (u v : K) :
    (if (0 : Fl R) < .fin δ then decide ((.fin u : Fl R) ≤ .fin v) else decide ((.fin v : Fl R) ≤ .fin u)) = decide (0 ≤ δ * (v - u)) := by
  rcases hδ with rfl | rfl
  · rw [if_pos (by rw [Fl.zero_fin, Fl.fin_lt_fin]; exact one_pos)]; simp
  · rw [if_neg (by rw [Fl.zero_fin, Fl.fin_lt_fin]; linarith [one_pos (α := K)])]; simp

theorem takeWhile_mem {α : Type} {p : α → Bool} {l : List α} {x : α} (h : x ∈ l.takeWhile p) : p x = true ∧ x ∈ l := by
  induction l with
  | nil => simp at h
  | cons a l ih =>
    rw [List.takeWhile_cons] at h
    split at h
    · rcases List.mem_cons.1 h with rfl | h
      · exact ⟨by assumption, by simp⟩
      · exact ⟨(ih h).1, by simp [(ih h).2]⟩
    · simp at h

/-- If the interpolants of the steps follow the curve `φ`, so do the samples. -/
theorem Steps.dense_exact {f : Rhs R} {F : K → (Fin n → K) → (Fin n → K)} {S : (Fin n → K) → Prop} {D : Submodule K (Fin n → K)}
    (hf : LiftsOn S f F) (hst : Stable F S D) {δ T : K} (hδ : δ = 1 ∨ δ = -1) (φ : K → Fin n → K)
    (hφ : ∀ t h x, kdense (φ t) h (rkStages F t h (φ t) (kdopri : KTab K).stages [F t (φ t)] ++ [F (t + h) (rkStep kdopri F t h (φ t))]) x
      = φ (t + x * h)) {t : K} {y yf : Fin n → K} {hs : List K} {as : List (RkAccepted R)} (h : Steps f δ T t y hs as yf) :
    S y → y = φ t → ∀ us : List K, us.Pairwise (fun a b => 0 < δ * (b - a)) → (∀ u ∈ us, 0 < δ * (u - t) ∧ 0 ≤ δ * (T - u)) →
      denseRows (.fin δ) as (us.map .fin) = us.map fun u => (.fin u, toFl (φ u)) := by
  have key : ∀ {t : K} {f0 : Vec R} {h : K} {ks : List (Fin n → K)} {a : RkAccepted R}, S (φ t) → Slope f t (φ t) f0 →
      Accepts f t (φ t) f0 h (φ t + h • combo (kdopri : KTab K).b ks) ks a → S (φ (t + h)) ∧ φ t + h • combo (kdopri : KTab K).b ks = φ (t + h) ∧
      ∀ us : List K, (∀ u ∈ us, 0 < δ * (u - t)) → ∀ v : List K, (∀ u ∈ v, u ∈ us ∧ 0 ≤ δ * (t + h - u)) →
        (v.map (.fin : K → Fl R)).map (fun x => (x, denseAt a x)) = v.map fun u => (.fin u, toFl (φ u)) := by
    intro t f0 h ks a hy hf0 ha
    obtain ⟨h1, h2, h3⟩ := ha.rows hf hst hy hf0
    have h4 : φ t + h • combo (kdopri : KTab K).b ks = φ (t + h) := by
      have := hφ t h 1
      rw [← h2, ← h1, kdense_one _ _ ha.len, one_mul] at this
      exact this
    refine ⟨h4 ▸ h3, h4, ?_⟩
    intro us hus v hv
    rw [List.map_map]
    apply List.map_congr_left
    intro u hu
    obtain ⟨hu1, hu2⟩ := hv u hu
    have hh : h ≠ 0 := by
      rintro rfl
      have := hus u hu1
      have e : δ * (t + 0 - u) = -(δ * (u - t)) := by ring
      linarith
    have := hφ t h ((u - t) / h)
    rw [← h2, ← h1] at this
    simp only [Function.comp, denseAt_lift hh ha, this, div_mul_cancel₀ _ hh, add_sub_cancel]
  induction h with
  | @last t y f0 h ks a hf0 ha e hh =>
    rintro hy rfl us hp hus
    obtain ⟨-, -, h3⟩ := key hy hf0 ha
    have hall : ∀ x ∈ us.map (.fin : K → Fl R), (if (0 : Fl R) < .fin δ then decide (x ≤ a.next.t) else decide (a.next.t ≤ x)) = true := by
      intro x hx'
      obtain ⟨u, hu, rfl⟩ := List.mem_map.1 hx'
      rw [ha.time, reached_iff hδ, e]
      simpa using (hus u hu).2
    simp only [denseRows, List.append_nil]
    rw [List.takeWhile_eq_self_iff.2 hall]
    exact h3 us (fun u hu => (hus u hu).1) us (fun u hu => ⟨hu, by rw [e]; exact (hus u hu).2⟩)
  | @cons t y yf f0 h ks a hs as hf0 ha h0 hT hst' ih =>
    rintro hy rfl us hp hus
    obtain ⟨h1, h2, h3⟩ := key hy hf0 ha
    simp only [denseRows, ha.time]
    have hr : (fun x : Fl R => if (0 : Fl R) < .fin δ then decide (x ≤ .fin (t + h)) else decide (.fin (t + h) ≤ x)) ∘ (.fin : K → Fl R) =
        fun u => decide (0 ≤ δ * (t + h - u)) := by
      funext u
      exact reached_iff hδ u (t + h)
    rw [List.takeWhile_map, List.dropWhile_map, hr]
    rw [h3 us (fun u hu => (hus u hu).1) _ (fun u hu => by
      have := takeWhile_mem hu
      exact ⟨this.2, by simpa using this.1⟩)]
    have hpd := hp.sublist (List.dropWhile_sublist (fun u => decide (0 ≤ δ * (t + h - u))))
    rw [ih (h2 ▸ h1) h2 _ hpd, ← List.map_append, List.takeWhile_append_dropWhile]
    intro u hu
    refine ⟨?_, (hus u ((List.dropWhile_sublist _).mem hu)).2⟩
    cases hdw : us.dropWhile (fun u => decide (0 ≤ δ * (t + h - u))) with
    | nil => rw [hdw] at hu; simp at hu
    | cons z zs =>
      have hz : ¬ 0 ≤ δ * (t + h - z) := by
        have := List.head_dropWhile_not (fun u => decide (0 ≤ δ * (t + h - u))) (l := us) (by rw [hdw]; simp)
        simp only [hdw, List.head_cons] at this
        simpa using this
      have e : ∀ u, δ * (u - (t + h)) = -(δ * (t + h - u)) := fun u => by ring
      rw [hdw] at hu hpd
      rcases List.mem_cons.1 hu with rfl | hu
      · rw [e]; linarith [not_le.1 hz]
      · have h5 := (List.pairwise_cons.1 hpd).1 u hu
        have e2 : δ * (u - (t + h)) = δ * (u - z) + δ * (z - (t + h)) := by ring
        rw [e2, e z]
        linarith [not_le.1 hz]

/-- the sample times of the library are those of `np.linspace` without the start -/
theorem tEval_eq (d : Dyn R) (T : K) (hn : 0 < d.trajectorySamples) :
    d.tEval (.fin T) = some (((List.range d.trajectorySamples.toNat).map fun k => ((k + 1 : Nat) : K) * (T / d.trajectorySamples.toNat)).map .fin) := by
  obtain ⟨m', hm'⟩ : ∃ m', d.trajectorySamples.toNat = m' + 1 := ⟨d.trajectorySamples.toNat - 1, by omega⟩
  have h0 : ((m' + 1 : Nat) : K) ≠ 0 := by exact_mod_cast Nat.succ_ne_zero m'
  simp only [Dyn.tEval, hn, if_true, linspaceTail, hm', List.map_map, Option.some.injEq]
  apply List.map_congr_left
  intro k _
  simp only [Function.comp]
  split
  · rename_i h
    rw [h, mul_div_cancel₀ _ h0]
  · rw [Fl.fin_div_fin _ _ h0, Fl.fin_mul_fin]

end exact

section real
variable {n : Nat}

theorem powNonneg_real : PowNonneg realFmt := fun a b ha => Real.rpow_nonneg ha.le b

theorem sciHalf_fin : (1 / 2 : Fl realFmt) = .fin (1 / 2) := by
  exact div_lit_eq 1 2 (by norm_num) _ (by norm_num)

theorem powSci_nat (hn : 0 < n) : powSci (.fin (n : ℝ) : Fl realFmt) (1 / 2) = .fin (Real.sqrt n) := by
  have h0 : (0 : ℝ) < n := by exact_mod_cast hn
  rw [sciHalf_fin]
  simp only [powSci, not_lt.2 h0.le, h0.ne', if_false]
  simp only [realFmt]
  rw [Real.sqrt_eq_rpow]

theorem errorNorm_real (hn : 0 < n) (y y' : Fin n → ℝ) (ks : List (Fin n → ℝ)) (h : ℝ) :
    errorNorm (toFl y : Vec realFmt) (toFl y') (ks.map toFl) (.fin h) = .fin (Real.sqrt (ksq (kerr y y' ks h) / n)) := by
  have h0 : (0 : ℝ) < n := by exact_mod_cast hn
  rw [errorNorm_lift, powSci_nat hn, Fl.fin_div_fin _ _ (Real.sqrt_pos.2 h0).ne', Real.sqrt_div' _ h0.le]
  rfl

/-- the test for acceptance -/
theorem errorNorm_lt_one (hn : 0 < n) (y y' : Fin n → ℝ) (ks : List (Fin n → ℝ)) (h : ℝ) :
    errorNorm (toFl y : Vec realFmt) (toFl y') (ks.map toFl) (.fin h) < 1 ↔ ksq (kerr y y' ks h) < n := by
  have h0 : (0 : ℝ) < n := by exact_mod_cast hn
  rw [errorNorm_real hn, Fl.one_fin, Fl.fin_lt_fin, Real.sqrt_lt' one_pos, one_pow, div_lt_one h0]

theorem dopri_stages (F : ℝ → (Fin n → ℝ) → (Fin n → ℝ)) (t h : ℝ) (y : Fin n → ℝ) : ∃ k1 k2 k3 k4 k5 k6 : Fin n → ℝ,
    k1 = F t y ∧
    k2 = F (t + 1/5 * h) (y + h • ((1/5 : ℝ) • k1)) ∧
    k3 = F (t + 3/10 * h) (y + h • ((3/40 : ℝ) • k1 + (9/40 : ℝ) • k2)) ∧
    k4 = F (t + 4/5 * h) (y + h • ((44/45 : ℝ) • k1 + (-56/15 : ℝ) • k2 + (32/9 : ℝ) • k3)) ∧
    k5 = F (t + 8/9 * h) (y + h • ((19372/6561 : ℝ) • k1 + (-25360/2187 : ℝ) • k2 + (64448/6561 : ℝ) • k3 + (-212/729 : ℝ) • k4)) ∧
    k6 = F (t + h) (y + h • ((9017/3168 : ℝ) • k1 + (-355/33 : ℝ) • k2 + (46732/5247 : ℝ) • k3 + (49/176 : ℝ) • k4
      + (-5103/18656 : ℝ) • k5)) ∧
    rkStages F t h y (kdopri : KTab ℝ).stages [F t y] = [k1, k2, k3, k4, k5, k6] := by
  refine ⟨_, _, _, _, _, _, rfl, rfl, rfl, rfl, rfl, rfl, ?_⟩
  simp only [kdopri, rkStages, combo, List.zip_cons_cons, List.foldl_cons, List.zip_nil_right, List.foldl_nil, List.nil_append,
    List.cons_append, zero_add, one_mul]

theorem combo_dopri_b (k1 k2 k3 k4 k5 k6 : Fin n → ℝ) : combo (kdopri : KTab ℝ).b [k1, k2, k3, k4, k5, k6] =
    (35/384 : ℝ) • k1 + (500/1113 : ℝ) • k3 + (125/192 : ℝ) • k4 + (-2187/6784 : ℝ) • k5 + (11/84 : ℝ) • k6 := by
  simp only [kdopri, combo, List.zip_cons_cons, List.foldl_cons, List.zip_nil_right, List.foldl_nil, zero_add, zero_smul, add_zero]

theorem combo_dopri_e (k1 k2 k3 k4 k5 k6 k7 : Fin n → ℝ) : combo (kdopriE : List ℝ) [k1, k2, k3, k4, k5, k6, k7] =
    (-71/57600 : ℝ) • k1 + (71/16695 : ℝ) • k3 + (-71/1920 : ℝ) • k4 + (17253/339200 : ℝ) • k5 + (-22/525 : ℝ) • k6 + (1/40 : ℝ) • k7 := by
  simp only [kdopriE, combo, List.zip_cons_cons, List.foldl_cons, List.zip_nil_right, List.foldl_nil, zero_add, zero_smul, add_zero]

/-- accepted steps are error-controlled steps -/
theorem Steps.controlled (hn : 0 < n) {f : Rhs realFmt} {F : ℝ → (Fin n → ℝ) → (Fin n → ℝ)} {S : (Fin n → ℝ) → Prop} {D : Submodule ℝ (Fin n → ℝ)}
    (hf : LiftsOn S f F) (hst : Stable F S D) {δ T t : ℝ} {y yf : Fin n → ℝ} {hs : List ℝ} {as : List (RkAccepted realFmt)}
    (h : Steps f δ T t y hs as yf) (hy : S y) : ErrorControlled F t y hs yf := by
  have key : ∀ {t : ℝ} {y y' : Fin n → ℝ} {f0 : Vec realFmt} {h : ℝ} {ks : List (Fin n → ℝ)} {a : RkAccepted realFmt}, S y → Slope f t y f0 →
      Accepts f t y f0 h y' ks a → ∃ e, DopriStep F t h y y' e ∧ ∑ i, (e i / tolerance y y' i) ^ 2 < n := by
    intro t y y' f0 h ks a hy hf0 ha
    obtain ⟨h1, h2, -⟩ := ha.rows hf hst hy hf0
    have herr := ha.err
    rw [errorNorm_lt_one hn, h1] at herr
    obtain ⟨k1, k2, k3, k4, k5, k6, e1, e2, e3, e4, e5, e6, hl⟩ := dopri_stages F t h y
    unfold SAD.rkStep at h2
    rw [hl] at herr h2
    refine ⟨_, ⟨k1, k2, k3, k4, k5, k6, F (t + h) y', e1, e2, e3, e4, e5, e6, ?_, rfl, rfl⟩, ?_⟩
    · rw [h2, combo_dopri_b]
    · refine lt_of_eq_of_lt ?_ herr
      unfold ksq kerr tolerance kscale
      refine Finset.sum_congr rfl fun i _ => ?_
      rw [← pow_two, List.cons_append, List.cons_append, List.cons_append, List.cons_append, List.cons_append, List.cons_append,
        List.nil_append, combo_dopri_e, mul_comm (1 / 1000)]
  induction h with
  | last hf0 ha _ _ =>
    obtain ⟨e, h1, h2⟩ := key hy hf0 ha
    exact .cons h1 h2 (.nil _ _)
  | cons hf0 ha _ _ _ ih =>
    obtain ⟨e, h1, h2⟩ := key hy hf0 ha
    exact .cons h1 h2 (ih (ha.rows hf hst hy hf0).2.2)

end real
end SAD
