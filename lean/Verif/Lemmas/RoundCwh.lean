import Verif.Lemmas.Rounding
import Verif.Props.Cwh
import Mathlib.Data.Fin.VecNotation

/-! # Rounding errors of the Clohessy-Wiltshire model -/

set_option linter.unusedSectionVars false

namespace SAD
open Spec

section
variable {K : Type} {R : Fmt K} [Field K] [LinearOrder K] [IsStrictOrderedRing K] [FloorRing K]

/-- the matrices of the Clohessy-Wiltshire model as computed -/
def cwA (n : Fl R) : Fin 6 → Fin 6 → Fl R :=
  ![![0, 0, 0, 1, 0, 0], ![0, 0, 0, 0, 1, 0], ![0, 0, 0, 0, 0, 1], ![3 * (n * n), 0, 0, 0, 2 * n, 0],
    ![0, 0, 0, -2 * n, 0, 0], ![0, 0, -(n * n), 0, 0, 0]]
def cwB (k : Fl R) : Fin 6 → Fin 3 → Fl R := ![![0, 0, 0], ![0, 0, 0], ![0, 0, 0], ![k, 0, 0], ![0, k, 0], ![0, 0, k]]

/-- the ideal ones -/
def cwKA (n : K) : Fin 6 → Fin 6 → K :=
  ![![0, 0, 0, 1, 0, 0], ![0, 0, 0, 0, 1, 0], ![0, 0, 0, 0, 0, 1], ![3 * (n * n), 0, 0, 0, 2 * n, 0],
    ![0, 0, 0, -2 * n, 0, 0], ![0, 0, -(n * n), 0, 0, 0]]
def cwKB (k : K) : Fin 6 → Fin 3 → K := ![![0, 0, 0], ![0, 0, 0], ![0, 0, 0], ![k, 0, 0], ![0, k, 0], ![0, 0, k]]

/-- magnitudes of the entries -/
def cwMA (τ n : K) : Fin 6 → Fin 6 → K :=
  ![![0, 0, 0, 1, 0, 0], ![0, 0, 0, 0, 1, 0], ![0, 0, 0, 0, 0, 1], ![3 * (|n| * |n| + τ) + τ, 0, 0, 0, 2 * |n| + τ, 0],
    ![0, 0, 0, 2 * |n| + τ, 0, 0], ![0, 0, |n| * |n| + τ, 0, 0, 0]]
def cwMB (τ k : K) : Fin 6 → Fin 3 → K :=
  ![![0, 0, 0], ![0, 0, 0], ![0, 0, 0], ![|k| + τ, 0, 0], ![0, |k| + τ, 0], ![0, 0, |k| + τ]]

theorem cwMats (m n : Fl R) {A B : Mat R} (h : generateCwhMatrices m n "3d" = .ok (A, B)) :
    ∃ k, pyDiv 1 m = .ok k ∧ A = flMat (cwA n) ∧ B = flMat (cwB k) := by
  unfold generateCwhMatrices at h
  simp only [show ("3d" = "2d") = False from by simp, if_true, if_false] at h
  obtain ⟨k, hk, h1⟩ := Except.bind_ok.1 h
  cases h1
  refine ⟨k, hk, ?_, ?_⟩
  · simp [flMat, cwA, List.ofFn_succ]
  · simp [flMat, cwB, List.ofFn_succ]

theorem near_nat {ε : K} (hε : 0 ≤ ε) (c : ℕ) [c.AtLeastTwo] : Near ε 0 (OfNat.ofNat c : Fl R) (OfNat.ofNat c : K) (OfNat.ofNat c : K) := by
  have := near_fin (R := R) (ε := ε) (OfNat.ofNat c : K)
  rw [abs_of_nonneg (by simp)] at this
  exact this

theorem cwA_near {ε τ M : K} (hR : Rounds R ε τ M) {n : K} (hM : (1 + ε) ^ 2 * (3 * (|n| * |n| + τ)) ≤ M) (hM2 : (1 + ε) ^ 2 * (2 * |n|) ≤ M)
    (i j : Fin 6) : Near ε 2 (cwA (.fin n : Fl R) i j) (cwKA n i j) (cwMA τ n i j) := by
  have hε := hR.eps
  have hτ := hR.tau
  have h0 : Near ε 2 (0 : Fl R) 0 0 := by
    have := (near_fin (R := R) (ε := ε) (0 : K)).mono hε (Nat.zero_le 2) le_rfl
    rw [abs_zero] at this
    rwa [Fl.zero_fin]
  have h1 : Near ε 2 (1 : Fl R) 1 1 := by
    have := (near_fin (R := R) (ε := ε) (1 : K)).mono hε (Nat.zero_le 2) le_rfl
    rw [abs_one] at this
    rwa [Fl.one_fin]
  have hp := abs_nonneg n
  have hnn : 0 ≤ |n| * |n| := mul_nonneg hp hp
  have le1 : ∀ (k : ℕ) (y : K), k ≤ 2 → 0 ≤ y → y ≤ 3 * (|n| * |n| + τ) → (1 + ε) ^ k * y ≤ M :=
    fun k y hk hy hy' => le_trans (mul_le_mul (pow_le_pow_right₀ (by linarith) hk) hy' hy (by positivity)) hM
  have le2 : ∀ (k : ℕ) (y : K), k ≤ 2 → 0 ≤ y → y ≤ 2 * |n| → (1 + ε) ^ k * y ≤ M :=
    fun k y hk hy hy' => le_trans (mul_le_mul (pow_le_pow_right₀ (by linarith) hk) hy' hy (by positivity)) hM2
  have hsq : Near ε 1 ((.fin n : Fl R) * .fin n) (n * n) (|n| * |n| + τ) :=
    (near_fin n).mul hR (near_fin n) (le1 _ _ (by omega) hnn (by linarith))
  have h3 : Near ε 2 (3 * ((.fin n : Fl R) * .fin n)) (3 * (n * n)) (3 * (|n| * |n| + τ) + τ) :=
    (near_nat hε 3).mul hR hsq (le1 _ _ (by omega) (by positivity) le_rfl)
  have h2 : Near ε 2 (2 * (.fin n : Fl R)) (2 * n) (2 * |n| + τ) :=
    ((near_nat hε 2).mul hR (near_fin n) (le2 _ _ (by omega) (by positivity) le_rfl)).mono hε (by omega) le_rfl
  have h2' : Near ε 2 (-2 * (.fin n : Fl R)) (-2 * n) (2 * |n| + τ) :=
    ((near_nat hε 2).neg.mul hR (near_fin n) (le2 _ _ (by omega) (by positivity) le_rfl)).mono hε (by omega) le_rfl
  have hs := (hsq.mono hε (by omega : 1 ≤ 2) le_rfl).neg
  fin_cases i <;> fin_cases j <;> first | exact h0 | exact h1 | exact h2 | exact h3 | exact h2' | exact hs

theorem cwB_near {ε τ M : K} (hR : Rounds R ε τ M) {m : K} {k : Fl R} (hk : pyDiv 1 (.fin m) = .ok k) (hM : |m⁻¹| ≤ M)
    (i : Fin 6) (j : Fin 3) : Near ε 2 (cwB k i j) (cwKB m⁻¹ i j) (cwMB τ m⁻¹ i j) := by
  have hε := hR.eps
  have h0 : Near ε 2 (0 : Fl R) 0 0 := by
    have := (near_fin (R := R) (ε := ε) (0 : K)).mono hε (Nat.zero_le 2) le_rfl
    rw [abs_zero] at this
    rwa [Fl.zero_fin]
  have hk' : Near ε 2 k m⁻¹ (|m⁻¹| + τ) := by
    unfold pyDiv at hk
    split at hk
    · cases hk
    · rename_i hb
      have hb : m ≠ 0 := by simpa [Fl.eqb] using hb
      cases hk
      have := near_div hR (a := 1) hb (by simpa using hM)
      rw [one_div] at this
      rw [Fl.one_fin]
      exact this.mono hε (by omega) le_rfl
  fin_cases i <;> fin_cases j <;> first | exact h0 | exact hk'


theorem cwRow (m n : K) (s : Fin 6 → K) (F : Fin 3 → K) (i : Fin 6) :
    ∑ j, cwKA n i j * s j + ∑ j, cwKB m⁻¹ i j * F j = cw m n s F i := by
  fin_cases i <;> simp [cwKA, cwKB, cw, Fin.sum_univ_succ, div_eq_mul_inv] <;> ring

theorem cwRowMag {τ L : K} (hτ : 0 ≤ τ) (m n : K) (s : Fin 6 → K) (F : Fin 3 → K) (hL : 1 ≤ L) (hs : ∀ i, |s i| ≤ L) (hF : ∀ i, |F i| ≤ 1)
    (i : Fin 6) : rowMag τ (cwMA τ n) (cwMB τ m⁻¹) s F i ≤ cwSizes m n s F i + 32 * τ * L := by
  have e : ∀ i, τ * |s i| ≤ τ * L := fun i => mul_le_mul_of_nonneg_left (hs i) hτ
  have f : ∀ i, τ * |F i| ≤ τ := fun i => by have := mul_le_mul_of_nonneg_left (hF i) hτ; simpa using this
  have g : τ ≤ τ * L := by have := mul_le_mul_of_nonneg_left hL hτ; simpa using this
  have hn : |n| * |n| = n ^ 2 := by rw [← abs_mul, ← sq, abs_of_nonneg (sq_nonneg n)]
  have e0 := e 0
  have e2 := e 2
  have e3 := e 3
  have e4 := e 4
  have f0 := f 0
  have f1 := f 1
  have f2 := f 2
  fin_cases i <;> simp [rowMag, cwMA, cwMB, cwSizes, Fin.sum_univ_succ, div_eq_mul_inv, abs_mul, hn] <;> linarith

theorem cwSizes_nonneg (m n : K) (s : Fin 6 → K) (F : Fin 3 → K) (i : Fin 6) : 0 ≤ cwSizes m n s F i := by
  fin_cases i <;> simp [cwSizes] <;> positivity

theorem cwSizes_le {m n L : K} {s : Fin 6 → K} {F : Fin 3 → K} (hL : 1 ≤ L) (hs : ∀ i, |s i| ≤ L) (hF : ∀ i, |F i| ≤ 1) (hm : |m⁻¹| ≤ L)
    (hn : |n| ≤ L) (i : Fin 6) : cwSizes m n s F i ≤ 6 * L ^ 3 := by
  have hL0 : 0 ≤ L := by linarith
  have h1 : L ≤ L ^ 3 := le_self_pow₀ hL (by norm_num)
  have h2 : L ^ 2 ≤ L ^ 3 := pow_le_pow_right₀ hL (by norm_num)
  have hn2 : n ^ 2 ≤ L ^ 2 := by rw [← sq_abs]; exact pow_le_pow_left₀ (abs_nonneg n) hn 2
  have a1 : ∀ i, n ^ 2 * |s i| ≤ L ^ 3 := fun i =>
    (mul_le_mul hn2 (hs i) (abs_nonneg _) (by positivity)).trans (le_of_eq (by ring))
  have a2 : ∀ i, |n| * |s i| ≤ L ^ 3 := fun i =>
    (mul_le_mul hn (hs i) (abs_nonneg _) (by positivity)).trans (by rw [← sq]; exact h2)
  have a3 : ∀ i, |F i / m| ≤ L ^ 3 := fun i => by
    rw [div_eq_mul_inv, abs_mul]
    exact (mul_le_mul (hF i) hm (abs_nonneg _) (by norm_num)).trans (by linarith)
  have p := pow_nonneg hL0 3
  have b0 := a1 0
  have b2 := a1 2
  have b3 := a2 3
  have b4 := a2 4
  have c0 := a3 0
  have c1 := a3 1
  have c2 := a3 2
  have d3 := hs 3
  have d4 := hs 4
  have d5 := hs 5
  fin_cases i <;> simp [cwSizes] <;> linarith

theorem cw_le_sizes (m n : K) (s : Fin 6 → K) (F : Fin 3 → K) (i : Fin 6) : |cw m n s F i| ≤ cwSizes m n s F i := by
  have hn : |n ^ 2| = n ^ 2 := abs_of_nonneg (sq_nonneg n)
  have e3 : |3 * n ^ 2 * s 0| = 3 * n ^ 2 * |s 0| := by rw [abs_mul, abs_mul, hn]; simp
  fin_cases i
  · simp [cw, cwSizes]
  · simp [cw, cwSizes]
  · simp [cw, cwSizes]
  · simp only [cw, cwSizes]
    show |3 * n ^ 2 * s 0 + 2 * n * s 4 + F 0 / m| ≤ 3 * n ^ 2 * |s 0| + 2 * |n| * |s 4| + |F 0 / m|
    refine (abs_add_le _ _).trans (add_le_add ((abs_add_le _ _).trans (add_le_add e3.le ?_)) le_rfl)
    rw [abs_mul, abs_mul]; simp
  · show |-2 * n * s 3 + F 1 / m| ≤ 2 * |n| * |s 3| + |F 1 / m|
    refine (abs_add_le _ _).trans (add_le_add ?_ le_rfl)
    rw [abs_mul, abs_mul]; simp
  · show |-n ^ 2 * s 2 + F 2 / m| ≤ n ^ 2 * |s 2| + |F 2 / m|
    refine (abs_add_le _ _).trans (add_le_add ?_ le_rfl)
    rw [abs_mul, abs_neg, hn]

/-- an Euler step of the Clohessy-Wiltshire dynamics -/
theorem cwh_euler_near {ε τ M : K} (hR : Rounds R ε τ M) (hε12 : (1 + ε) ^ 12 ≤ 2) (hτ1 : τ ≤ 1) {L : K} (hL : 1 ≤ L) (hLM : 256 * L ^ 4 ≤ M)
    {env : Env R} {args : DynArgs R} {m n : K} {d : Dyn R} (hd : mkCwhDynamics env (.fin m) (.fin n) args = .ok d) (hu : Unlimited d)
    (hmeth : d.integrationMethod = "Euler") (hsamp : d.trajectorySamples ≤ 0) {s : Fin 6 → K} {F : Fin 3 → K} {T : K}
    (hs : ∀ i, |s i| ≤ L) (hF : ∀ i, |F i| ≤ 1) (hm : |m⁻¹| ≤ L) (hn : |n| ≤ L) (hT : |T| ≤ L) (env' : Env R) :
    ∃ s' v : Fin 6 → K, d.step env' (.fin T) (toFl s) (toFl F) = (d, .ok (toFl s', toFl v)) ∧
      (∀ i, |v i - cw m n s F i| ≤ ((1 + ε) ^ 10 - 1) * (cwSizes m n s F i + 32 * τ * L)) ∧
      ∀ i, |s' i - (s i + T * cw m n s F i)| ≤ ((1 + ε) ^ 12 - 1) * (|s i| + |T| * cwSizes m n s F i + 34 * τ * L ^ 2) := by
  have hε := hR.eps
  have hτ := hR.tau
  have hL0 : 0 ≤ L := by linarith
  have p3 := pow_nonneg hL0 3
  have h14 : L ≤ L ^ 4 := le_self_pow₀ hL (by norm_num)
  have h24 : L ^ 2 ≤ L ^ 4 := pow_le_pow_right₀ hL (by norm_num)
  have h34 : L ^ 3 ≤ L ^ 4 := pow_le_pow_right₀ hL (by norm_num)
  have hτL : τ * L ≤ L := mul_le_of_le_one_left hL0 hτ1
  have hτL0 : 0 ≤ τ * L := mul_nonneg hτ hL0
  have hnn : |n| * |n| ≤ L ^ 2 := by rw [sq]; exact mul_le_mul hn hn (abs_nonneg n) hL0
  have pw : ∀ (k : ℕ) (y : K), k ≤ 12 → 0 ≤ y → y ≤ 128 * L ^ 4 → (1 + ε) ^ k * y ≤ M := fun k y hk hy hy' => by
    have h1 : (1 + ε) ^ k ≤ 2 := (pow_le_pow_right₀ (by linarith) hk).trans hε12
    calc (1 + ε) ^ k * y ≤ 2 * (128 * L ^ 4) := mul_le_mul h1 hy' hy (by norm_num)
      _ = 256 * L ^ 4 := by ring
      _ ≤ M := hLM
  have hd' := hd
  unfold mkCwhDynamics at hd'
  obtain ⟨⟨A, B⟩, h1, h2⟩ := Except.bind_ok.1 hd'
  obtain ⟨k, hk, rfl, rfl⟩ := cwMats _ _ h1
  have hA := cwA_near hR (n := n) (pw _ _ (by omega) (by positivity) (by linarith)) (pw _ _ (by omega) (by positivity) (by linarith))
  have hB := cwB_near hR (m := m) hk (by have := pw 0 _ (by omega) (abs_nonneg m⁻¹) (by linarith); simpa using this)
  have hrow := cwRowMag hτ m n s F hL hs hF
  have hsz0 := cwSizes_nonneg m n s F
  have hsz := cwSizes_le hL hs hF hm hn
  have hrow0 : ∀ i, 0 ≤ rowMag τ (cwMA τ n) (cwMB τ m⁻¹) s F i := fun i => by
    unfold rowMag
    have q1 : 0 ≤ ∑ j, (cwMA τ n i j * |s j| + 2 * τ) := Finset.sum_nonneg fun j _ => by
      have := mul_nonneg (hA i j).nonneg (abs_nonneg (s j)); positivity
    have q2 : 0 ≤ ∑ j, (cwMB τ m⁻¹ i j * |F j| + 2 * τ) := Finset.sum_nonneg fun j _ => by
      have := mul_nonneg (hB i j).nonneg (abs_nonneg (F j)); positivity
    positivity
  obtain ⟨v, hv1, hv2⟩ := near_affine hR hA hB 0 s F (fun i => pw _ _ (by simp) (hrow0 i)
    ((hrow i).trans (by have := hsz i; linarith)))
  simp only [cwRow] at hv2
  have hv3 : ∀ i, |v i - cw m n s F i| ≤ ((1 + ε) ^ 10 - 1) * (cwSizes m n s F i + 32 * τ * L) := fun i =>
    (hv2 i).trans (mul_le_mul_of_nonneg_left (hrow i) (by have := one_le_pow_eps hε 10; simpa using this))
  have hT0 := abs_nonneg T
  have hprod : ∀ i, |T| * (cwSizes m n s F i + 32 * τ * L) ≤ |T| * cwSizes m n s F i + 32 * τ * L ^ 2 := fun i => by
    have : |T| * (32 * τ * L) ≤ L * (32 * τ * L) := mul_le_mul_of_nonneg_right hT (by positivity)
    nlinarith
  have hTs : ∀ i, |T| * cwSizes m n s F i ≤ 6 * L ^ 4 := fun i => by
    calc _ ≤ L * (6 * L ^ 3) := mul_le_mul hT (hsz i) (hsz0 i) hL0
      _ = 6 * L ^ 4 := by ring
  have hττ : 2 * τ ≤ 2 * τ * L ^ 2 := le_mul_of_one_le_right (by positivity) (one_le_pow₀ hL)
  have hτ2 : τ * L ^ 2 ≤ L ^ 4 := (mul_le_of_le_one_left (by positivity) hτ1).trans h24
  have hfin : ∀ i, |s i| + |T| * (cwSizes m n s F i + 32 * τ * L) + 2 * τ ≤ |s i| + |T| * cwSizes m n s F i + 34 * τ * L ^ 2 := fun i => by
    have := hprod i; linarith
  have hpos : ∀ i, 0 ≤ |s i| + |T| * (cwSizes m n s F i + 32 * τ * L) + 2 * τ := fun i => by have := hsz0 i; positivity
  obtain ⟨s', hs1, hs2⟩ := near_euler hR T s v (cw m n s F) (fun i => cwSizes m n s F i + 32 * τ * L)
    (fun i => (cw_le_sizes m n s F i).trans (by linarith)) hv3
    (fun i => pw _ _ (by omega) (hpos i) ((hfin i).trans (by have := hTs i; have := hs i; linarith)))
  refine ⟨s', v, eulerStep_unlimited hu hmeth hsamp ?_ hs1 env', hv3, fun i => (hs2 i).trans ?_⟩
  · rw [linear_rhs h2]; exact hv1
  · exact mul_le_mul_of_nonneg_left (hfin i) (by have := one_le_pow_eps hε 12; simpa using this)

/-- A step of an entity whose control limits are the scalars ±1. -/
theorem step_pm_one {k : ℕ} {env : Env R} {e : Entity R} (hlo : e.controlMin = .scalar (.fin (-1))) (hhi : e.controlMax = .scalar (.fin 1))
    (c1 : (.fin (-1) : Fl R).cast32 = .fin (-1)) (c2 : (.fin 1 : Fl R).cast32 = .fin 1) {a : Action R} {u : Fin k → K} (ha : Asks env e a u)
    (dt : Fl R) {d : Dyn R} {s sd : Vec R}
    (hstep : e.dynamics.step env dt e.state (toFl fun i => min (max (u i) (-1)) 1) = (d, .ok (s, sd))) :
    ∃ w, e.step env dt a = ⟨{ e with dynamics := d, state := s, stateDot := sd }, w, .ok ()⟩ := by
  obtain ⟨ty, hr⟩ := ha
  have hr := resolve_iff.2 hr
  have f1 : e.controlMin.forDType ty = .scalar (.fin (-1)) := by rw [hlo]; cases ty <;> simp [Arr.forDType, c1]
  have f2 : e.controlMax.forDType ty = .scalar (.fin 1) := by rw [hhi]; cases ty <;> simp [Arr.forDType, c2]
  have g1 : ArrIs (.scalar (.fin (-1)) : Arr R) (fun _ : Fin k => loFl (some (-1))) := .inr ⟨_, rfl, fun _ => rfl⟩
  have g2 : ArrIs (.scalar (.fin 1) : Arr R) (fun _ : Fin k => hiFl (some 1)) := .inr ⟨_, rfl, fun _ => rfl⟩
  have hw : ∃ w, exceeds (toFl u : Vec R) (.scalar (.fin (-1))) (.scalar (.fin 1)) = .ok w := by
    unfold exceeds toFl
    simp only [bcast2_arr _ _ g1, bcast2_arr _ _ g2, bind, Except.bind, pure, Except.pure]
    split <;> exact ⟨_, rfl⟩
  obtain ⟨w, hw⟩ := hw
  refine ⟨w, ?_⟩
  unfold Entity.step
  simp only [hr, f1, f2, hw]
  rw [npClip_toFl u g1 g2]
  simp only [kclip, hstep]

/-- what the constructor of the spacecraft fixes -/
theorem cwhSpacecraft_parts {env : Env R} {a : CwhArgs R} {e : Entity R} (h : newCwhSpacecraft env a = .ok e) :
    (∃ args, mkCwhDynamics env a.m a.n args = .ok e.dynamics) ∧ Unlimited e.dynamics ∧ e.controlMin = .scalar (.fin (-1)) ∧
      e.controlMax = .scalar (.fin 1) := by
  have h := instantiate_ok h
  unfold initCwhSpacecraft at h
  obtain ⟨d, hd, h⟩ := Except.bind_ok.1 h
  obtain ⟨h1, -, h3, h4, -⟩ := baseInit_ok h
  subst h1
  have hd' := hd
  unfold mkCwhDynamics at hd'
  obtain ⟨AB, -, hd'⟩ := Except.bind_ok.1 hd'
  refine ⟨⟨_, hd⟩, unlimited_of_mk (mkLinearDyn_ok hd') rfl rfl rfl rfl rfl, ?_, ?_⟩
  · rw [h3]; congr 1; rw [Fl.one_fin]; rfl
  · rw [h4]; congr 1; exact Fl.one_fin

/-- what the arguments of the constructor decide -/
theorem cwhSpacecraft_method {env : Env R} {a : CwhArgs R} {e : Entity R} (h : newCwhSpacecraft env a = .ok e) :
    e.dynamics.integrationMethod = a.integrationMethod ∧ some e.dynamics.trajectorySamples = a.trajectorySamples ∧
      e.controlDefault = [.fin 0, .fin 0, .fin 0] := by
  have h := instantiate_ok h
  unfold initCwhSpacecraft at h
  obtain ⟨d, hd, h⟩ := Except.bind_ok.1 h
  obtain ⟨h1, h2, -⟩ := baseInit_ok h
  subst h1
  unfold mkCwhDynamics at hd
  obtain ⟨AB, -, hd⟩ := Except.bind_ok.1 hd
  obtain ⟨k, hk, -, hd2⟩ := mkOdeDyn_ok (mkLinearDyn_ok hd)
  refine ⟨by rw [hd2], by rw [hd2]; exact hk.symm, ?_⟩
  rw [h2, ← Fl.zero_fin]

end

/-! ### weighted magnitudes -/

section
variable {K : Type} [Field K] [LinearOrder K] [IsStrictOrderedRing K] [FloorRing K] {ω a m n : K}

theorem cwSizes_weighted (hω : 0 < ω) (ha1 : ω ≤ a) (ha2 : 3 * n ^ 2 + 2 * |n| * ω ≤ a * ω) {X μ : K} (hX : 0 ≤ X) (hμ : 0 ≤ μ) {v : Fin 6 → K}
    (hv : ∀ i, |v i| ≤ posVel ω i * X) {F : Fin 3 → K} (hF : ∀ i, |F i / m| ≤ ω * μ) (i : Fin 6) :
    cwSizes m n v F i ≤ posVel ω i * (a * X + μ) := by
  have v0 := hv 0
  have v2 := hv 2
  have v3 := hv 3
  have v4 := hv 4
  have v5 := hv 5
  have hn := abs_nonneg n
  have hn2 := sq_nonneg n
  have hx : ω * X ≤ a * X := mul_le_mul_of_nonneg_right ha1 hX
  have hx2 : (3 * n ^ 2 + 2 * |n| * ω) * X ≤ a * ω * X := mul_le_mul_of_nonneg_right ha2 hX
  simp [posVel] at v0 v2 v3 v4 v5
  have p0 : n ^ 2 * |v 0| ≤ n ^ 2 * X := mul_le_mul_of_nonneg_left v0 hn2
  have p2 : n ^ 2 * |v 2| ≤ n ^ 2 * X := mul_le_mul_of_nonneg_left v2 hn2
  have p3 : |n| * |v 3| ≤ |n| * (ω * X) := mul_le_mul_of_nonneg_left v3 hn
  have p4 : |n| * |v 4| ≤ |n| * (ω * X) := mul_le_mul_of_nonneg_left v4 hn
  have q1 : 0 ≤ n ^ 2 * X := by positivity
  have q2 : 0 ≤ |n| * (ω * X) := by positivity
  have f0 := hF 0
  have f1 := hF 1
  have f2 := hF 2
  fin_cases i <;> simp [cwSizes, posVel] <;> nlinarith

theorem posVel_pos (hω : 0 < ω) (i : Fin 6) : 0 < posVel ω i := by fin_cases i <;> simp [posVel, hω]

theorem posVel_le (hω : 0 < ω) (i : Fin 6) : posVel ω i ≤ 1 + ω := by fin_cases i <;> simp [posVel] <;> linarith

theorem cw_sub (v v' : Fin 6 → K) (F : Fin 3 → K) (i : Fin 6) : cw m n v F i - cw m n v' F i = cw m n (v - v') 0 i := by
  fin_cases i <;> simp [cw] <;> ring

theorem cw_lipschitz (hω : 0 < ω) (ha1 : ω ≤ a) (ha2 : 3 * n ^ 2 + 2 * |n| * ω ≤ a * ω) {X : K} (hX : 0 ≤ X) {v v' : Fin 6 → K}
    (hv : ∀ i, |v i - v' i| ≤ posVel ω i * X) (F : Fin 3 → K) (i : Fin 6) : |cw m n v F i - cw m n v' F i| ≤ posVel ω i * (a * X) := by
  rw [cw_sub]
  refine (cw_le_sizes m n _ _ i).trans ?_
  have := cwSizes_weighted (m := m) hω ha1 ha2 hX (le_refl (0 : K)) (v := v - v') hv (F := 0) (by simp) i
  simpa using this

end

end SAD
