import Verif.Lemmas.RoundCwh
import Verif.Lemmas.RoundDopri

/-! # Rounding errors of the Clohessy-Wiltshire model under RK45 -/

set_option linter.unusedSectionVars false

namespace SAD
open Spec

section
variable {K : Type} {R : Fmt K} [Field K] [LinearOrder K] [IsStrictOrderedRing K] {ε τ M : K}

/-- the derivative of a linear model at an approximate state -/
theorem near_affineV (hR : Rounds R ε τ M) {k l n m : ℕ} {zA : Fin n → Fin n → Fl R} {zB : Fin n → Fin m → Fl R}
    {A a : Fin n → Fin n → K} {B b : Fin n → Fin m → K} (hA : ∀ i j, Near ε k (zA i j) (A i j) (a i j))
    (hB : ∀ i j, Near ε k (zB i j) (B i j) (b i j)) (t : Fl R) {zx : Fin n → Fl R} {x X : Fin n → K} (hx : ∀ i, Near ε l (zx i) (x i) (X i))
    (u : Fin m → K) (hM : ∀ i, (1 + ε) ^ (k + l + 2 + max n m) * rowMag τ a b X u i ≤ M) :
    ∃ zz : Fin n → Fl R, affineRhs (fun x => matVec (flMat zA) x) (fun _ => .ok (flMat zB)) t (List.ofFn zx) (toFl u) = .ok (List.ofFn zz) ∧
      ∀ i, Near ε (k + l + 2 + max n m) (zz i) (∑ j, A i j * x j + ∑ j, B i j * u j) (rowMag τ a b X u i) := by
  have hτ := hR.tau
  have hε := hR.eps
  have hX : ∀ j, |X j| = X j := fun j => abs_of_nonneg (hx j).nonneg
  have hm1 : matVec (flMat zA) (List.ofFn zx) = .ok (List.ofFn fun i => dot (List.ofFn (zA i)) (List.ofFn zx)) := by
    simp [matVec, flMat, List.map_ofFn]; rfl
  have hm2 : ∀ (y : Fin m → K), matVec (flMat zB) (toFl y) = .ok (List.ofFn fun i => dot (List.ofFn (zB i)) (toFl y)) := by
    intro y; simp [matVec, flMat, List.map_ofFn, toFl]; rfl
  have pa : ∀ i, 0 ≤ ∑ j, (a i j * X j + 2 * τ) := fun i => Finset.sum_nonneg fun j _ => by
    have := mul_nonneg (hA i j).nonneg (hx j).nonneg; positivity
  have pb : ∀ i, 0 ≤ ∑ j, (b i j * |u j| + 2 * τ) := fun i => Finset.sum_nonneg fun j _ => by
    have := mul_nonneg (hB i j).nonneg (abs_nonneg (u j)); positivity
  have hrow : ∀ i, rowMag τ a b X u i = ∑ j, (a i j * X j + 2 * τ) + ∑ j, (b i j * |u j| + 2 * τ) + τ := fun i => by
    unfold rowMag; simp only [hX]
  have mono : ∀ i (l' : ℕ) (y : K), l' ≤ k + l + 2 + max n m → 0 ≤ y → y ≤ rowMag τ a b X u i → (1 + ε) ^ l' * y ≤ M := fun i l' y hl hy hy' =>
    le_trans (mul_le_mul (pow_le_pow_right₀ (by linarith) hl) hy' hy (by positivity)) (hM i)
  have row : ∀ i, Near ε (k + l + 2 + max n m) (dot (List.ofFn (zA i)) (List.ofFn zx) + dot (List.ofFn (zB i)) (toFl u))
      (∑ j, A i j * x j + ∑ j, B i j * u j) (rowMag τ a b X u i) := by
    intro i
    have ha := near_dot hR (hA i) hx (mono i _ _ (by have := le_max_left n m; omega) (pa i) (by rw [hrow]; have := pb i; linarith))
    have hb := near_dot hR (k' := 0) (hB i) (fun j => near_fin (u j))
      (mono i _ _ (by have := le_max_right n m; omega) (pb i) (by rw [hrow]; have := pa i; linarith))
    have ha' := ha.mono hε (l := k + l + 1 + max n m) (by have := le_max_left n m; omega) le_rfl
    have hb' := hb.mono hε (l := k + l + 1 + max n m) (by have := le_max_right n m; omega) le_rfl
    have := ha'.add hR hb' (mono i _ _ (by omega) (add_nonneg (pa i) (pb i)) (by rw [hrow]; linarith))
    rw [show k + l + 1 + max n m + 1 = k + l + 2 + max n m by omega] at this
    rw [hrow]
    exact this
  refine ⟨_, ?_, row⟩
  simp only [affineRhs, hm1, hm2, bind, Except.bind, vadd]
  rw [bcast2_same (by simp), zipWith_ofFn]

variable [FloorRing K]

/-- the derivative of the Clohessy-Wiltshire dynamics costs ten roundings -/
theorem cw_nearField {env : Env R} {args : DynArgs R} {m n ω a θ Q μ L : K} {d : Dyn R} {kmax : ℕ}
    (hr : Roomy R ε τ M θ Q (posVel ω) kmax) (hε2 : (1 + ε) ^ kmax ≤ 2) (hk2 : 2 ≤ kmax) (hτ1 : τ ≤ 1)
    (hd : mkCwhDynamics env (.fin m) (.fin n) args = .ok d) (hu : Unlimited d)
    (hω : 0 < ω) (ha1 : ω ≤ a) (ha2 : 3 * n ^ 2 + 2 * |n| * ω ≤ a * ω) (hμ0 : 0 ≤ μ) {F : Fin 3 → K} (hF : ∀ i, |F i| ≤ 1) (hμ : ∀ i, |F i / m| ≤ ω * μ)
    (hL : 1 ≤ L) (hQL : ∀ i, posVel ω i * Q ≤ L) (hn : |n| ≤ L) (hm : |m⁻¹| ≤ L) (hLM : 128 * L ^ 3 ≤ M)
    (hθ : ∀ i, 32 * τ * L ≤ posVel ω i * θ) :
    NearField R ε (posVel ω) kmax Q a (μ + θ) 10 (fun t y => d.computeStateDot t y (toFl F)) (fun y => cw m n y F) := by
  have hR := hr.rounds
  have hε := hR.eps
  have hτ := hR.tau
  have hL0 : 0 ≤ L := by linarith
  have p3 := pow_nonneg hL0 3
  have h13 : L ≤ L ^ 3 := le_self_pow₀ hL (by norm_num)
  have h23 : L ^ 2 ≤ L ^ 3 := pow_le_pow_right₀ hL (by norm_num)
  have hτL : τ * L ≤ L := mul_le_of_le_one_left hL0 hτ1
  have hnn : |n| * |n| ≤ L ^ 2 := by rw [sq]; exact mul_le_mul hn hn (abs_nonneg n) hL0
  have pw : ∀ (k : ℕ) (y : K), k ≤ kmax → 0 ≤ y → y ≤ 64 * L ^ 3 → (1 + ε) ^ k * y ≤ M := fun k y hk hy hy' => by
    have h1 : (1 + ε) ^ k ≤ 2 := (pow_le_pow_right₀ (by linarith) hk).trans hε2
    calc (1 + ε) ^ k * y ≤ 2 * (64 * L ^ 3) := mul_le_mul h1 hy' hy (by norm_num)
      _ = 128 * L ^ 3 := by ring
      _ ≤ M := hLM
  unfold mkCwhDynamics at hd
  obtain ⟨⟨A, B⟩, h1, h2⟩ := Except.bind_ok.1 hd
  obtain ⟨kk, hk, rfl, rfl⟩ := cwMats _ _ h1
  have hA := cwA_near hR (n := n) (pw _ _ hk2 (by positivity) (by linarith)) (pw _ _ hk2 (by positivity) (by linarith))
  have hB := cwB_near hR (m := m) hk (by have := pw 0 _ (by omega) (abs_nonneg m⁻¹) (by linarith); simpa using this)
  intro t k z x Y hkq hz hY0 hYQ
  obtain ⟨zx, rfl, hzx⟩ := hz
  have hw := fun i => (posVel_pos hω i).le
  have hXabs : ∀ i, |posVel ω i * Y| = posVel ω i * Y := fun i => abs_of_nonneg (mul_nonneg (hw i) hY0)
  have hs : ∀ i, |posVel ω i * Y| ≤ L := fun i => by
    rw [hXabs]; exact (mul_le_mul_of_nonneg_left hYQ (hw i)).trans (hQL i)
  have hrow := cwRowMag hτ m n (fun i => posVel ω i * Y) F hL hs hF
  have hsz := cwSizes_le hL hs hF hm hn
  have hwt := cwSizes_weighted (m := m) (v := fun i => posVel ω i * Y) hω ha1 ha2 hY0 hμ0 (fun i => (hXabs i).le) hμ
  have hrow0 : ∀ i, 0 ≤ rowMag τ (cwMA τ n) (cwMB τ m⁻¹) (fun i => posVel ω i * Y) F i := fun i => by
    unfold rowMag
    have q1 : 0 ≤ ∑ j, (cwMA τ n i j * |posVel ω j * Y| + 2 * τ) := Finset.sum_nonneg fun j _ => by
      have := mul_nonneg (hA i j).nonneg (abs_nonneg (posVel ω j * Y)); positivity
    have q2 : 0 ≤ ∑ j, (cwMB τ m⁻¹ i j * |F j| + 2 * τ) := Finset.sum_nonneg fun j _ => by
      have := mul_nonneg (hB i j).nonneg (abs_nonneg (F j)); positivity
    positivity
  obtain ⟨zz, g1, g2⟩ := near_affineV hR hA hB t hzx F (fun i => pw _ _ (by simp; omega) (hrow0 i)
    ((hrow i).trans (by have := hsz i; have : 32 * τ * L = 32 * (τ * L) := by ring
                        linarith)))
  have hzz : ∀ i, Near ε (k + 10) (zz i) (cw m n x F i) (posVel ω i * (a * Y + (μ + θ))) := fun i => by
    have e : 2 + k + 2 + max 6 3 = k + 10 := by simp; omega
    have := g2 i
    rw [e, cwRow] at this
    refine this.mono hε le_rfl ((hrow i).trans ?_)
    have a1 := hwt i
    have a2 := hθ i
    calc _ ≤ posVel ω i * (a * Y + μ) + posVel ω i * θ := add_le_add a1 a2
      _ = _ := by ring
  have hlin : d.rhs t (List.ofFn zx) (toFl F) = .ok (List.ofFn zz) := by rw [linear_rhs h2]; exact g1
  obtain ⟨v, e1, -⟩ := near_ofFn hzz
  obtain ⟨y, e2, -⟩ := near_ofFn hzx
  refine ⟨_, ?_, zz, rfl, hzz⟩
  rw [e1]
  show d.computeStateDot t (List.ofFn zx) (toFl F) = _
  rw [e2]
  rw [e1, e2] at hlin
  exact computeStateDot_unlimited hu hlin

end
end SAD
