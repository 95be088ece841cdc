import Verif.Lemmas.SciPyLayers
import Verif.Lemmas.SixDof
import Verif.Props.SciPy

/-! # C91 for models that do not grow linearly: layers, the six-degrees-of-freedom spacecraft -/

namespace SAD
open Spec

theorem hillThrust_le (body : Bool) {y : Fin 13 → ℝ} {u : Fin 6 → ℝ} {W : ℝ} (h3 : |y 3| ≤ W) (h4 : |y 4| ≤ W) (h5 : |y 5| ≤ W) (h6 : |y 6| ≤ W) (i : Fin 3) :
    |hillThrust body y u i| ≤ (4 * W ^ 2 + 1) * (|u 0| + |u 1| + |u 2|) := by
  have hU0 := abs_nonneg (u 0)
  have hU1 := abs_nonneg (u 1)
  have hU2 := abs_nonneg (u 2)
  have hW := sq_nonneg W
  have hW0 : 0 ≤ W := (abs_nonneg _).trans h3
  cases body with
  | false =>
    have h1 : |u 0| + |u 1| + |u 2| ≤ (4 * W ^ 2 + 1) * (|u 0| + |u 1| + |u 2|) := le_mul_of_one_le_left (by positivity) (by linarith)
    fin_cases i <;> simp [hillThrust] <;> linarith
  | true =>
    have pr : ∀ a b : ℝ, |a| ≤ W → |b| ≤ W → |a * b| ≤ W ^ 2 := fun a b ha hb => by
      rw [abs_mul, pow_two]; exact mul_le_mul ha hb (abs_nonneg _) hW0
    have key : ∀ c0 c1 c2 : ℝ, |c0| ≤ 4 * W ^ 2 → |c1| ≤ 4 * W ^ 2 → |c2| ≤ 4 * W ^ 2 →
        |c0 * u 0 + c1 * u 1 + c2 * u 2| ≤ (4 * W ^ 2 + 1) * (|u 0| + |u 1| + |u 2|) := by
      intro c0 c1 c2 k0 k1 k2
      refine (abs_add_le _ _).trans ?_
      have := abs_add_le (c0 * u 0) (c1 * u 1)
      rw [abs_mul, abs_mul] at this
      rw [abs_mul c2]
      have m0 := mul_le_mul_of_nonneg_right k0 hU0
      have m1 := mul_le_mul_of_nonneg_right k1 hU1
      have m2 := mul_le_mul_of_nonneg_right k2 hU2
      linarith
    have pp := fun (a b : ℝ) (ha : |a| ≤ W) (hb : |b| ≤ W) => abs_le.1 (pr a b ha hb)
    have a33 := pp _ _ h3 h3
    have a44 := pp _ _ h4 h4
    have a55 := pp _ _ h5 h5
    have a66 := pp _ _ h6 h6
    have a34 := pp _ _ h3 h4
    have a35 := pp _ _ h3 h5
    have a36 := pp _ _ h3 h6
    have a45 := pp _ _ h4 h5
    have a46 := pp _ _ h4 h6
    have a56 := pp _ _ h5 h6
    fin_cases i <;> simp only [hillThrust, krot, if_true, Matrix.cons_val, Fin.zero_eta, Fin.mk_one, Fin.reduceFinMk] <;> apply key <;>
      rw [abs_le] <;> constructor <;> linarith [a33.1, a33.2]

/-- **An RK45 step returns (layers).** If the derivative of the model under the applied control is finite in every finite state, and the components of the
state fall into levels so that, as long as the components of lower level stay within a bound, the derivatives at a level grow at most linearly with the
components at that level, then a step of any finite duration (not 0 if samples are asked for) from any finite state ends after finitely many turns of the
solver's loops, without an exception, in a finite state. -/
theorem C91_returns_layers {n : Nat} (hn : 0 < n) (e : Entity realFmt) (hc : e.dynamics.custom = none) (hm : e.dynamics.integrationMethod = "RK45")
    (ac : Action realFmt) (v : Vec realFmt) (hv : Applied (exactScipy 0) e ac v) (F : ℝ → (Fin n → ℝ) → (Fin n → ℝ))
    (hF : ∀ t y, e.dynamics.computeStateDot (.fin t) (toFl y) v = .ok (toFl (F t y))) (level : Fin n → ℕ)
    (hg : ∀ l W, ∃ a b : ℝ, ∀ t y, (∀ i, level i < l → |y i| ≤ W) → ∀ i, level i = l → |F t y i| ≤ a * (∑ j with level j = l, |y j|) + b)
    (hlim : ∀ z : Fin n → ℝ, ∃ c w : Fin n → ℝ, ClippedTo e.dynamics.stateMin e.dynamics.stateMax (toFl z) (toFl c) ∧
      e.dynamics.wrapAngles (toFl c) = .ok (toFl w))
    (T : ℝ) (hT : T = 0 → e.dynamics.trajectorySamples ≤ 0) (y : Fin n → ℝ) (he : e.state = toFl y) :
    ∃ N r, (∃ w : Fin n → ℝ, r.entity.state = toFl w) ∧ (∃ w : Fin n → ℝ, r.entity.stateDot = toFl w) ∧ r.outcome = .ok () ∧
      ∀ fuel, N ≤ fuel → e.step (exactScipy fuel) (.fin T) ac = r := by
  obtain ⟨G, P, hcf, hP⟩ := layered_confined (F := F) level (fun l W => by
    obtain ⟨a, b, hab⟩ := hg l W
    refine ⟨|a|, |b|, abs_nonneg _, abs_nonneg _, fun t z hz i hi => (hab t z hz i hi).trans ?_⟩
    have := mul_le_mul_of_nonneg_right (le_abs_self a) (block_nonneg (Finset.univ.filter fun j => level j = l) z)
    exact add_le_add this (le_abs_self b)) |T| y
  refine step_returns hn hc hm hv (S := fun _ => True) (fun t y _ => hF t y) (Stable.univ F) ?_ T hT he trivial hcf hP
  intro z
  obtain ⟨c, w, h1, h2⟩ := hlim z
  exact ⟨c, w, npClip_iff.2 h1, h2⟩

section
variable (p : SixDofParams ℝ) (body : Bool) (u : Fin 6 → ℝ)

/-- the levels of the orientation and of the translation, above those of the rates -/
theorem sixDof_upper (lv : Fin 3 → ℕ) (hlv : ∀ i, lv i ≤ 1)
    (hw : ∀ l ≤ 1, ∀ W, ∃ a b : ℝ, 0 ≤ a ∧ 0 ≤ b ∧ ∀ y : Fin 13 → ℝ,
      (∀ i : Fin 13, ![3, 3, 3, 2, 2, 2, 2, 3, 3, 3, lv 0, lv 1, lv 2] i < l → |y i| ≤ W) → ∀ i : Fin 3, lv i = l →
      |sixDofRate p.m p.n (fun i => p.inertia i i) body y u (Fin.natAdd 10 i)| ≤
        a * block (Finset.univ.filter fun j => (![3, 3, 3, 2, 2, 2, 2, 3, 3, 3, lv 0, lv 1, lv 2] : Fin 13 → ℕ) j = l) y + b) :
    ∀ l W, ∃ a b : ℝ, 0 ≤ a ∧ 0 ≤ b ∧ ∀ t y, (∀ i, (![3, 3, 3, 2, 2, 2, 2, 3, 3, 3, lv 0, lv 1, lv 2] : Fin 13 → ℕ) i < l → |y i| ≤ W) →
      ∀ i, (![3, 3, 3, 2, 2, 2, 2, 3, 3, 3, lv 0, lv 1, lv 2] : Fin 13 → ℕ) i = l →
      |(sixDofModel p body).rate t y u i| ≤
        a * block (Finset.univ.filter fun j => (![3, 3, 3, 2, 2, 2, 2, 3, 3, 3, lv 0, lv 1, lv 2] : Fin 13 → ℕ) j = l) y + b := by
  intro l W
  have l0 := hlv 0
  have l1 := hlv 1
  have l2 := hlv 2
  rcases Nat.lt_or_ge 1 l with hl | hl
  · have hmem : ∀ (y : Fin 13 → ℝ) (i : Fin 13), (![3, 3, 3, 2, 2, 2, 2, 3, 3, 3, lv 0, lv 1, lv 2] : Fin 13 → ℕ) i = l →
        |y i| ≤ block (Finset.univ.filter fun j => (![3, 3, 3, 2, 2, 2, 2, 3, 3, 3, lv 0, lv 1, lv 2] : Fin 13 → ℕ) j = l) y :=
      fun y i hi => Finset.single_le_sum (f := fun i => |y i|) (fun i _ => abs_nonneg _) (by simpa using hi)
    refine ⟨2 * |W| + 3 * p.n ^ 2 + 2 * |p.n| + 1, (4 * W ^ 2 + 1) * (|u 0| + |u 1| + |u 2|) / |p.m|, by positivity, by positivity, fun t y hy i hi => ?_⟩
    have hb := hmem y
    have hB0 := block_nonneg (Finset.univ.filter fun j => (![3, 3, 3, 2, 2, 2, 2, 3, 3, 3, lv 0, lv 1, lv 2] : Fin 13 → ℕ) j = l) y
    generalize block (Finset.univ.filter fun j => (![3, 3, 3, 2, 2, 2, 2, 3, 3, 3, lv 0, lv 1, lv 2] : Fin 13 → ℕ) j = l) y = B at *
    have hT0 : 0 ≤ (4 * W ^ 2 + 1) * (|u 0| + |u 1| + |u 2|) / |p.m| := by positivity
    have p1 : 0 ≤ |W| * B := by positivity
    have p2 : 0 ≤ p.n ^ 2 * B := by positivity
    have p3 : 0 ≤ |p.n| * B := by positivity
    have w0 := fun h => (hy 10 h).trans (le_abs_self W)
    have w1 := fun h => (hy 11 h).trans (le_abs_self W)
    have w2 := fun h => (hy 12 h).trans (le_abs_self W)
    simp only [Matrix.cons_val] at w0 w1 w2
    have w0 := w0 (by omega)
    have w1 := w1 (by omega)
    have w2 := w2 (by omega)
    have pr : ∀ q w : ℝ, |q| ≤ B → |w| ≤ |W| → |q * w| ≤ |W| * B := fun q w hq hw => by
      rw [abs_mul, mul_comm |W|]; exact mul_le_mul hq hw (abs_nonneg _) hB0
    have hq : ∀ x q1 q2 q3 : ℝ, |q1| ≤ B → |q2| ≤ B → |q3| ≤ B → x = (q1 * y 10 + q2 * y 11 + q3 * y 12) / 2 →
        |x| ≤ (2 * |W| + 3 * p.n ^ 2 + 2 * |p.n| + 1) * B + (4 * W ^ 2 + 1) * (|u 0| + |u 1| + |u 2|) / |p.m| := by
      rintro x q1 q2 q3 h1 h2 h3 rfl
      have e1 := abs_le.1 (pr _ _ h1 w0)
      have e2 := abs_le.1 (pr _ _ h2 w1)
      have e3 := abs_le.1 (pr _ _ h3 w2)
      rw [abs_le]
      constructor <;> linarith [e1.1, e1.2]
    have m1 : ∀ x, |x| ≤ B → |3 * p.n ^ 2 * x| ≤ 3 * p.n ^ 2 * B := fun x hx => by
      rw [abs_mul, abs_of_nonneg (by positivity : (0 : ℝ) ≤ 3 * p.n ^ 2)]; exact mul_le_mul_of_nonneg_left hx (by positivity)
    have m2 : ∀ x, |x| ≤ B → |2 * p.n * x| ≤ 2 * |p.n| * B := fun x hx => by
      rw [abs_mul, abs_mul, abs_of_pos (by norm_num : (0 : ℝ) < 2)]; exact mul_le_mul_of_nonneg_left hx (by positivity)
    have hth : ∀ j, 2 < l → |hillThrust body y u j / p.m| ≤ (4 * W ^ 2 + 1) * (|u 0| + |u 1| + |u 2|) / |p.m| := by
      intro j hl2
      rw [abs_div]
      exact div_le_div_of_nonneg_right (hillThrust_le body (hy 3 hl2) (hy 4 hl2) (hy 5 hl2) (hy 6 hl2) j) (abs_nonneg _)
    simp only [sixDofModel, sixDofRate]
    fin_cases i <;> simp only [Matrix.cons_val, Fin.zero_eta, Fin.mk_one, Fin.reduceFinMk] at hi ⊢ <;> (try omega)
    · linarith [hb 7 hi]
    · linarith [hb 8 hi]
    · linarith [hb 9 hi]
    · exact hq _ (y 6) (-y 5) (y 4) (hb 6 hi) (by rw [abs_neg]; exact hb 5 hi) (hb 4 hi) (by ring)
    · exact hq _ (y 5) (y 6) (-y 3) (hb 5 hi) (hb 6 hi) (by rw [abs_neg]; exact hb 3 hi) (by ring)
    · exact hq _ (-y 4) (y 3) (y 6) (by rw [abs_neg]; exact hb 4 hi) (hb 3 hi) (hb 6 hi) (by ring)
    · exact hq _ (-y 3) (-y 4) (-y 5) (by rw [abs_neg]; exact hb 3 hi) (by rw [abs_neg]; exact hb 4 hi) (by rw [abs_neg]; exact hb 5 hi) (by ring)
    · refine (abs_add_le _ _).trans ?_
      have := abs_add_le (3 * p.n ^ 2 * y 0) (2 * p.n * y 8)
      linarith [m1 _ (hb 0 hi), m2 _ (hb 8 hi), hth 0 (by omega)]
    · refine (abs_add_le _ _).trans ?_
      rw [show -2 * p.n * y 7 = -(2 * p.n * y 7) by ring, abs_neg]
      linarith [m2 _ (hb 7 hi), hth 1 (by omega)]
    · refine (abs_add_le _ _).trans ?_
      have e : |-p.n ^ 2 * y 2| ≤ 3 * p.n ^ 2 * B := by
        rw [show -p.n ^ 2 * y 2 = -(p.n ^ 2 * y 2) by ring, abs_neg, abs_mul, abs_of_nonneg (sq_nonneg p.n)]
        have := mul_le_mul_of_nonneg_left (hb 2 hi) (sq_nonneg p.n)
        linarith
      linarith [hth 2 (by omega)]
  · obtain ⟨a, b, ha, hb, hab⟩ := hw l hl W
    refine ⟨a, b, ha, hb, fun t y hy i hi => ?_⟩
    have key := hab y hy
    simp only [sixDofModel]
    fin_cases i <;> simp only [Matrix.cons_val, Fin.zero_eta, Fin.mk_one, Fin.reduceFinMk] at hi ⊢ <;> (try omega)
    · exact key 0 hi
    · exact key 1 hi
    · exact key 2 hi

theorem sixDof_confined (hsym : p.inertia 0 0 = p.inertia 1 1 ∨ p.inertia 1 1 = p.inertia 2 2 ∨ p.inertia 2 2 = p.inertia 0 0)
    (H : ℝ) (y : Fin 13 → ℝ) : ∃ G P, Confined ((sixDofModel p body).field u) G P ∧ P H y := by
  have one : ∀ (c w x B W M I : ℝ), |w| ≤ W → |x| ≤ B → 0 ≤ B → |(c * x * w + M) / I| ≤ |c| * |W| / |I| * B + |M| / |I| := by
    intro c w x B W M I h1 h2 h3
    rw [abs_div, div_mul_eq_mul_div, ← add_div]
    apply div_le_div_of_nonneg_right _ (abs_nonneg _)
    refine (abs_add_le _ _).trans ?_
    rw [abs_mul, abs_mul]
    have := mul_le_mul (mul_le_mul_of_nonneg_left h2 (abs_nonneg c)) (h1.trans (le_abs_self W)) (abs_nonneg w) (by positivity)
    linarith
  -- the rate about the axis of symmetry comes first
  obtain ⟨A, B, C, hA, hB, hC⟩ : ∃ A B C : ℝ → ℝ, (∀ W, A W = |p.inertia 1 1 - p.inertia 2 2| * |W| / |p.inertia 0 0|) ∧
    (∀ W, B W = |p.inertia 2 2 - p.inertia 0 0| * |W| / |p.inertia 1 1|) ∧ (∀ W, C W = |p.inertia 0 0 - p.inertia 1 1| * |W| / |p.inertia 2 2|) :=
    ⟨_, _, _, fun _ => rfl, fun _ => rfl, fun _ => rfl⟩
  have hA0 : ∀ W, 0 ≤ A W := fun W => by rw [hA]; positivity
  have hB0 : ∀ W, 0 ≤ B W := fun W => by rw [hB]; positivity
  have hC0 : ∀ W, 0 ≤ C W := fun W => by rw [hC]; positivity
  have u3 : 0 ≤ |u 3| / |p.inertia 0 0| := by positivity
  have u4 : 0 ≤ |u 4| / |p.inertia 1 1| := by positivity
  have u5 : 0 ≤ |u 5| / |p.inertia 2 2| := by positivity
  have finish : ∀ lv : Fin 3 → ℕ, (∀ i, lv i ≤ 1) → (∀ l ≤ 1, ∀ (W S : ℝ) (y : Fin 13 → ℝ), 0 ≤ S →
      (∀ i : Fin 3, lv i < l → |y (Fin.natAdd 10 i)| ≤ W) → (∀ i : Fin 3, lv i = l → |y (Fin.natAdd 10 i)| ≤ S) →
      (lv 0 = l → |((p.inertia 1 1 - p.inertia 2 2) * y 11 * y 12 + u 3) / p.inertia 0 0| ≤ A W * S + |u 3| / |p.inertia 0 0|) ∧
      (lv 1 = l → |((p.inertia 2 2 - p.inertia 0 0) * y 10 * y 12 + u 4) / p.inertia 1 1| ≤ B W * S + |u 4| / |p.inertia 1 1|) ∧
      (lv 2 = l → |((p.inertia 0 0 - p.inertia 1 1) * y 10 * y 11 + u 5) / p.inertia 2 2| ≤ C W * S + |u 5| / |p.inertia 2 2|)) →
      ∃ G P, Confined ((sixDofModel p body).field u) G P ∧ P H y := by
    intro lv hlv hl1
    refine KModel.layered _ (sixDof_upper p body u lv hlv ?_) H y
    intro l hl W
    refine ⟨A W + B W + C W, |u 3| / |p.inertia 0 0| + |u 4| / |p.inertia 1 1| + |u 5| / |p.inertia 2 2|, by linarith [hA0 W, hB0 W, hC0 W], by linarith,
      fun z hz i hi => ?_⟩
    have hmem : ∀ i : Fin 13, (![3, 3, 3, 2, 2, 2, 2, 3, 3, 3, lv 0, lv 1, lv 2] : Fin 13 → ℕ) i = l →
        |z i| ≤ block (Finset.univ.filter fun j => (![3, 3, 3, 2, 2, 2, 2, 3, 3, 3, lv 0, lv 1, lv 2] : Fin 13 → ℕ) j = l) z :=
      fun i hi => Finset.single_le_sum (f := fun i => |z i|) (fun i _ => abs_nonneg _) (by simpa using hi)
    have hS0 := block_nonneg (Finset.univ.filter fun j => (![3, 3, 3, 2, 2, 2, 2, 3, 3, 3, lv 0, lv 1, lv 2] : Fin 13 → ℕ) j = l) z
    generalize block (Finset.univ.filter fun j => (![3, 3, 3, 2, 2, 2, 2, 3, 3, 3, lv 0, lv 1, lv 2] : Fin 13 → ℕ) j = l) z = S at *
    obtain ⟨k0, k1, k2⟩ := hl1 l hl W S z hS0 (fun i hi => hz _ (by fin_cases i <;> exact hi)) (fun i hi => hmem _ (by fin_cases i <;> exact hi))
    have mA := mul_nonneg (hA0 W) hS0
    have mB := mul_nonneg (hB0 W) hS0
    have mC := mul_nonneg (hC0 W) hS0
    fin_cases i
    · have := k0 hi
      show |((p.inertia 1 1 - p.inertia 2 2) * z 11 * z 12 + u 3) / p.inertia 0 0| ≤ _
      linarith
    · have := k1 hi
      show |((p.inertia 2 2 - p.inertia 0 0) * z 10 * z 12 + u 4) / p.inertia 1 1| ≤ _
      linarith
    · have := k2 hi
      show |((p.inertia 0 0 - p.inertia 1 1) * z 10 * z 11 + u 5) / p.inertia 2 2| ≤ _
      linarith
  have free : ∀ (c x w M I K S : ℝ), c = 0 → 0 ≤ K * S → |(c * x * w + M) / I| ≤ K * S + |M| / |I| := by
    rintro c x w M I K S rfl hK
    rw [zero_mul, zero_mul, zero_add, abs_div]
    linarith
  rcases hsym with hs | hs | hs
  · refine finish ![1, 1, 0] (by intro i; fin_cases i <;> simp) (fun l hl W S z hS hlow hat => ⟨?_, ?_, ?_⟩) <;> rintro ⟨⟩
    · rw [hA]; exact one _ _ _ _ _ _ _ (hlow 2 (by simp)) (hat 1 rfl) hS
    · rw [hB]; exact one _ _ _ _ _ _ _ (hlow 2 (by simp)) (hat 0 rfl) hS
    · exact free _ _ _ _ _ _ _ (by rw [hs]; ring) (mul_nonneg (hC0 W) hS)
  · refine finish ![0, 1, 1] (by intro i; fin_cases i <;> simp) (fun l hl W S z hS hlow hat => ⟨?_, ?_, ?_⟩) <;> rintro ⟨⟩
    · exact free _ _ _ _ _ _ _ (by rw [hs]; ring) (mul_nonneg (hA0 W) hS)
    · rw [hB, mul_right_comm]; exact one _ _ _ _ _ _ _ (hlow 0 (by simp)) (hat 2 rfl) hS
    · rw [hC, mul_right_comm]; exact one _ _ _ _ _ _ _ (hlow 0 (by simp)) (hat 1 rfl) hS
  · refine finish ![1, 0, 1] (by intro i; fin_cases i <;> simp) (fun l hl W S z hS hlow hat => ⟨?_, ?_, ?_⟩) <;> rintro ⟨⟩
    · rw [hA, mul_right_comm]; exact one _ _ _ _ _ _ _ (hlow 1 (by simp)) (hat 2 rfl) hS
    · exact free _ _ _ _ _ _ _ (by rw [hs]; ring) (mul_nonneg (hB0 W) hS)
    · rw [hC]; exact one _ _ _ _ _ _ _ (hlow 1 (by simp)) (hat 0 rfl) hS
end

/-- Every RK45 step of a six-degrees-of-freedom spacecraft of which two moments of inertia agree (by default, all three do) returns, from every finite
state and for every requested control. -/
theorem C91_sixdof (env : Env realFmt) (uninit : List Nat → Vec realFmt) (args : SixDofArgs realFmt) (p : SixDofParams ℝ) (hp : p.Of args)
    (hI : ∀ i, p.inertia i i ≠ 0) (hsym : p.inertia 0 0 = p.inertia 1 1 ∨ p.inertia 1 1 = p.inertia 2 2 ∨ p.inertia 2 2 = p.inertia 0 0)
    (hr : args.integrationMethod = "RK45") (e0 : Entity realFmt) (h0 : newSixDof env uninit args = .ok e0) (env' : Env realFmt) (ops : List (Op realFmt))
    (T : ℝ) (hT : T ≠ 0) (ac : Action realFmt) (u : Fin 6 → ℝ) (y : Fin 13 → ℝ) (hs : (e0.run env' ops).state = toFl y)
    (ha : Asks (exactScipy 0) (e0.run env' ops) ac u) :
    ∃ N r, (∃ w : Fin 13 → ℝ, r.entity.state = toFl w) ∧ (∃ w : Fin 13 → ℝ, r.entity.stateDot = toFl w) ∧ r.outcome = .ok () ∧
      ∀ fuel, N ≤ fuel → (e0.run env' ops).step (exactScipy fuel) (.fin T) ac = r := by
  obtain ⟨r, -, r2, -⟩ := sixDof_realised hp hI h0
  have hcfg := run_sameConfig env' ops e0
  obtain ⟨G, P, hc, hP⟩ := sixDof_confined p args.bodyFrameThrust ((sixDofModel p args.bodyFrameThrust).sat u) hsym |T| y
  exact (r.congr hcfg).step_confined (by omega) (by rw [(sameConfig_method hcfg).1, r2, hr]) (fun _ => trivial) ha T (fun h => absurd h hT) hs hc hP

/-- a spacecraft with two equal moments of inertia, over the reals, with the limits of the default one -/
noncomputable def Demo.axialArgs : SixDofArgs realFmt :=
  { m := .fin 12, inertiaMatrix := fun i j => if i = j then if i = 2 then .fin (2 / 10) else .fin (573 / 10000) else .fin 0,
    angAccLimit := .num (.fin (17453 / 1000000)), angVelLimit := .num (.fin (34907 / 1000000)), inertiaWheel := .fin (41 / 1000000),
    accLimitWheel := .fin (1813 / 10), velLimitWheel := .fin 576, thrustControlLimit := .fin 1, n := .fin (1027 / 1000000), kwargs := [("name", .str "a")] }

/-- its steps return: every hypothesis is met -/
example : ∃ (e0 : Entity realFmt) (p : SixDofParams ℝ) (fuel : Nat) (y : Fin 13 → ℝ) (u : Fin 6 → ℝ),
    newSixDof (exactScipy 0) (fun _ => []) Demo.axialArgs = .ok e0 ∧ p.Of Demo.axialArgs ∧ (∀ i, p.inertia i i ≠ 0) ∧ p.inertia 0 0 = p.inertia 1 1 ∧
    p.inertia 1 1 ≠ p.inertia 2 2 ∧ Demo.axialArgs.integrationMethod = "RK45" ∧ y ≠ 0 ∧
    (e0.run (exactScipy 0) [.setState (toFl y)]).state = toFl y ∧
    Asks (exactScipy 0) (e0.run (exactScipy 0) [.setState (toFl y)]) (.ndarray .f64 (toFl u)) u ∧ u ≠ 0 ∧
    ((e0.run (exactScipy 0) [.setState (toFl y)]).step (exactScipy fuel) (.fin 3) (.ndarray .f64 (toFl u))).outcome = .ok () := by
  obtain ⟨e0, h0⟩ : ∃ e0 : Entity realFmt, newSixDof (exactScipy 0) (fun _ => []) Demo.axialArgs = .ok e0 := by
    have hd : pyDiv (1 : Fl realFmt) (.fin 12) = .ok (1 / .fin 12) := by simp [pyDiv, Fl.eqb]
    simp only [newSixDof, instantiate, initSixDof, mkSixDofDynamics, generateCwhMatrices, Demo.axialArgs, numberListToNp, if_true, hd, bind, Except.bind, pure,
      Except.pure]
    exact ⟨_, rfl⟩
  have hp : SixDofParams.Of ⟨12, fun i j => if i = j then if i = 2 then 2 / 10 else 573 / 10000 else 0, fun _ => 17453 / 1000000, fun _ => 34907 / 1000000,
      41 / 1000000, 1813 / 10, 576, 1, 1027 / 1000000⟩ Demo.axialArgs :=
    ⟨rfl, fun i j => by simp only [Demo.axialArgs]; split <;> (try split) <;> rfl, .inl ⟨_, rfl, fun _ => rfl⟩, .inl ⟨_, rfl, fun _ => rfl⟩, rfl, rfl, rfl, rfl, rfl⟩
  have ha : Asks (exactScipy 0) (e0.run (exactScipy 0) [.setState (toFl ![5, 0, 0, 0, 0, 0, 1, 0, 0, 0, 1 / 100, 0, 0])]) (.ndarray .f64 (toFl ![1, 0, 0, 0, 0, 1]))
      ![1, 0, 0, 0, 0, 1] := asks_iff.2 ⟨.f64, rfl⟩
  have hI : ∀ i : Fin 3, (if i = i then if i = 2 then 2 / 10 else 573 / 10000 else 0 : ℝ) ≠ 0 := by
    intro i
    rw [if_pos rfl]
    split <;> norm_num
  obtain ⟨N, r, -, -, h1, h2⟩ := C91_sixdof (exactScipy 0) (fun _ => []) Demo.axialArgs _ hp hI (.inl (by simp)) rfl e0 h0 (exactScipy 0)
    [.setState (toFl ![5, 0, 0, 0, 0, 0, 1, 0, 0, 0, 1 / 100, 0, 0])] 3 (by norm_num) (.ndarray .f64 (toFl ![1, 0, 0, 0, 0, 1])) ![1, 0, 0, 0, 0, 1] _ rfl ha
  refine ⟨e0, _, N, ![5, 0, 0, 0, 0, 0, 1, 0, 0, 0, 1 / 100, 0, 0], ![1, 0, 0, 0, 0, 1], h0, hp, hI, by simp, by simp; norm_num, rfl,
    fun h => ?_, rfl, ha, fun h => ?_, by rw [h2 N le_rfl]; exact h1⟩
  · simpa using congrFun h 0
  · simpa using congrFun h 0

end SAD
