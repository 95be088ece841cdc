import Verif.Lemmas.Jax
import Verif.Lemmas.SciPyStep

/-! # JAX's integrator comes to an end when the derivative grows at most linearly -/

set_option linter.unusedSectionVars false

namespace SAD
open Spec

/-! ### bounds on a step -/

section bounds
variable {n : Nat} {F : ℝ → (Fin n → ℝ) → (Fin n → ℝ)} {S : (Fin n → ℝ) → Prop} {D : Submodule ℝ (Fin n → ℝ)} {f : Rhs realFmt}

theorem kjaxE_one : ((kjaxE : List ℝ).map (|·|)).sum ≤ 1 := by
  simp only [kjaxE, List.map_cons, List.map_nil, List.sum_cons, List.sum_nil]
  norm_num [abs_of_pos, abs_of_neg, abs_div]

/-- the error ratio over the real numbers -/
noncomputable def kjaxRatio (F : ℝ → (Fin n → ℝ) → (Fin n → ℝ)) (t h : ℝ) (y : Fin n → ℝ) : ℝ :=
  Real.sqrt (ksq (fun i => (h • combo kjaxE (krows F t h y)) i / kjaxScale y (rkStep kdopri F t h y) i) / n)

theorem kjaxRatio_le (hn : 0 < n) {a b : ℝ} (hg : Growth F S a b) (hst : Stable F S D) {h H : ℝ} (hh : |h| ≤ H) {y : Fin n → ℝ} (hy : S y) (t : ℝ) :
    kjaxRatio F t h y ≤ |h| * (100000000 * ((1 + 30 * a * H) ^ 6 * (a * ‖y‖ + b))) := by
  have hH : 0 ≤ H := (abs_nonneg h).trans hh
  have ha := hg.1
  have hb := hg.2.1
  have hn' : (0 : ℝ) < n := by exact_mod_cast hn
  generalize hC : (1 + 30 * a * H) ^ 6 * (a * ‖y‖ + b) = C
  have hC0 : 0 ≤ C := by rw [← hC]; positivity
  have h1 := (krows_norm hg hst hh hy t).1
  rw [hC] at h1
  have h2 : ∀ i, |(h • combo (kjaxE : List ℝ) (krows F t h y)) i| ≤ |h| * C := by
    intro i
    refine (norm_le_pi_norm (h • combo (kjaxE : List ℝ) (krows F t h y)) i).trans ?_
    rw [norm_smul, Real.norm_eq_abs]
    apply mul_le_mul_of_nonneg_left _ (abs_nonneg h)
    refine (combo_norm _ _ _ hC0 h1).trans ?_
    have := mul_le_mul_of_nonneg_right kjaxE_one hC0
    linarith
  have hB : 0 ≤ |h| * (100000000 * C) := by positivity
  have h3 : ∀ i, |(h • combo kjaxE (krows F t h y)) i / kjaxScale y (rkStep kdopri F t h y) i| ≤ |h| * (100000000 * C) := by
    intro i
    have hs := kjaxScale_pos y (rkStep kdopri F t h y) i
    have hs' : 1 / 100000000 ≤ kjaxScale y (rkStep kdopri F t h y) i := by
      unfold kjaxScale
      have := le_max_of_le_left (c := |rkStep kdopri F t h y i|) (abs_nonneg (y i))
      linarith
    rw [abs_div, abs_of_pos hs, div_le_iff₀ hs]
    refine (h2 i).trans ?_
    calc |h| * C = |h| * (100000000 * C) * (1 / 100000000) := by ring
      _ ≤ _ := mul_le_mul_of_nonneg_left hs' hB
  unfold kjaxRatio
  rw [Real.sqrt_le_left hB, div_le_iff₀ hn']
  unfold ksq
  calc ∑ i, _ ≤ ∑ i : Fin n, (|h| * (100000000 * C)) ^ 2 := by
        apply Finset.sum_le_sum
        intro i _
        rw [← pow_two]
        exact sq_le_sq.2 (by rw [abs_of_nonneg hB]; exact h3 i)
    _ = _ := by simp [mul_comm]

/-- the next step size: no smaller after a good step, no smaller than a fifth after any, and at most nine tenths after a rejected one -/
theorem jaxNextStep_bounds {h r : ℝ} (hh : 0 < h) (hr : 0 ≤ r) : ∃ h', Fl.clip (jaxNextStep (.fin h : Fl realFmt) (.fin r)) 0 .pinf = .fin h' ∧
    (r < 1 → h ≤ h') ∧ h / 5 ≤ h' ∧ (1 < r → h' ≤ h * (9 / 10)) := by
  have l5 : (1 / 5 : Fl realFmt) = .fin (1 / 5) := div_lit_eq 1 5 (by norm_num) _ (by norm_num)
  have l9 : (9 / 10 : Fl realFmt) = .fin (9 / 10) := div_lit_eq 9 10 (by norm_num) _ (by norm_num)
  have l10 : (10 : Fl realFmt) = .fin 10 := Fl.ofNat_fin 10
  have lm : (-1 / 5 : Fl realFmt) = .fin (-1 / 5) := by
    rw [Fl.one_fin, Fl.neg_fin, show (5 : Fl realFmt) = .fin 5 from Fl.ofNat_fin 5, Fl.fin_div_fin _ _ (by norm_num)]
  have key : ∃ h', 0 < h' ∧ jaxNextStep (.fin h : Fl realFmt) (.fin r) = .fin h' ∧
      (r < 1 → h ≤ h') ∧ h / 5 ≤ h' ∧ (1 < r → h' ≤ h * (9 / 10)) := by
    unfold jaxNextStep
    rcases hr.eq_or_lt with rfl | hr
    · exact ⟨h * 10, by positivity, by simp [Fl.zero_fin, Fl.eqb, l10], fun _ => by linarith, by linarith, fun h => by norm_num at h⟩
    · obtain ⟨d, hd, hd1, hd2, ed⟩ : ∃ d : ℝ, 1 / 5 ≤ d ∧ (r < 1 → d = 1) ∧ (1 < r → d = 1 / 5) ∧
          (if (.fin r : Fl realFmt) < 1 then (1 : Fl realFmt) else 1 / 5) = .fin d := by
        split
        · rename_i h1
          rw [Fl.one_fin, Fl.fin_lt_fin] at h1
          exact ⟨1, by norm_num, fun _ => rfl, fun h2 => absurd h1 (not_lt.2 h2.le), Fl.one_fin⟩
        · rename_i h1
          rw [Fl.one_fin, Fl.fin_lt_fin] at h1
          exact ⟨1 / 5, le_rfl, fun h2 => absurd h2 h1, fun _ => rfl, l5⟩
      have ep : powSci (.fin r : Fl realFmt) (-1 / 5) = .fin (r ^ (-1 / 5 : ℝ)) := by
        rw [lm]
        simp only [powSci, not_lt.2 hr.le, hr.ne', if_false]
        rfl
      have hfac : 1 / 5 ≤ min 10 (max (r ^ (-1 / 5 : ℝ) * (9 / 10)) d) := le_min (by norm_num) (le_max_of_le_right hd)
      refine ⟨h * min 10 (max (r ^ (-1 / 5 : ℝ) * (9 / 10)) d), mul_pos hh (by linarith), ?_, ?_, ?_, ?_⟩
      · have h0 : Fl.eqb (.fin r : Fl realFmt) 0 = false := by
          rw [Fl.zero_fin]
          exact decide_eq_false hr.ne'
        simp only [ed, ep, h0, l9]
        rw [l10, if_neg (by simp), Fl.fin_mul_fin (r ^ (-1 / 5 : ℝ)), npMax_fin, npMin_fin, Fl.fin_mul_fin]
      · intro h1
        refine le_mul_of_one_le_right hh.le (le_min (by norm_num) (le_max_of_le_right ?_))
        rw [hd1 h1]
      · have := mul_le_mul_of_nonneg_left hfac hh.le
        linarith
      · intro h1
        apply mul_le_mul_of_nonneg_left _ hh.le
        refine (min_le_right _ _).trans (max_le ?_ (by rw [hd2 h1]; norm_num))
        have : r ^ (-1 / 5 : ℝ) ≤ 1 := Real.rpow_le_one_of_one_le_of_nonpos h1.le (by norm_num)
        linarith
  obtain ⟨h', h1, h2, h3⟩ := key
  refine ⟨h', ?_, h3⟩
  have := clip_fin (R := realFmt) (some 0) none h'
  simp only [loFl, hiFl] at this
  rw [h2, Fl.zero_fin, this]
  simp [kclip, h1.le]

/-- the loop variables at time `t`, with the step size `dt` to try next -/
def JaxGo (F : ℝ → (Fin n → ℝ) → (Fin n → ℝ)) (S : (Fin n → ℝ) → Prop) (s : JaxState realFmt) (t dt : ℝ) (y : Fin n → ℝ) : Prop :=
  s.y = toFl y ∧ s.f = toFl (F t y) ∧ s.t = .fin t ∧ s.dt = .fin dt ∧ S y

/-- one turn of the loop -/
theorem jaxBody_go (hn : 0 < n) (hf : LiftsOn S f F) (hst : Stable F S D) {s : JaxState realFmt} {t dt : ℝ} {y : Fin n → ℝ} (h : JaxGo F S s t dt y)
    (hdt : 0 < dt) : ∃ s' dt', jaxBody f s = .ok s' ∧ (kjaxRatio F t dt y < 1 → dt ≤ dt') ∧ dt / 5 ≤ dt' ∧
      (JaxGo F S s' (t + dt) dt' (rkStep kdopri F t dt y) ∨ JaxGo F S s' t dt' y ∧ 1 < kjaxRatio F t dt y ∧ dt' ≤ dt * (9 / 10)) := by
  obtain ⟨e1, e2, e3, e4, hy⟩ := h
  obtain ⟨g1, hS⟩ := jaxStep_lift hf hst t dt hy
  obtain ⟨dt', e5, b1, b2, b3⟩ := jaxNextStep_bounds hdt (Real.sqrt_nonneg (ksq (fun i => (dt • combo kjaxE (krows F t dt y)) i /
    kjaxScale y (rkStep kdopri F t dt y) i) / n))
  have er := jaxErrorRatio_real hn (dt • combo kjaxE (krows F t dt y)) y (rkStep kdopri F t dt y)
  change jaxErrorRatio _ _ _ = .fin (kjaxRatio F t dt y) at er
  unfold jaxBody
  rw [e1, e2, e3, e4, g1]
  simp only [bind, Except.bind, pure, Except.pure, er]
  change Fl.clip (jaxNextStep (.fin dt) (.fin (kjaxRatio F t dt y))) 0 .pinf = _ at e5
  rw [e5]
  split
  · exact ⟨_, dt', rfl, b1, b2, .inl ⟨rfl, rfl, Fl.fin_add_fin _ _, rfl, hS⟩⟩
  · rename_i h1
    rw [Fl.one_fin, Fl.fin_le_fin] at h1
    exact ⟨_, dt', rfl, b1, b2, .inr ⟨⟨rfl, rfl, rfl, rfl, hy⟩, not_le.1 h1, b3 (not_le.1 h1)⟩⟩

/-- the loop towards a time `τ ≤ T` comes to an end -/
theorem jaxWhile_returns (hn : 0 < n) (hf : LiftsOn S f F) (hst : Stable F S D) {a b : ℝ} (hg : Growth F S a b) {T τ W ηm Q : ℝ} (hT : 0 < T) (hτ : τ ≤ T)
    (hm : 0 < ηm) (hQ : Q = 100000000 * ((1 + 30 * a * T) ^ 6 * ((a + b) * W)) + 1) (hmQ : 5 * ηm * Q ≤ 1) (hmT : 5 * ηm ≤ T) (hW : 0 < W) :
    ∀ (m j : Nat) {s : JaxState realFmt} {t dt : ℝ} {y : Fin n → ℝ}, JaxGo F S s t dt y → 0 ≤ t → ηm ≤ dt → T - t ≤ m * ηm →
      dt * (9 / 10) ^ j * Q < 1 → dt * (9 / 10) ^ j < T →
      (t < T → (‖y‖ + 1) * Real.exp (30 * ((1 + 30 * a * T) ^ 6 * (a + b)) * (T - t)) ≤ W) →
      ∃ N s' t' dt' y', jaxWhile f (.fin τ) N s = .ok s' ∧ JaxGo F S s' t' dt' y' ∧ 0 ≤ t' ∧ ηm ≤ dt' ∧
        (t' < T → (‖y'‖ + 1) * Real.exp (30 * ((1 + 30 * a * T) ^ 6 * (a + b)) * (T - t')) ≤ W)
  | m, j, s, t, dt, y, h, ht, hdt, hTm, hj1, hj2, hyW => by
    have h' := h
    obtain ⟨e1, e2, e3, e4, hy⟩ := h
    have hdt0 : 0 < dt := hm.trans_le hdt
    by_cases hlt : t < τ
    swap
    · refine ⟨0, s, t, dt, y, ?_, h', ht, hdt, hyW⟩
      exact jaxWhile_stop (by rw [e3, Fl.fin_lt_fin]; exact fun h => hlt h.1) 0
    have htT : t < T := lt_of_lt_of_le hlt hτ
    have hyW' := hyW htT
    have ha := hg.1
    have hb := hg.2.1
    generalize hC : (1 + 30 * a * T) ^ 6 = C at *
    have hC0 : 0 ≤ C := by rw [← hC]; positivity
    have hQ0 : 0 < Q := by rw [hQ]; positivity
    have hexp : 1 ≤ Real.exp (30 * (C * (a + b)) * (T - t)) := Real.one_le_exp (mul_nonneg (by positivity) (by linarith))
    have hyW1 : ‖y‖ + 1 ≤ W := le_trans (le_mul_of_one_le_right (by positivity) hexp) hyW'
    have hG : a * ‖y‖ + b ≤ (a + b) * (‖y‖ + 1) := by
      have := norm_nonneg y
      nlinarith
    have hG' : a * ‖y‖ + b ≤ (a + b) * W := hG.trans (mul_le_mul_of_nonneg_left hyW1 (by positivity))
    have hsmall : dt ≤ T → dt * Q < 1 → kjaxRatio F t dt y < 1 := by
      intro h1 h2
      refine lt_of_le_of_lt (kjaxRatio_le hn hg hst (H := T) (by rw [abs_of_pos hdt0]; exact h1) hy t) ?_
      rw [hC, abs_of_pos hdt0]
      refine lt_of_le_of_lt (mul_le_mul_of_nonneg_left ?_ hdt0.le) h2
      rw [hQ]
      have := mul_le_mul_of_nonneg_left hG' hC0
      linarith
    obtain ⟨s1, dt1, g1, g2, g3, g4⟩ := jaxBody_go hn hf hst h' hdt0
    have hdt1 : ηm ≤ dt1 := by
      by_cases h1 : dt ≤ T ∧ dt * Q < 1
      · exact hdt.trans (g2 (hsmall h1.1 h1.2))
      · refine le_trans ?_ g3
        rw [not_and_or, not_le, not_lt] at h1
        rcases h1 with h1 | h1
        · linarith
        · by_contra hc
          have : 5 * ηm * Q > dt * Q := mul_lt_mul_of_pos_right (by linarith) hQ0
          linarith
    have hnext : ∃ N s' t' dt' y', jaxWhile f (.fin τ) N s1 = .ok s' ∧ JaxGo F S s' t' dt' y' ∧ 0 ≤ t' ∧ ηm ≤ dt' ∧
        (t' < T → (‖y'‖ + 1) * Real.exp (30 * (C * (a + b)) * (T - t')) ≤ W) := by
      rcases g4 with g4 | ⟨g4, g5, g6⟩
      · match m with
        | 0 => simp at hTm; linarith
        | m + 1 =>
        obtain ⟨j', hj'⟩ : ∃ j' : ℕ, dt1 * (9 / 10) ^ j' * Q < 1 ∧ dt1 * (9 / 10) ^ j' < T := by
          have hd1 : 0 < dt1 := hm.trans_le hdt1
          obtain ⟨j', hj'⟩ := exists_pow_lt_of_lt_one (lt_min (by positivity : (0 : ℝ) < 1 / (dt1 * Q)) (by positivity : (0 : ℝ) < T / dt1)) (by norm_num : (9 / 10 : ℝ) < 1)
          refine ⟨j', ?_, ?_⟩
          · have := lt_of_lt_of_le hj' (min_le_left _ _)
            rw [lt_div_iff₀ (by positivity)] at this
            linarith
          · have := lt_of_lt_of_le hj' (min_le_right _ _)
            rw [lt_div_iff₀ hd1] at this
            linarith
        have := jaxWhile_returns hn hf hst hg hT hτ hm (by rw [hC]; exact hQ) hmQ hmT hW m j' g4 (by linarith) hdt1 (by
          have : ((m + 1 : ℕ) : ℝ) * ηm = m * ηm + ηm := by push_cast; ring
          rw [this] at hTm
          linarith) hj'.1 hj'.2 (by
          intro ht1
          rw [hC]
          have hstep := (krows_norm hg hst (h := dt) (H := T) (by rw [abs_of_pos hdt0]; linarith) hy t).2
          rw [hC, abs_of_pos hdt0] at hstep
          have hgrow : ‖rkStep kdopri F t dt y‖ + 1 ≤ (‖y‖ + 1) * Real.exp (30 * (C * (a + b)) * dt) := by
            have h5 : 30 * (C * (a + b)) * dt + 1 ≤ Real.exp (30 * (C * (a + b)) * dt) := Real.add_one_le_exp _
            have h6 := mul_le_mul_of_nonneg_left h5 (by positivity : 0 ≤ ‖y‖ + 1)
            have h7 := mul_le_mul_of_nonneg_left (mul_le_mul_of_nonneg_left hG hC0) (by positivity : 0 ≤ 30 * dt)
            linarith
          refine le_trans (mul_le_mul_of_nonneg_right hgrow (Real.exp_pos _).le) (le_trans (le_of_eq ?_) hyW')
          rw [mul_assoc, ← Real.exp_add]
          congr 2
          ring)
        rw [hC] at this
        exact this
      · match j with
        | 0 =>
          simp at hj1 hj2
          exact absurd (hsmall hj2.le hj1) (not_lt.2 g5.le)
        | j + 1 =>
          have hle : dt1 * (9 / 10) ^ j ≤ dt * (9 / 10) ^ (j + 1) := by
            rw [pow_succ']
            calc dt1 * (9 / 10) ^ j ≤ dt * (9 / 10) * (9 / 10) ^ j := mul_le_mul_of_nonneg_right g6 (by positivity)
              _ = _ := by ring
          have := jaxWhile_returns hn hf hst hg hT hτ hm (by rw [hC]; exact hQ) hmQ hmT hW m j g4 ht hdt1 hTm
            (lt_of_le_of_lt (mul_le_mul_of_nonneg_right hle hQ0.le) hj1) (lt_of_le_of_lt hle hj2) (by rw [hC]; exact hyW)
          rw [hC] at this
          exact this
    obtain ⟨N, s', t', dt', y', k1, k2⟩ := hnext
    refine ⟨N + 1, s', t', dt', y', ?_, k2⟩
    simp only [jaxWhile, e3, e4, Fl.zero_fin, Fl.fin_lt_fin, hlt, hdt0, and_self, if_true, g1, bind, Except.bind]
    exact k1
termination_by m j => (m, j)

end bounds

/-! ### more fuel gives the same answer -/

section fuel
variable {K : Type} {R : Fmt K} [Field K] [LinearOrder K]

theorem jaxWhile_mono {f : Rhs R} {τ : Fl R} {s' : JaxState R} : ∀ {k : Nat} {s : JaxState R}, jaxWhile f τ k s = .ok s' → ∀ k', k ≤ k' →
    jaxWhile f τ k' s = .ok s'
  | 0, s, e, k', _ => by
    simp only [jaxWhile] at e
    split at e
    · cases e
    · rename_i h
      cases e
      exact jaxWhile_stop h _
  | k + 1, s, e, k', hk => by
    obtain ⟨k', rfl⟩ : ∃ j, k' = j + 1 := ⟨k' - 1, by omega⟩
    simp only [jaxWhile] at e ⊢
    split at e
    · rename_i h
      rw [if_pos h]
      obtain ⟨s1, g1, g2⟩ := Except.bind_ok.1 e
      rw [g1]
      exact jaxWhile_mono g2 k' (by omega)
    · rename_i h
      rw [if_neg h]
      exact e

theorem jaxScan_mono {f : Rhs R} {k k' : Nat} (hk : k ≤ k') : ∀ {ts : Vec R} {s : JaxState R} {rows : List (Vec R)}, jaxScan f k ts s = .ok rows →
    jaxScan f k' ts s = .ok rows
  | [], _, _, e => e
  | τ :: ts, s, rows, e => by
    simp only [jaxScan] at e ⊢
    obtain ⟨s1, g1, e⟩ := Except.bind_ok.1 e
    obtain ⟨rest, g2, e⟩ := Except.bind_ok.1 e
    rw [jaxWhile_mono g1 k' hk]
    simp only [bind, Except.bind, jaxScan_mono hk g2]
    exact e

/-- an answer does not depend on the fuel -/
theorem jaxOdeint_mono {f : Rhs R} {k k' : Nat} (hk : k ≤ k') {y0 : Vec R} {T : Fl R} {rows : List (Vec R)} (h : jaxOdeint k f y0 T = .ok rows) :
    jaxOdeint k' f y0 T = .ok rows := by
  unfold jaxOdeint at h ⊢
  obtain ⟨v, g1, h⟩ := Except.bind_ok.1 h
  obtain ⟨v', g2, h⟩ := Except.bind_ok.1 h
  obtain ⟨dt, g3, h⟩ := Except.bind_ok.1 h
  obtain ⟨rs, g4, h⟩ := Except.bind_ok.1 h
  rw [g1]
  simp only [bind, Except.bind]
  rw [g2]
  simp only
  rw [g3]
  simp only
  rw [jaxScan_mono hk g4]
  exact h

end fuel

section solve
variable {n : Nat} {F : ℝ → (Fin n → ℝ) → (Fin n → ℝ)} {S : (Fin n → ℝ) → Prop} {D : Submodule ℝ (Fin n → ℝ)} {f : Rhs realFmt}

theorem jaxScan_returns (hn : 0 < n) (hf : LiftsOn S f F) (hst : Stable F S D) {a b : ℝ} (hg : Growth F S a b) {T W ηm Q : ℝ} (hT : 0 < T)
    (hm : 0 < ηm) (hQ : Q = 100000000 * ((1 + 30 * a * T) ^ 6 * ((a + b) * W)) + 1) (hmQ : 5 * ηm * Q ≤ 1) (hmT : 5 * ηm ≤ T) (hW : 0 < W) :
    ∀ (ts : List ℝ) {s : JaxState realFmt} {t dt : ℝ} {y : Fin n → ℝ}, (∀ τ ∈ ts, τ ≤ T) → JaxGo F S s t dt y → 0 ≤ t → ηm ≤ dt →
      (t < T → (‖y‖ + 1) * Real.exp (30 * ((1 + 30 * a * T) ^ 6 * (a + b)) * (T - t)) ≤ W) →
      ∃ N rows, jaxScan f N (ts.map .fin) s = .ok rows
  | [], s, _, _, _, _, _, _, _, _ => ⟨0, [], rfl⟩
  | τ :: ts, s, t, dt, y, hts, h, ht, hdt, hyW => by
    have hdt0 : 0 < dt := hm.trans_le hdt
    have ha := hg.1
    have hb := hg.2.1
    have hQ0 : 0 < Q := by rw [hQ]; positivity
    obtain ⟨j, hj⟩ := exists_pow_lt_of_lt_one (lt_min (by positivity : (0 : ℝ) < 1 / (dt * Q)) (by positivity : (0 : ℝ) < T / dt)) (by norm_num : (9 / 10 : ℝ) < 1)
    have hj1 := lt_of_lt_of_le hj (min_le_left _ _)
    have hj2 := lt_of_lt_of_le hj (min_le_right _ _)
    rw [lt_div_iff₀ (by positivity)] at hj1
    rw [lt_div_iff₀ hdt0] at hj2
    obtain ⟨m, hm'⟩ := exists_nat_ge ((T - t) / ηm)
    rw [div_le_iff₀ hm] at hm'
    obtain ⟨N, s', t', dt', y', k1, k2, k3, k4, k5⟩ := jaxWhile_returns hn hf hst hg hT (hts τ (by simp)) hm hQ hmQ hmT hW m j h ht hdt hm' (by linarith) (by linarith) hyW
    obtain ⟨N', rows, k6⟩ := jaxScan_returns hn hf hst hg hT hm hQ hmQ hmT hW ts (fun u hu => hts u (by simp [hu])) k2 k3 k4 k5
    refine ⟨max N N', jaxOutput s' (.fin τ) :: rows, ?_⟩
    simp only [List.map_cons, jaxScan, jaxWhile_mono k1 _ (le_max_left N N'), bind, Except.bind, jaxScan_mono (le_max_right N N') k6, pure, Except.pure]

/-- **`odeint` returns**: for a derivative that grows at most linearly, from every finite state and for every positive time span. -/
theorem jaxOdeint_returns (hn : 0 < n) (hf : LiftsOn S f F) (hst : Stable F S D) {a b : ℝ} (hg : Growth F S a b) {T : ℝ} (hT : 0 < T) {y : Fin n → ℝ}
    (hy : S y) : ∃ N rows, ∀ fuel, N ≤ fuel → jaxOdeint fuel f (toFl y) (.fin T) = .ok rows := by
  obtain ⟨η, hη, e1⟩ := jaxInitialStep_pos hf hst hy
  have ha := hg.1
  have hb := hg.2.1
  obtain ⟨W, hWe⟩ : ∃ W, W = (‖y‖ + 1) * Real.exp (30 * ((1 + 30 * a * T) ^ 6 * (a + b)) * (T - 0)) := ⟨_, rfl⟩
  have hW : 0 < W := by rw [hWe]; positivity
  obtain ⟨Q, hQ⟩ : ∃ Q, Q = 100000000 * ((1 + 30 * a * T) ^ 6 * ((a + b) * W)) + 1 := ⟨_, rfl⟩
  have hQ0 : 0 < Q := by rw [hQ]; positivity
  obtain ⟨ηm, hηm⟩ : ∃ ηm, ηm = min η (min (1 / (5 * Q)) (T / 5)) := ⟨_, rfl⟩
  have hm : 0 < ηm := by rw [hηm]; exact lt_min hη (lt_min (by positivity) (by positivity))
  have hm1 : ηm ≤ η := by rw [hηm]; exact min_le_left _ _
  have hm2 : ηm ≤ 1 / (5 * Q) := by rw [hηm]; exact (min_le_right _ _).trans (min_le_left _ _)
  have hm3 : ηm ≤ T / 5 := by rw [hηm]; exact (min_le_right _ _).trans (min_le_right _ _)
  rw [le_div_iff₀ (by positivity)] at hm2
  have hc := clip_fin (R := realFmt) (some 0) none η
  simp only [loFl, hiFl] at hc
  obtain ⟨N, rows, h⟩ := jaxScan_returns hn hf hst hg hT hm hQ (by linarith) (by linarith) hW
    ((List.range 9).map (fun i => T * (((i + 1 : ℕ) : ℝ) / 10)) ++ [T])
    (s := ⟨toFl y, toFl (F 0 y), .fin 0, .fin η, .fin 0, (toFl y).map fun y => List.replicate 5 y⟩) (t := 0) (dt := η) (y := y) (by
      intro τ hτ
      rcases List.mem_append.1 hτ with hτ | hτ
      · obtain ⟨i, hi, rfl⟩ := List.mem_map.1 hτ
        have hi := List.mem_range.1 hi
        have : ((i + 1 : ℕ) : ℝ) ≤ 10 := by exact_mod_cast (by omega : i + 1 ≤ 10)
        have h10 : ((i + 1 : ℕ) : ℝ) / 10 ≤ 1 := by rw [div_le_one (by norm_num)]; exact this
        exact mul_le_of_le_one_right hT.le h10
      · exact (List.mem_singleton.1 hτ).le) ⟨rfl, rfl, rfl, rfl, hy⟩ le_rfl hm1 (fun _ => by rw [hWe])
  refine ⟨N, toFl y :: rows, fun fuel hfuel => jaxOdeint_mono hfuel ?_⟩
  unfold jaxOdeint
  rw [Fl.zero_fin, hf _ _ hy]
  simp only [bind, Except.bind, toFl_length, fitRow_toFl]
  rw [e1, jaxTimes_real]
  simp only [hc, kclip, Option.elim, max_eq_left hη.le]
  rw [h]
  rfl

end solve

end SAD
