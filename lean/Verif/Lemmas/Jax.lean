import Verif.Model.Jax
import Verif.Lemmas.SciPyEnds
import Verif.Lemmas.SciPyNan
import Verif.Spec.Base
import Verif.Spec.Jax

/-! # JAX's integrator -/

set_option linter.unusedSectionVars false

namespace SAD
open Spec

/-! ### when no step is taken, in any arithmetic -/

section anyFormat
variable {K : Type} {R : Fmt K} [Field K] [LinearOrder K]

theorem jaxWhile_stop {f : Rhs R} {target : Fl R} {s : JaxState R} (h : ¬ (s.t < target ∧ 0 < s.dt)) (fuel : Nat) :
    jaxWhile f target fuel s = .ok s := by
  cases fuel <;> simp only [jaxWhile, if_neg h]

theorem jaxScan_stop {f : Rhs R} {s : JaxState R} (fuel : Nat) : ∀ (ts : Vec R), (∀ t ∈ ts, ¬ (s.t < t ∧ 0 < s.dt)) →
    jaxScan f fuel ts s = .ok (ts.map (jaxOutput s))
  | [], _ => rfl
  | t :: ts, h => by
    simp only [jaxScan, jaxWhile_stop (h t (by simp)) fuel, jaxScan_stop fuel ts (fun u hu => h u (by simp [hu])), bind, Except.bind,
      pure, Except.pure, List.map_cons]

theorem Fl.zero_mul_nonfin {x : Fl R} (h : x.isFin = false) : (.fin 0 * x : Fl R) = .nan := by
  show Fl.mul _ _ = _
  cases x <;> simp_all [Fl.isFin, Fl.mul, Fl.infSign, Fl.neg]

theorem Fl.div_zero_nonfin (a : Fl R) : (a / .fin 0 : Fl R).isFin = false := by
  show (Fl.div _ _).isFin = false
  cases a
  · rfl
  · simp [Fl.div, Fl.isFin]
  · simp [Fl.div, Fl.isFin]
  · rename_i a
    simp only [Fl.div, if_true, Fl.infSign]
    split
    · rfl
    · split <;> rfl

/-- five copies of anything, evaluated at anything that is not a number -/
theorem jaxPolyval_nonfin {x : Fl R} (h : x.isFin = false) (y : Fl R) : jaxPolyval (List.replicate 5 y) x = .nan := by
  simp only [jaxPolyval, List.replicate, List.foldl_cons, List.foldl_nil]
  rw [show (0 : Fl R) = .fin 0 from congrArg Fl.fin Nat.cast_zero, Fl.zero_mul_nonfin h]
  simp only [anyNan_add, anyNan_mul]

/-- If the loop never runs the result is not a number. -/
theorem jaxOdeint_stuck {fuel : Nat} {f : Rhs R} {y0 : Vec R} {T : Fl R} (hz : (0 - 0 : Fl R) = .fin 0) {f0 k : Vec R} {dt : Fl R} (h0 : f 0 y0 = .ok k)
    (h1 : fitRow y0.length k = .ok f0) (h2 : jaxInitialStep f y0 f0 = .ok dt)
    (hs : ∀ t ∈ jaxTimes T, ¬ (0 < t ∧ 0 < Fl.clip dt 0 .pinf)) :
    ∃ rows, jaxOdeint fuel f y0 T = .ok rows ∧ rows.getLast? = some (List.replicate y0.length .nan) := by
  unfold jaxOdeint
  simp only [h0, h1, h2, bind, Except.bind, pure, Except.pure]
  rw [jaxScan_stop fuel _ hs]
  refine ⟨_, rfl, ?_⟩
  simp only [jaxTimes, List.map_append, List.map_cons, List.map_nil]
  rw [← List.cons_append, List.getLast?_append]
  simp only [List.getLast?_singleton, Option.some_or, Option.some.injEq, jaxOutput, List.map_map, hz]
  rw [List.eq_replicate_iff]
  refine ⟨by simp, fun x hx => ?_⟩
  obtain ⟨y, -, rfl⟩ := List.mem_map.1 hx
  exact jaxPolyval_nonfin (Fl.div_zero_nonfin _) y

end anyFormat

/-! ### over the real numbers -/

section real
variable {n : Nat} {F : ℝ → (Fin n → ℝ) → (Fin n → ℝ)} {S : (Fin n → ℝ) → Prop} {D : Submodule ℝ (Fin n → ℝ)} {f : Rhs realFmt}

noncomputable def kjaxE : List ℝ := [71/86400, 0, -142/50085, 71/2880, -5751/169600, 44/1575, -1/60]

noncomputable def kjaxMid : List ℝ := [6025192743/30085553152/2, 0, 51252292925/65400821598/2, -2691868925/45128329728/2,
  187940372067/1594534317056/2, -1776094331/19743644256/2, 11237099/235043384/2]

theorem jaxE_lift : (jaxE : Vec realFmt) = kjaxE.map .fin := by
  have e : ∀ a b : ℕ, b ≠ 0 → ∀ x : ℝ, x = (a : ℝ) / b → (Fl.fin (a : ℝ) / Fl.fin (b : ℝ) : Fl realFmt) = .fin x := by
    intro a b hb x hx; rw [div_lit a b hb, hx]
  have e' : ∀ a b : ℕ, b ≠ 0 → ∀ x : ℝ, x = -(a : ℝ) / b → (-(Fl.fin (a : ℝ)) / Fl.fin (b : ℝ) : Fl realFmt) = .fin x := by
    intro a b hb x hx; rw [Fl.neg_fin, Fl.fin_div_fin _ _ (by exact_mod_cast hb), hx]
  unfold jaxE kjaxE
  simp only [List.map_cons, List.map_nil, List.cons.injEq, and_true]
  refine ⟨?_, ?_, ?_, ?_, ?_, ?_, ?_⟩ <;>
  first
    | exact Fl.zero_fin
    | exact e _ _ (by norm_num) _ (by norm_num)
    | exact e' _ _ (by norm_num) _ (by norm_num)

theorem jaxMid_lift : (jaxMid : Vec realFmt) = kjaxMid.map .fin := by
  have e : ∀ a b : ℕ, b ≠ 0 → ∀ x : ℝ, x = (a : ℝ) / b / 2 → (Fl.fin (a : ℝ) / Fl.fin (b : ℝ) / 2 : Fl realFmt) = .fin x := by
    intro a b hb x hx
    rw [div_lit a b hb, show (2 : Fl realFmt) = .fin 2 from Fl.ofNat_fin 2, Fl.fin_div_fin _ _ two_ne_zero, hx]
  have e' : ∀ a b : ℕ, b ≠ 0 → ∀ x : ℝ, x = -(a : ℝ) / b / 2 → (-(Fl.fin (a : ℝ)) / Fl.fin (b : ℝ) / 2 : Fl realFmt) = .fin x := by
    intro a b hb x hx
    rw [Fl.neg_fin, Fl.fin_div_fin _ _ (by exact_mod_cast hb), show (2 : Fl realFmt) = .fin 2 from Fl.ofNat_fin 2,
      Fl.fin_div_fin _ _ two_ne_zero, hx]
  unfold jaxMid kjaxMid
  simp only [List.map_cons, List.map_nil, List.cons.injEq, and_true]
  refine ⟨?_, ?_, ?_, ?_, ?_, ?_, ?_⟩ <;>
  first
    | exact Fl.zero_fin
    | exact e _ _ (by norm_num) _ (by norm_num)
    | exact e' _ _ (by norm_num) _ (by norm_num)

theorem jaxTol_fin : (jaxTol : Fl realFmt) = .fin (14/1000000000) := div_lit_eq 14 1000000000 (by norm_num) _ (by norm_num)

theorem rkStages_snoc {V : Type} [AddCommGroup V] [Module ℝ V] (G : ℝ → V → V) (t h : ℝ) (y : V) (c : ℝ) (row : List ℝ) :
    ∀ (st : List (ℝ × List ℝ)) (ks : List V), rkStages G t h y (st ++ [(c, row)]) ks =
      rkStages G t h y st ks ++ [G (t + c * h) (y + h • combo row (rkStages G t h y st ks))]
  | [], ks => rfl
  | p :: st, ks => by
    obtain ⟨c', row'⟩ := p
    simp only [List.cons_append, rkStages]
    exact rkStages_snoc G t h y c row st _

theorem combo_snoc_zero (row : List ℝ) (ks : List (Fin n → ℝ)) (k : Fin n → ℝ) (h : row.length = ks.length) :
    combo (row ++ [0]) (ks ++ [k]) = combo row ks := by
  unfold combo
  rw [List.zip_append h, List.foldl_append]
  simp

theorem jaxStep_lift (hf : LiftsOn S f F) (hst : Stable F S D) (t h : ℝ) {y : Fin n → ℝ} (hy : S y) :
    jaxStep f (toFl y) (toFl (F t y)) (.fin t) (.fin h) =
      .ok (toFl (rkStep kdopri F t h y), toFl (F (t + h) (rkStep kdopri F t h y)), toFl (h • combo kjaxE (krows F t h y)),
        (krows F t h y).map toFl) ∧ S (rkStep kdopri F t h y) := by
  have hS := rkChain_inv kdopri F S D hst.field hst.move t y [h] hy
  simp only [rkChain] at hS
  refine ⟨?_, hS⟩
  have hrows : rkStages F t h y ((kdopri : KTab ℝ).stages ++ [(1, (kdopri : KTab ℝ).b)]) [F t y] = krows F t h y := by
    rw [rkStages_snoc, one_mul]
    rfl
  have hs := rkStagesFl_liftOn hf hst t h y hy ((kdopri : KTab ℝ).stages ++ [(1, (kdopri : KTab ℝ).b)]) [F t y] (by
    intro k hk; simp at hk; subst hk; exact hst.field _ _ hy)
  rw [hrows] at hs
  have hb : combo ((kdopri : KTab ℝ).b ++ [0]) (krows F t h y) = combo (kdopri : KTab ℝ).b (rkStages F t h y (kdopri : KTab ℝ).stages [F t y]) :=
    combo_snoc_zero _ _ _ (by rw [rkStages_length]; rfl)
  have e1 : (dopri : Tableau realFmt).stages ++ [(1, (dopri : Tableau realFmt).b)] =
      liftStages ((kdopri : KTab ℝ).stages ++ [(1, (kdopri : KTab ℝ).b)]) := by
    rw [dopri_lift, Fl.one_fin]
    simp [liftStages, liftTab]
  have e2 : (dopri : Tableau realFmt).b ++ [0] = ((kdopri : KTab ℝ).b ++ [0]).map .fin := by
    rw [dopri_lift, Fl.zero_fin]
    simp [liftTab]
  have hl : (krows F t h y).getLast? = some (F (t + h) (rkStep kdopri F t h y)) := by simp [krows]
  unfold jaxStep
  rw [e1, e2]
  change (rkStagesFl f (.fin t) (.fin h) (toFl y) _ ([F t y].map toFl) >>= _) = _
  rw [hs]
  simp only [bind, Except.bind, pure, Except.pure, toFl_length, jaxE_lift, comboFl_lift, toFl_mul_left, toFl_add, hb]
  rw [List.getLastD_eq_getLast?, List.getLast?_map, hl, add_comm]
  rfl

noncomputable def kjaxScale (y y' : Fin n → ℝ) (i : Fin n) : ℝ := 14/1000000000 + 14/1000000000 * max |y i| |y' i|

theorem kjaxScale_pos (y y' : Fin n → ℝ) (i : Fin n) : 0 < kjaxScale y y' i := by
  have := le_max_of_le_left (c := |y' i|) (abs_nonneg (y i))
  unfold kjaxScale
  positivity

theorem jaxErrorRatio_real (hn : 0 < n) (e y y' : Fin n → ℝ) : jaxErrorRatio (toFl e : Vec realFmt) (toFl y) (toFl y') =
    .fin (Real.sqrt (ksq (fun i => e i / kjaxScale y y' i) / n)) := by
  have h0 : (0 : ℝ) < n := by exact_mod_cast hn
  have e1 : List.zipWith (fun e p => e / (jaxTol + jaxTol * p)) (toFl e : Vec realFmt)
      (List.zipWith (fun a b => Fl.npMax a.abs b.abs) (toFl y) (toFl y')) = toFl (fun i => e i / kjaxScale y y' i) := by
    unfold toFl
    rw [zipWith_ofFn, zipWith_ofFn]
    congr 1
    funext i
    rw [sciAbs_fin, sciAbs_fin, npMax_fin, jaxTol_fin, Fl.fin_mul_fin, Fl.fin_add_fin]
    exact Fl.fin_div_fin _ _ (kjaxScale_pos y y' i).ne'
  unfold jaxErrorRatio
  simp only [e1, toFl_length]
  rw [Fl.zero_fin, foldl_sq_lift, zero_add, Fl.fin_div_fin _ _ h0.ne']
  have : ¬ ksq (fun i => e i / kjaxScale y y' i) / n < 0 :=
    not_lt.2 (div_nonneg (Finset.sum_nonneg fun i _ => mul_self_nonneg _) h0.le)
  simp only [Fl.sqrt, this, if_false]
  rfl

theorem jaxNextStep_pos {h er : ℝ} (hh : 0 < h) (he : 0 ≤ er) : ∃ h', 0 < h' ∧
    Fl.clip (jaxNextStep (.fin h : Fl realFmt) (.fin er)) 0 .pinf = .fin h' := by
  have l5 : (1 / 5 : Fl realFmt) = .fin (1 / 5) := div_lit_eq 1 5 (by norm_num) _ (by norm_num)
  have l9 : (9 / 10 : Fl realFmt) = .fin (9 / 10) := div_lit_eq 9 10 (by norm_num) _ (by norm_num)
  have l10 : (10 : Fl realFmt) = .fin 10 := Fl.ofNat_fin 10
  have lm : (-1 / 5 : Fl realFmt) = .fin (-1 / 5) := by
    rw [Fl.one_fin, Fl.neg_fin, show (5 : Fl realFmt) = .fin 5 from Fl.ofNat_fin 5, Fl.fin_div_fin _ _ (by norm_num)]
  have key : ∃ h', 0 < h' ∧ jaxNextStep (.fin h : Fl realFmt) (.fin er) = .fin h' := by
    unfold jaxNextStep
    rcases he.eq_or_lt with rfl | he
    · exact ⟨h * 10, by positivity, by simp [Fl.zero_fin, Fl.eqb, l10]⟩
    · obtain ⟨d, hd, ed⟩ : ∃ d : ℝ, 0 < d ∧ (if (.fin er : Fl realFmt) < 1 then (1 : Fl realFmt) else 1 / 5) = .fin d := by
        split
        · exact ⟨1, one_pos, Fl.one_fin⟩
        · exact ⟨1 / 5, by norm_num, l5⟩
      have ep : powSci (.fin er : Fl realFmt) (-1 / 5) = .fin (er ^ (-1 / 5 : ℝ)) := by
        rw [lm]
        simp only [powSci, not_lt.2 he.le, he.ne', if_false]
        rfl
      refine ⟨h * min 10 (max (er ^ (-1 / 5 : ℝ) * (9 / 10)) d), mul_pos hh (lt_min (by norm_num) (lt_max_of_lt_right hd)), ?_⟩
      have h0 : Fl.eqb (.fin er : Fl realFmt) 0 = false := by
        rw [Fl.zero_fin]
        exact decide_eq_false he.ne'
      simp only [ed, ep, h0, l9]
      rw [l10, if_neg (by simp), Fl.fin_mul_fin (er ^ (-1 / 5 : ℝ)), npMax_fin, npMin_fin, Fl.fin_mul_fin]
  obtain ⟨h', h1, h2⟩ := key
  refine ⟨h', h1, ?_⟩
  have := clip_fin (R := realFmt) (some 0) none h'
  simp only [loFl, hiFl] at this
  rw [h2, Fl.zero_fin, this]
  simp [kclip, h1.le]

noncomputable def kfit (h y0 y1 m d0 d1 : ℝ) : List ℝ :=
  [-2 * h * d0 + 2 * h * d1 - 8 * y0 - 8 * y1 + 16 * m,
   5 * h * d0 - 3 * h * d1 + 18 * y0 + 14 * y1 - 32 * m,
   -4 * h * d0 + h * d1 - 11 * y0 - 5 * y1 + 16 * m,
   h * d0, y0]

theorem jaxFit_lift (h y0 y1 m d0 d1 : ℝ) :
    jaxFit (.fin h : Fl realFmt) (.fin y0) (.fin y1) (.fin m) (.fin d0) (.fin d1) = (kfit h y0 y1 m d0 d1).map .fin := by
  unfold jaxFit kfit
  simp only [List.map_cons, List.map_nil, Fl.ofNat_fin, Fl.neg_fin, Fl.fin_mul_fin, Fl.fin_add_fin, Fl.fin_sub_fin]
  norm_num

noncomputable def khorner (c : List ℝ) (x : ℝ) : ℝ := c.foldl (fun acc c => acc * x + c) 0

theorem jaxPolyval_lift (c : List ℝ) (x : ℝ) : jaxPolyval (c.map .fin : Vec realFmt) (.fin x) = .fin (khorner c x) := by
  unfold jaxPolyval khorner
  rw [Fl.zero_fin]
  generalize (0 : ℝ) = acc
  induction c generalizing acc with
  | nil => rfl
  | cons a c ih => simp only [List.map_cons, List.foldl_cons, Fl.fin_mul_fin, Fl.fin_add_fin]; exact ih _

/-- the coefficients fitted to a step -/
noncomputable def kcoeff (F : ℝ → (Fin n → ℝ) → (Fin n → ℝ)) (t h : ℝ) (y : Fin n → ℝ) (i : Fin n) : List ℝ :=
  kfit h (y i) (rkStep kdopri F t h y i) ((y + h • combo kjaxMid (krows F t h y)) i) (F t y i) (F (t + h) (rkStep kdopri F t h y) i)

theorem zip_ofFn {α β : Type} (a : Fin n → α) (b : Fin n → β) : List.zip (List.ofFn a) (List.ofFn b) = List.ofFn fun i => (a i, b i) :=
  zipWith_ofFn Prod.mk a b

theorem jaxInterp_lift (t h : ℝ) (y : Fin n → ℝ) : jaxInterp (toFl y : Vec realFmt) (toFl (rkStep kdopri F t h y)) ((krows F t h y).map toFl)
    (toFl (F t y)) (toFl (F (t + h) (rkStep kdopri F t h y))) (.fin h) = List.ofFn fun i => (kcoeff F t h y i).map .fin := by
  unfold jaxInterp
  simp only [toFl_length, jaxMid_lift, comboFl_lift, toFl_mul_left, toFl_add]
  unfold toFl
  rw [zip_ofFn, zip_ofFn, zip_ofFn, zipWith_ofFn]
  simp only [jaxFit_lift]
  rfl

/-- the initial step size is positive -/
theorem jaxInitialStep_pos (hf : LiftsOn S f F) (hst : Stable F S D) {y : Fin n → ℝ} (hy : S y) :
    ∃ η, 0 < η ∧ jaxInitialStep f (toFl y) (toFl (F 0 y)) = .ok (.fin η) := by
  let sc : Fin n → ℝ := fun i => 14/1000000000 + |y i| * (14/1000000000)
  have hsc : ∀ i, sc i ≠ 0 := fun i => by have := abs_nonneg (y i); simp only [sc]; positivity
  have e1 : ((toFl y : Vec realFmt).map fun y => jaxTol + y.abs * jaxTol) = toFl sc := by
    simp only [toFl, List.map_ofFn]
    congr 1
    funext i
    simp only [Function.comp, sciAbs_fin, jaxTol_fin, Fl.fin_mul_fin, Fl.fin_add_fin, sc]
  have en : ∀ x : Fin n → ℝ, jaxNorm (toFl x : Vec realFmt) = .fin (Real.sqrt (ksq x)) := fun x => by
    have h0 : ¬ ksq x < 0 := not_lt.2 (Finset.sum_nonneg fun i _ => mul_self_nonneg _)
    unfold jaxNorm
    rw [Fl.zero_fin, foldl_sq_lift, zero_add]
    simp only [Fl.sqrt, h0, if_false]
    rfl
  have l5 : (1 / 100000 : Fl realFmt) = .fin (1 / 100000) := div_lit_eq 1 100000 (by norm_num) _ (by norm_num)
  have l6 : (1 / 1000000 : Fl realFmt) = .fin (1 / 1000000) := div_lit_eq 1 1000000 (by norm_num) _ (by norm_num)
  have l2 : (1 / 100 : Fl realFmt) = .fin (1 / 100) := div_lit_eq 1 100 (by norm_num) _ (by norm_num)
  have l3 : (1 / 1000 : Fl realFmt) = .fin (1 / 1000) := div_lit_eq 1 1000 (by norm_num) _ (by norm_num)
  have l15 : (1 / 1000000000000000 : Fl realFmt) = .fin (1 / 1000000000000000) := div_lit_eq 1 1000000000000000 (by norm_num) _ (by norm_num)
  have l100 : (100 : Fl realFmt) = .fin 100 := Fl.ofNat_fin 100
  have lp : (1 / 5 : Fl realFmt) = .fin (1 / 5) := div_lit_eq 1 5 (by norm_num) _ (by norm_num)
  unfold jaxInitialStep
  simp only [e1, toFl_div _ _ hsc, en, toFl_length]
  generalize Real.sqrt (ksq (fun i => y i / sc i)) = d0 at *
  generalize Real.sqrt (ksq (fun i => F 0 y i / sc i)) = d1 at *
  obtain ⟨h0, hh0, eh0⟩ : ∃ h0, 0 < h0 ∧ (if (.fin d0 : Fl realFmt) < 1 / 100000 ∨ (.fin d1 : Fl realFmt) < 1 / 100000 then (1 / 1000000 : Fl realFmt)
      else 1 / 100 * (.fin d0 : Fl realFmt) / (.fin d1 : Fl realFmt)) = (.fin h0 : Fl realFmt) := by
    simp only [l5, l6, l2, Fl.fin_lt_fin]
    split
    · exact ⟨_, by norm_num, rfl⟩
    · rename_i h
      rw [not_or, not_lt, not_lt] at h
      have p0 : 0 < d0 := lt_of_lt_of_le (by norm_num) h.1
      have p1 : 0 < d1 := lt_of_lt_of_le (by norm_num) h.2
      rw [Fl.fin_mul_fin, Fl.fin_div_fin _ _ p1.ne']
      exact ⟨_, by positivity, rfl⟩
  rw [eh0]
  have ey1 : List.zipWith (fun y k => y + .fin h0 * k) (toFl y : Vec realFmt) (toFl (F 0 y)) = toFl (y + h0 • F 0 y) := by
    simp [toFl, zipWith_ofFn]
  rw [ey1, Fl.zero_fin, Fl.fin_add_fin, hf _ _ (hst.move _ _ hy (D.smul_mem _ (hst.field _ _ hy)))]
  simp only [bind, Except.bind, fitRow_toFl, toFl_sub, toFl_div _ _ hsc, en, Fl.fin_div_fin _ _ hh0.ne']
  generalize Real.sqrt (ksq _) / h0 = d2
  obtain ⟨h1, hh1, eh1⟩ : ∃ h1, 0 < h1 ∧ (if (.fin d1 : Fl realFmt) ≤ 1 / 1000000000000000 ∧ (.fin d2 : Fl realFmt) ≤ 1 / 1000000000000000 then
      Fl.npMax (1 / 1000000 : Fl realFmt) ((.fin h0 : Fl realFmt) * (1 / 1000 : Fl realFmt))
      else powSci ((1 / 100 : Fl realFmt) / Fl.npMax (.fin d1 : Fl realFmt) (.fin d2 : Fl realFmt)) (1 / 5 : Fl realFmt)) = (.fin h1 : Fl realFmt) := by
    simp only [l15, l6, l3, l2, lp, npMax_fin, Fl.fin_mul_fin, Fl.fin_le_fin]
    split
    · exact ⟨_, lt_max_of_lt_left (by norm_num), rfl⟩
    · rename_i h
      have hpos : 0 < max d1 d2 := by
        rw [not_and_or, not_le, not_le] at h
        rcases h with h | h
        · exact lt_max_of_lt_left (lt_trans (by norm_num) h)
        · exact lt_max_of_lt_right (lt_trans (by norm_num) h)
      have hq : 0 < 1 / 100 / max d1 d2 := by positivity
      refine ⟨(1 / 100 / max d1 d2) ^ (1 / 5 : ℝ), Real.rpow_pos_of_pos hq _, ?_⟩
      rw [Fl.fin_div_fin _ _ hpos.ne']
      simp only [powSci, not_lt.2 hq.le, hq.ne', if_false]
      rfl
  rw [eh1]
  refine ⟨min (100 * h0) h1, lt_min (by positivity) hh1, ?_⟩
  rw [l100, Fl.fin_mul_fin, npMin_fin]
  rfl

/-- a step with the spec's names for its parts -/
theorem jaxStep_spec (F : ℝ → (Fin n → ℝ) → (Fin n → ℝ)) (t h : ℝ) (y : Fin n → ℝ) : JaxStep F t h y (rkStep kdopri F t h y)
    (h • combo kjaxE (krows F t h y)) (y + h • combo kjaxMid (krows F t h y)) := by
  obtain ⟨k1, k2, k3, k4, k5, k6, e1, e2, e3, e4, e5, e6, hl⟩ := dopri_stages F t h y
  refine ⟨k1, k2, k3, k4, k5, k6, F (t + h) (rkStep kdopri F t h y), e1, e2, e3, e4, e5, e6, ?_, rfl, ?_, ?_⟩
  · unfold SAD.rkStep
    rw [hl, combo_dopri_b]
  all_goals
    unfold krows
    rw [hl]
    simp only [kjaxE, kjaxMid, combo, List.cons_append, List.nil_append, List.zip_cons_cons, List.foldl_cons, List.zip_nil_right, List.foldl_nil,
      zero_add, zero_smul, add_zero]

theorem jaxTolerated_iff (hn : 0 < n) (y y' e : Fin n → ℝ) :
    jaxErrorRatio (toFl e : Vec realFmt) (toFl y) (toFl y') ≤ 1 ↔ JaxTolerated y y' e := by
  have h0 : (0 : ℝ) < n := by exact_mod_cast hn
  rw [jaxErrorRatio_real hn, Fl.one_fin, Fl.fin_le_fin, Real.sqrt_le_one, div_le_one h0]
  unfold JaxTolerated ksq
  refine iff_of_eq (congrArg (· ≤ (n : ℝ)) (Finset.sum_congr rfl fun i _ => ?_))
  rw [← pow_two]
  unfold kjaxScale
  rw [mul_add, mul_one]

theorem kcoeff_quartic (F : ℝ → (Fin n → ℝ) → (Fin n → ℝ)) (t h : ℝ) (y : Fin n → ℝ) (x : ℝ) :
    QuarticAt y (y + h • combo kjaxMid (krows F t h y)) (rkStep kdopri F t h y) (h • F t y) (h • F (t + h) (rkStep kdopri F t h y)) x
      fun i => khorner (kcoeff F t h y i) x := by
  refine ⟨fun i => (kcoeff F t h y i)[0]!, fun i => (kcoeff F t h y i)[1]!, fun i => (kcoeff F t h y i)[2]!, ?_, ?_, ?_, ?_⟩ <;> intro i
  all_goals
    simp only [kcoeff, kfit, khorner, List.foldl_cons, List.foldl_nil, Pi.smul_apply, smul_eq_mul, List.getElem!_cons_zero, List.getElem!_cons_succ]
    ring

/-- The loop variables, on the way to the time `T`: the state has been reached by tolerated steps, and the coefficients are those of the last one. -/
def JaxAt (F : ℝ → (Fin n → ℝ) → (Fin n → ℝ)) (S : (Fin n → ℝ) → Prop) (y0 : Fin n → ℝ) (T : ℝ) (s : JaxState realFmt) (t : ℝ) : Prop :=
  ∃ y dt, s.y = toFl y ∧ s.f = toFl (F t y) ∧ s.t = .fin t ∧ s.dt = .fin dt ∧ 0 < dt ∧ S y ∧
    ((t = 0 ∧ y = y0) ∨ ∃ hs l h p, JaxSteps F 0 y0 hs p ∧ l = 0 + hs.sum ∧ l < T ∧ t = l + h ∧ 0 < h ∧ y = rkStep kdopri F l h p ∧
      JaxTolerated p y (h • combo kjaxE (krows F l h p)) ∧ s.lastT = .fin l ∧ s.coeff = List.ofFn fun i => (kcoeff F l h p i).map .fin)

theorem JaxSteps.snoc {F : ℝ → (Fin n → ℝ) → (Fin n → ℝ)} {t : ℝ} {y p q e m : Fin n → ℝ} {hs : List ℝ} {h : ℝ} (h1 : JaxSteps F t y hs p) (h0 : 0 < h) :
    JaxStep F (t + hs.sum) h p q e m → JaxTolerated p q e → JaxSteps F t y (hs ++ [h]) q := by
  induction h1 with
  | nil t y => intro h2 h3; exact .cons h0 (by simpa using h2) h3 (.nil _ _)
  | cons g0 g1 g2 g3 ih => intro h2 h3; exact .cons g0 g1 g2 (ih (by simpa [add_assoc] using h2) h3)

theorem jaxBody_at (hn : 0 < n) (hf : LiftsOn S f F) (hst : Stable F S D) {y0 : Fin n → ℝ} {T t : ℝ} (ht : t < T) {s s' : JaxState realFmt}
    (h : JaxAt F S y0 T s t) (e : jaxBody f s = .ok s') : ∃ t', JaxAt F S y0 T s' t' := by
  obtain ⟨y, dt, e1, e2, e3, e4, hdt, hy, hh⟩ := h
  obtain ⟨g1, hS⟩ := jaxStep_lift hf hst t dt hy
  unfold jaxBody at e
  rw [e1, e2, e3, e4, g1] at e
  simp only [bind, Except.bind, pure, Except.pure] at e
  have htol := jaxTolerated_iff hn y (rkStep kdopri F t dt y) (dt • combo kjaxE (krows F t dt y))
  obtain ⟨dt', hdt', e5⟩ := jaxNextStep_pos hdt (Real.sqrt_nonneg (ksq (fun i => (dt • combo kjaxE (krows F t dt y)) i /
    kjaxScale y (rkStep kdopri F t dt y) i) / n))
  rw [← jaxErrorRatio_real hn] at e5
  split at e
  · rename_i hle
    cases e
    refine ⟨t + dt, _, dt', rfl, rfl, Fl.fin_add_fin _ _, e5, hdt', hS, .inr ?_⟩
    rcases hh with ⟨rfl, rfl⟩ | ⟨hs, l, h, p, p1, p2, p3, p4, p5, p6, p7, p8, p9⟩
    · exact ⟨[], 0, dt, y, .nil _ _, by simp, ht, rfl, hdt, rfl, htol.1 hle, rfl, jaxInterp_lift _ _ _⟩
    · subst p6 p2
      refine ⟨hs ++ [h], t, dt, _, JaxSteps.snoc p1 p5 (jaxStep_spec F _ h p) p7, by rw [p4]; simp, ht, rfl, hdt, rfl, htol.1 hle, rfl, jaxInterp_lift _ _ _⟩
  · cases e
    exact ⟨t, y, dt', rfl, rfl, rfl, e5, hdt', hy, hh⟩

theorem jaxWhile_at (hn : 0 < n) (hf : LiftsOn S f F) (hst : Stable F S D) {y0 : Fin n → ℝ} {T τ : ℝ} (hτ : τ ≤ T) : ∀ {fuel : ℕ} {s s' : JaxState realFmt} {t : ℝ},
    JaxAt F S y0 T s t → jaxWhile f (.fin τ) fuel s = .ok s' → ∃ t', τ ≤ t' ∧ JaxAt F S y0 T s' t'
  | 0, s, s', t, h, e => by
    obtain ⟨y, dt, e1, e2, e3, e4, hdt, hr⟩ := h
    simp only [jaxWhile, e3, e4, Fl.zero_fin, Fl.fin_lt_fin, hdt, and_true] at e
    split at e
    · cases e
    · rename_i h1
      cases e
      exact ⟨t, not_lt.1 h1, y, dt, e1, e2, e3, e4, hdt, hr⟩
  | fuel + 1, s, s', t, h, e => by
    have h' := h
    obtain ⟨y, dt, e1, e2, e3, e4, hdt, hr⟩ := h
    simp only [jaxWhile, e3, e4, Fl.zero_fin, Fl.fin_lt_fin, hdt, and_true] at e
    split at e
    · rename_i h1
      obtain ⟨s1, g1, g2⟩ := Except.bind_ok.1 e
      obtain ⟨t', h2⟩ := jaxBody_at hn hf hst (lt_of_lt_of_le h1 hτ) h' g1
      exact jaxWhile_at hn hf hst hτ h2 g2
    · rename_i h1
      cases e
      exact ⟨t, not_lt.1 h1, h'⟩

theorem jaxScan_at (hn : 0 < n) (hf : LiftsOn S f F) (hst : Stable F S D) {y0 : Fin n → ℝ} {T : ℝ} {fuel : ℕ} : ∀ {ts : List ℝ} {s : JaxState realFmt} {t : ℝ}
    {rows : List (Vec realFmt)}, (∀ τ ∈ ts, τ ≤ T) → JaxAt F S y0 T s t → jaxScan f fuel ((ts ++ [T]).map .fin) s = .ok rows →
    ∃ s' t', T ≤ t' ∧ JaxAt F S y0 T s' t' ∧ rows.getLast? = some (jaxOutput s' (.fin T))
  | [], s, t, rows, _, h, e => by
    simp only [List.nil_append, List.map_cons, List.map_nil, jaxScan] at e
    obtain ⟨s1, g1, e⟩ := Except.bind_ok.1 e
    obtain ⟨t', h1, h2⟩ := jaxWhile_at hn hf hst le_rfl h g1
    cases e
    exact ⟨s1, t', h1, h2, rfl⟩
  | τ :: ts, s, t, rows, ht, h, e => by
    simp only [List.cons_append, List.map_cons, jaxScan] at e
    obtain ⟨s1, g1, e⟩ := Except.bind_ok.1 e
    obtain ⟨rest, g2, e⟩ := Except.bind_ok.1 e
    obtain ⟨t', h1, h2⟩ := jaxWhile_at hn hf hst (ht τ (by simp)) h g1
    obtain ⟨s', t'', h3, h4, h5⟩ := jaxScan_at hn hf hst (fun u hu => ht u (by simp [hu])) h2 g2
    cases e
    refine ⟨s', t'', h3, h4, ?_⟩
    rw [List.getLast?_cons, h5]
    rfl

theorem jaxTimes_real (T : ℝ) : (jaxTimes (.fin T) : Vec realFmt) = ((List.range 9).map (fun i => T * (((i + 1 : ℕ) : ℝ) / 10)) ++ [T]).map .fin := by
  unfold jaxTimes
  rw [List.map_append, List.map_map]
  congr 1
  apply List.map_congr_left
  intro i _
  rw [show (10 : Fl realFmt) = .fin 10 from Fl.ofNat_fin 10, Fl.fin_div_fin _ _ (by norm_num), Fl.fin_mul_fin]
  rfl

/-- the last row of an answer -/
theorem jaxOdeint_answer (hn : 0 < n) (hf : LiftsOn S f F) (hst : Stable F S D) {fuel : ℕ} {y : Fin n → ℝ} (hy : S y) {T : ℝ} (hT : 0 < T)
    {rows : List (Vec realFmt)} (h : jaxOdeint fuel f (toFl y) (.fin T) = .ok rows) :
    ∃ z, rows.getLast? = some (toFl z) ∧ JaxAnswer F 0 y T z := by
  unfold jaxOdeint at h
  rw [Fl.zero_fin, hf _ _ hy] at h
  simp only [bind, Except.bind, toFl_length, fitRow_toFl] at h
  obtain ⟨η, hη, e1⟩ := jaxInitialStep_pos hf hst hy
  rw [e1, jaxTimes_real] at h
  have hc := clip_fin (R := realFmt) (some 0) none η
  simp only [loFl, hiFl] at hc
  simp only [hc, kclip, Option.elim, max_eq_left hη.le] at h
  generalize hsc : jaxScan f fuel _ _ = r at h
  cases r with
  | error => cases h
  | ok rs =>
    cases h
    obtain ⟨s', t', h1, ⟨y', dt, -, -, e3, -, -, -, hh⟩, h3⟩ := jaxScan_at hn hf hst (y0 := y) (T := T) (t := 0) (by
      intro τ hτ
      obtain ⟨i, hi, rfl⟩ := List.mem_map.1 hτ
      have hi := List.mem_range.1 hi
      have : ((i + 1 : ℕ) : ℝ) ≤ 10 := by exact_mod_cast (by omega : i + 1 ≤ 10)
      have h10 : ((i + 1 : ℕ) : ℝ) / 10 ≤ 1 := by rw [div_le_one (by norm_num)]; exact this
      exact mul_le_of_le_one_right hT.le h10) ⟨y, η, rfl, rfl, rfl, rfl, hη, hy, .inl ⟨rfl, rfl⟩⟩ hsc
    rcases hh with ⟨rfl, -⟩ | ⟨hs, l, h, p, p1, p2, p3, p4, p5, p6, p7, p8, p9⟩
    · exact absurd hT (not_lt.2 h1)
    · refine ⟨fun i => khorner (kcoeff F l h p i) ((T - l) / h), ?_, hs, l, h, p, _, _, _, p1, p2, p3, p4 ▸ h1, jaxStep_spec F l h p, p6 ▸ p7,
        kcoeff_quartic F l h p _⟩
      rw [List.getLast?_cons, h3]
      simp only [Option.getD_some, Option.some.injEq]
      unfold jaxOutput
      rw [p8, e3, p9, List.map_ofFn, p4, Fl.fin_sub_fin, Fl.fin_sub_fin, add_sub_cancel_left, Fl.fin_div_fin _ _ p5.ne']
      unfold toFl
      congr 1
      funext i
      exact jaxPolyval_lift _ _

end real

end SAD
