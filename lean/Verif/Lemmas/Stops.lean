import Verif.Spec.Stops
import Verif.Lemmas.Timed
import Verif.Lemmas.Wrap
import Verif.Lemmas.Applied

/-! # Runge-Kutta steps of one element with limits -/

set_option linter.unusedSectionVars false

namespace SAD
open Spec

/-! ### one dimension -/

section scalar
variable {g : ℝ → ℝ} {r b : ℝ}

theorem kdopri_free (hg : ∀ w, w < b → g w = r) (hr : 0 ≤ r) {t h x : ℝ} (hh : 0 ≤ h) (hx : x + h * r < b) :
    rkStep kdopri (fun _ => g) t h x = x + h * r := by
  have hhr : 0 ≤ h * r := mul_nonneg hh hr
  have e1 : g x = r := hg _ (by linarith)
  have e2 : g (x + h * (1 / 5 * r)) = r := hg _ (by linarith)
  have e3 : g (x + h * (3 / 40 * r + 9 / 40 * r)) = r := hg _ (by linarith)
  have e4 : g (x + h * (44 / 45 * r + -56 / 15 * r + 32 / 9 * r)) = r := hg _ (by linarith)
  have e5 : g (x + h * (19372 / 6561 * r + -25360 / 2187 * r + 64448 / 6561 * r + -212 / 729 * r)) = r := hg _ (by linarith)
  have e6 : g (x + h * (9017 / 3168 * r + -355 / 33 * r + 46732 / 5247 * r + 49 / 176 * r + -5103 / 18656 * r)) = r := hg _ (by linarith)
  simp only [rkStep, kdopri, rkStages, combo, List.zip_cons_cons, List.foldl_cons, List.zip_nil_left, List.zip_nil_right, List.foldl_nil, zero_add,
    List.cons_append, List.nil_append, smul_eq_mul, e1, e2, e3, e4, e5, e6]
  ring

theorem kdopri_still (hg : ∀ w, b ≤ w → g w = 0) {t h x : ℝ} (hx : b ≤ x) : rkStep kdopri (fun _ => g) t h x = x := by
  simp only [rkStep, kdopri, rkStages, combo, List.zip_cons_cons, List.foldl_cons, List.zip_nil_left, List.zip_nil_right, List.foldl_nil, zero_add,
    List.cons_append, List.nil_append, smul_eq_mul, hg x hx, mul_zero, add_zero]

theorem kdopri_short (hg : ∀ w, 0 ≤ g w ∧ g w ≤ r) {t h x : ℝ} (hh : 0 ≤ h) : x - 1 / 3 * (h * r) ≤ rkStep kdopri (fun _ => g) t h x := by
  simp only [rkStep, kdopri, rkStages, combo, List.zip_cons_cons, List.foldl_cons, List.zip_nil_left, List.zip_nil_right, List.foldl_nil, zero_add,
    List.cons_append, List.nil_append, smul_eq_mul]
  have key : ∀ k1 k2 k3 k4 k5 k6 : ℝ, (0 ≤ k1 ∧ k1 ≤ r) → (0 ≤ k2 ∧ k2 ≤ r) → (0 ≤ k3 ∧ k3 ≤ r) → (0 ≤ k4 ∧ k4 ≤ r) → (0 ≤ k5 ∧ k5 ≤ r) →
      (0 ≤ k6 ∧ k6 ≤ r) → x - 1 / 3 * (h * r) ≤
        x + h * (35 / 384 * k1 + 0 * k2 + 500 / 1113 * k3 + 125 / 192 * k4 + -2187 / 6784 * k5 + 11 / 84 * k6) := by
    intro k1 k2 k3 k4 k5 k6 h1 h2 h3 h4 h5 h6
    have : h * (-(1 / 3) * r) ≤ h * (35 / 384 * k1 + 0 * k2 + 500 / 1113 * k3 + 125 / 192 * k4 + -2187 / 6784 * k5 + 11 / 84 * k6) :=
      mul_le_mul_of_nonneg_left (by linarith) hh
    linarith
  exact key _ _ _ _ _ _ (hg _) (hg _) (hg _) (hg _) (hg _) (hg _)

/-- steps of a quantity that moves at the rate `r ≥ 0` and stops at `b` -/
theorem chain_stops (hlt : ∀ w, w < b → g w = r) (hge : ∀ w, b ≤ w → g w = 0) (hr : 0 ≤ r) {E : ℝ} (hs : List ℝ) :
    ∀ t x e, (∀ h ∈ hs, 0 ≤ h ∧ 4 / 3 * (r * h) ≤ E) → e ≤ b → |min x b - e| ≤ E →
      |min (rkChain kdopri (fun _ => g) t x hs) b - min (e + r * hs.sum) b| ≤ E := by
  induction hs with
  | nil => intro t x e _ he hx; simpa [rkChain, min_eq_left he] using hx
  | cons h hs ih =>
    intro t x e hh he hx
    obtain ⟨h0, hE⟩ := hh h (by simp)
    have hrh : 0 ≤ r * h := mul_nonneg hr h0
    have hsum : 0 ≤ r * hs.sum := mul_nonneg hr (List.sum_nonneg fun z hz => (hh z (by simp [hz])).1)
    have hstep : |min (rkStep kdopri (fun _ => g) t h x) b - min (e + r * h) b| ≤ E := by
      by_cases hb : b ≤ x
      · rw [kdopri_still hge hb]
        rw [min_eq_right hb] at hx ⊢
        rw [abs_le] at hx ⊢
        constructor
        · have := min_le_right (e + r * h) b; linarith [hx.1, abs_nonneg (min x b - e)]
        · rcases min_cases (e + r * h) b with ⟨q, -⟩ | ⟨q, -⟩ <;> rw [q] <;> linarith [hx.2, hx.1]
      · rw [not_le] at hb
        rw [min_eq_left hb.le] at hx
        by_cases hf : x + h * r < b
        · rw [kdopri_free hlt hr h0 hf]
          refine (abs_min_sub_min_le_max _ _ _ _).trans ?_
          rw [sub_self, abs_zero]
          refine max_le ?_ (le_trans (abs_nonneg _) hx)
          have : x + h * r - (e + r * h) = x - e := by ring
          rwa [this]
        · rw [not_lt] at hf
          have hg : ∀ w, 0 ≤ g w ∧ g w ≤ r := by
            intro w
            rcases lt_or_ge w b with q | q
            · rw [hlt w q]; exact ⟨hr, le_rfl⟩
            · rw [hge w q]; exact ⟨le_rfl, hr⟩
          have hlow := kdopri_short (g := g) (r := r) hg (t := t) (x := x) h0
          have hlow' : b - E ≤ min (rkStep kdopri (fun _ => g) t h x) b := le_min (by linarith) (by linarith)
          have hup := min_le_right (rkStep kdopri (fun _ => g) t h x) b
          rw [abs_le] at hx ⊢
          constructor
          · have := min_le_right (e + r * h) b; linarith
          · have : b - E ≤ min (e + r * h) b := le_min (by linarith [hx.2]) (by linarith)
            linarith
    have := ih (t + h) _ _ (fun z hz => hh z (by simp [hz])) (min_le_right (e + r * h) b) hstep
    simp only [rkChain, List.sum_cons]
    have e1 : min (min (e + r * h) b + r * hs.sum) b = min (e + r * (h + hs.sum)) b := by
      rcases le_total (e + r * h) b with q | q
      · rw [min_eq_left q]; congr 1; ring
      · rw [min_eq_right q, min_eq_right (by linarith), min_eq_right (by linarith)]
    rwa [e1] at this

end scalar

/-- the rate `r` as `compute_state_dot` limits it between `lo` and `hi` -/
noncomputable def stopRate (lo hi r x : ℝ) : ℝ := if hi ≤ x then min r 0 else if x ≤ lo then max r 0 else r

theorem stopRate_neg {lo hi : ℝ} (h : lo < hi) (r x : ℝ) : -stopRate lo hi r x = stopRate (-hi) (-lo) (-r) (-x) := by
  unfold stopRate
  simp only [neg_le_neg_iff]
  have m1 : min (-r) 0 = -max r 0 := by rw [← neg_zero, min_neg_neg, neg_zero]
  have m2 : max (-r) 0 = -min r 0 := by rw [← neg_zero, max_neg_neg, neg_zero]
  split_ifs with h1 h2 h2
  · linarith
  · exact m2.symm
  · exact m1.symm
  · rfl

theorem clamp_comm {lo hi : ℝ} (h : lo ≤ hi) (x : ℝ) : min (max x lo) hi = max (min x hi) lo := by
  rw [min_max_distrib_right, min_eq_left h]

theorem clamp_neg {lo hi : ℝ} (h : lo ≤ hi) (x : ℝ) : min (max (-x) (-hi)) (-lo) = -min (max x lo) hi := by
  rw [max_neg_neg, min_neg_neg, clamp_comm h]

theorem rkChain_stop_up {lo hi r : ℝ} (h : lo < hi) (hr : 0 ≤ r) {E T : ℝ} {hs : List ℝ} (h0 : ∀ h ∈ hs, 0 ≤ h) (hsum : hs.sum = T)
    (hE : 4 / 3 * (|r| * T) ≤ E) {x e : ℝ} (he : e ≤ hi) (hx : x ≤ hi) (hxe : |x - e| ≤ E) (t : ℝ) :
    |min (max (rkChain kdopri (fun _ => stopRate lo hi r) t x hs) lo) hi - min (max (e + r * T) lo) hi| ≤ E := by
  rw [clamp_comm h.le, clamp_comm h.le]
  refine (abs_max_sub_max_le_abs _ _ _).trans ?_
  rw [← hsum]
  apply chain_stops (r := r) (b := hi) _ _ hr _ _ _ _ _ he (by rwa [min_eq_left hx])
  · intro w hw
    simp only [stopRate, not_le.2 hw, if_false, max_eq_left hr, ite_self]
  · intro w hw
    simp only [stopRate, hw, if_true, min_eq_right hr]
  · intro z hz
    refine ⟨h0 z hz, le_trans ?_ hE⟩
    have : z ≤ T := by rw [← hsum]; exact List.single_le_sum h0 z hz
    rw [abs_of_nonneg hr]
    have := mul_le_mul_of_nonneg_left this hr
    linarith

/-- a call of RK45: no further from the motion that stops at the limits than before, or than `4/3` of the distance moved -/
theorem rkChain_stop {lo hi r : ℝ} (h : lo < hi) {E T : ℝ} {hs : List ℝ} (h0 : ∀ h ∈ hs, 0 ≤ h) (hsum : hs.sum = T)
    (hE : 4 / 3 * (|r| * T) ≤ E) {x e : ℝ} (he : lo ≤ e ∧ e ≤ hi) (hx : lo ≤ x ∧ x ≤ hi) (hxe : |x - e| ≤ E) (t : ℝ) :
    |min (max (rkChain kdopri (fun _ => stopRate lo hi r) t x hs) lo) hi - min (max (e + r * T) lo) hi| ≤ E := by
  rcases le_total 0 r with hr | hr
  · exact rkChain_stop_up h hr h0 hsum hE he.2 hx.2 hxe t
  · have := rkChain_stop_up (lo := -hi) (hi := -lo) (r := -r) (by linarith) (by linarith) h0 hsum (by rwa [abs_neg]) (E := E) (x := -x) (e := -e)
      (by linarith [he.1]) (by linarith [hx.1]) (by rwa [show -x - -e = -(x - e) by ring, abs_neg]) t
    have e1 := rkChain_map kdopri (-LinearMap.id : ℝ →ₗ[ℝ] ℝ) (fun _ => stopRate lo hi r) (fun _ => stopRate (-hi) (-lo) (-r))
      (fun _ y => by simpa using stopRate_neg h r y) t x hs
    simp only [LinearMap.neg_apply, LinearMap.id_apply] at e1
    rw [← e1, clamp_neg h.le, show -e + -r * T = -(e + r * T) by ring, clamp_neg h.le,
      show ∀ a b : ℝ, -a - -b = -(a - b) from fun a b => by ring, abs_neg] at this
    exact this

/-- a call of Euler: exactly the motion that stops at the limits -/
theorem euler_stop {lo hi r T x : ℝ} (h : lo < hi) (hT : 0 ≤ T) (hx : lo ≤ x ∧ x ≤ hi) :
    min (max (x + T * stopRate lo hi r x) lo) hi = min (max (x + r * T) lo) hi := by
  unfold stopRate
  split_ifs with h1 h2
  · obtain rfl := le_antisymm hx.2 h1
    rcases le_total 0 r with hr | hr
    · have := mul_nonneg hr hT
      rw [min_eq_right hr, mul_zero, add_zero, clamp_comm h.le, clamp_comm h.le, min_self, min_eq_right (by linarith)]
    · rw [min_eq_left hr, mul_comm]
  · obtain rfl := le_antisymm hx.1 h2
    rcases le_total 0 r with hr | hr
    · rw [max_eq_left hr, mul_comm]
    · have := mul_nonpos_of_nonpos_of_nonneg hr hT
      rw [max_eq_right hr, mul_zero, add_zero, max_self, max_eq_right (by linarith)]
  · rw [mul_comm]

/-! ### one element of a vector -/

/-- element `i` of the vector `v` of length `n` is the number `x` -/
def At (n i : Nat) (v : Vec realFmt) (x : ℝ) : Prop := v.length = n ∧ v[i]? = some (.fin x)

theorem At.bget {n i : Nat} {v : Vec realFmt} {x : ℝ} (h : At n i v x) : bget v i = some (.fin x) := bget_of_get h.2

theorem At.zip_add {n i : Nat} {v w : Vec realFmt} {x y : ℝ} (hv : At n i v x) (hw : At n i w y) : At n i (List.zipWith (· + ·) v w) (x + y) :=
  ⟨by simp [hv.1, hw.1], by simp [List.getElem?_zipWith, hv.2, hw.2]⟩

theorem At.mul_right {n i : Nat} {v : Vec realFmt} {x : ℝ} (hv : At n i v x) (h : ℝ) : At n i (v.map (· * .fin h)) (h * x) :=
  ⟨by simp [hv.1], by simp [hv.2, mul_comm]⟩

theorem At.mul_left {n i : Nat} {v : Vec realFmt} {x : ℝ} (hv : At n i v x) (h : ℝ) : At n i (v.map ((.fin h : Fl realFmt) * ·)) (h * x) :=
  ⟨by simp [hv.1], by simp [hv.2]⟩

theorem At.fit {n i : Nat} (hi : i < n) {k k' : Vec realFmt} {x : ℝ} (hk : SAD.bget k i = some (.fin x)) (h : fitRow n k = .ok k') : At n i k' x := by
  unfold fitRow at h
  split at h
  · rename_i hl
    cases h
    exact ⟨hl, by rw [← bget_eq_get (by omega)]; exact hk⟩
  · split at h
    · cases h
      simp only [SAD.bget, Option.some.injEq] at hk
      subst hk
      exact ⟨by simp, by simp [hi]⟩
    · cases h

theorem At.combo {n i : Nat} (hi : i < n) (row : List ℝ) {ks : List (Vec realFmt)} {κs : List ℝ} (h : List.Forall₂ (At n i) ks κs) :
    At n i (comboFl n (row.map .fin) ks) (combo row κs) := by
  unfold comboFl SAD.combo
  have h0 : At n i (List.replicate n 0) 0 := ⟨by simp, by simp [hi]⟩
  generalize (List.replicate n 0 : Vec realFmt) = acc at h0 ⊢
  generalize (0 : ℝ) = a at h0 ⊢
  induction h generalizing row acc a with
  | nil => simpa using h0
  | cons hk _ ih =>
    cases row with
    | nil => simpa using h0
    | cons c row =>
      simp only [List.map_cons, List.zip_cons_cons, List.foldl_cons, smul_eq_mul]
      exact ih row _ _ (h0.zip_add (hk.mul_right c))

section
variable {f : Rhs realFmt} {g : ℝ → ℝ} {n i : Nat} (hi : i < n)
  (hf : ∀ t y k x, At n i y x → f t y = .ok k → (k.length = 1 ∨ k.length = n) → bget k i = some (.fin (g x)))
include hi hf

theorem fitRow_one_or {k k' : Vec realFmt} (h : fitRow n k = .ok k') : k.length = 1 ∨ k.length = n := by
  unfold fitRow at h
  split at h
  · right; assumption
  · split at h
    · left; rfl
    · cases h

theorem rkStagesFl_at {t h : ℝ} {y : Vec realFmt} {x : ℝ} (hy : At n i y x) (st : List (ℝ × List ℝ)) :
    ∀ {ks ks' : List (Vec realFmt)} {κs : List ℝ}, List.Forall₂ (At n i) ks κs →
      rkStagesFl f (.fin t) (.fin h) y (liftStages st) ks = .ok ks' → List.Forall₂ (At n i) ks' (rkStages (fun _ => g) t h x st κs) := by
  induction st with
  | nil => intro ks ks' κs hk h'; cases h'; exact hk
  | cons p st ih =>
    intro ks ks' κs hk h'
    obtain ⟨c, row⟩ := p
    simp only [liftStages, List.map_cons, rkStagesFl, hy.1] at h'
    obtain ⟨k, h1, h'⟩ := Except.bind_ok.1 h'
    obtain ⟨k', h2, h'⟩ := Except.bind_ok.1 h'
    have hz := hy.zip_add ((At.combo hi row hk).mul_right h)
    have := At.fit hi (hf _ _ _ _ hz h1 (fitRow_one_or hi hf h2)) h2
    exact ih (List.rel_append hk (.cons this .nil)) h'

theorem rkStepFl_at (tab : KTab ℝ) {t h : ℝ} {y y' : Vec realFmt} {x : ℝ} (hy : At n i y x)
    (h' : rkStepFl (liftTab tab) f (.fin t) (.fin h) y = .ok y') : At n i y' (rkStep tab (fun _ => g) t h x) := by
  unfold rkStepFl at h'
  simp only [hy.1] at h'
  obtain ⟨k, h1, h'⟩ := Except.bind_ok.1 h'
  obtain ⟨k', h2, h'⟩ := Except.bind_ok.1 h'
  obtain ⟨ks, h3, h'⟩ := Except.bind_ok.1 h'
  cases h'
  have hk := At.fit hi (hf _ _ _ _ hy h1 (fitRow_one_or hi hf h2)) h2
  have hks := rkStagesFl_at hi hf hy tab.stages (.cons hk .nil) h3
  exact hy.zip_add ((At.combo hi tab.b hks).mul_left h)

theorem rkChainFl_at (tab : KTab ℝ) (hs : List ℝ) : ∀ {t : ℝ} {y y' : Vec realFmt} {x : ℝ}, At n i y x →
    rkChainFl (liftTab tab) f (.fin t) y (hs.map .fin) = .ok y' → At n i y' (rkChain tab (fun _ => g) t x hs) := by
  induction hs with
  | nil => intro t y y' x hy h; cases h; exact hy
  | cons h hs ih =>
    intro t y y' x hy h'
    simp only [List.map_cons, rkChainFl] at h'
    obtain ⟨z, h1, h'⟩ := Except.bind_ok.1 h'
    rw [Fl.fin_add_fin] at h'
    exact ih (rkStepFl_at hi hf tab hy h1) h'

end

/-! ### a call -/

theorem clip_id {r : ℝ} {l b : Fl realFmt} (h1 : l ≤ .fin r) (h2 : .fin r ≤ b) : Fl.clip (.fin r) l b = .fin r := by
  obtain ⟨l', rfl, hl⟩ : ∃ l', l = loFl l' ∧ ∀ q, l' = some q → q ≤ r := by
    cases l with
    | fin q => exact ⟨some q, rfl, by rintro _ ⟨⟩; simpa using h1⟩
    | ninf => exact ⟨none, rfl, by rintro _ ⟨⟩⟩
    | pinf => simp at h1
    | nan => simp at h1
  obtain ⟨b', rfl, hb⟩ : ∃ b', b = hiFl b' ∧ ∀ q, b' = some q → r ≤ q := by
    cases b with
    | fin q => exact ⟨some q, rfl, by rintro _ ⟨⟩; simpa using h2⟩
    | pinf => exact ⟨none, rfl, by rintro _ ⟨⟩⟩
    | ninf => simp at h2
    | nan => simp at h2
  rw [clip_fin]
  cases l' with
  | none => cases b' with
    | none => rfl
    | some q => simp [kclip, hb q rfl]
  | some p => cases b' with
    | none => simp [kclip, hl p rfl]
    | some q => simp [kclip, hb q rfl, hl p rfl]

/-- What is assumed of the dynamics for element `i` when the control is `u`: it is limited between `lo` and `hi`, and its derivative is the number
`r` at every state, within the limits of the derivative. -/
structure Stops (d : Dyn realFmt) (n i : Nat) (lo hi : ℝ) (u : Vec realFmt) (r : ℝ) : Prop where
  minAt : d.stateMin.at i = some (.fin lo)
  maxAt : d.stateMax.at i = some (.fin hi)
  rhs : ∀ t s raw, s.length = n → d.rhs t s u = .ok raw → bget raw i = some (.fin r)
  dot : ∀ l b, d.stateDotMin.at i = some l → d.stateDotMax.at i = some b → l ≤ .fin r ∧ .fin r ≤ b

theorem Stops.stateDot {d : Dyn realFmt} {n i : Nat} {lo hi r : ℝ} {u : Vec realFmt} (h : Stops d n i lo hi u r) (hi' : i < n) (t : Fl realFmt)
    (y k : Vec realFmt) (x : ℝ) (hy : At n i y x) (hk : d.computeStateDot t y u = .ok k) (hl : k.length = 1 ∨ k.length = n) :
    bget k i = some (.fin (stopRate lo hi r x)) := by
  obtain ⟨z, hz⟩ := bget_fits hl hi'
  obtain ⟨raw, r', l, b, x', lo', hi'', h1, h2, h3, h4, h5, h6, h7, rfl⟩ := computeStateDot_elem hk hz
  rw [h.rhs t y raw hy.1 h1] at h2
  rw [hy.bget] at h5
  rw [h.minAt] at h6
  rw [h.maxAt] at h7
  cases h2; cases h5; cases h6; cases h7
  rw [hz, clip_id (h.dot l b h3 h4).1 (h.dot l b h3 h4).2]
  have e1 : Fl.clip (.fin r : Fl realFmt) 0 .pinf = .fin (max r 0) := by
    have := clip_fin (R := realFmt) (some 0) none r
    simpa [loFl, hiFl, kclip] using this
  have e2 : Fl.clip (.fin r : Fl realFmt) .ninf 0 = .fin (min r 0) := by
    have := clip_fin (R := realFmt) none (some 0) r
    simpa [loFl, hiFl, kclip] using this
  rw [e1, e2]
  simp only [Fl.fin_le_fin, stopRate]
  split_ifs <;> rfl

/-- the element after `solve_ivp` or Euler, before the limits are applied -/
theorem Stops.raw {env : Env realFmt} (henv : IsRk dopri env) {d : Dyn realFmt} {n i : Nat} {lo hi r T : ℝ} {u : Vec realFmt}
    (h : Stops d n i lo hi u r) (hi' : i < n) (hn : 2 ≤ n) (hlim : lo < hi) (hc : d.custom = none) (hT : 0 ≤ T) {E : ℝ} {y next sd : Vec realFmt}
    {x e : ℝ} (hy : At n i y x) (he : lo ≤ e ∧ e ≤ hi) (hx : lo ≤ x ∧ x ≤ hi) (hxe : |x - e| ≤ E)
    (hm : (d.integrationMethod = "RK45" ∧ 4 / 3 * (|r| * T) ≤ E) ∨ d.integrationMethod = "Euler")
    (hr : (d.rawStep env (.fin T) y u).2 = .ok (next, sd)) :
    ∃ w, At n i next w ∧ |min (max w lo) hi - min (max (e + r * T) lo) hi| ≤ E := by
  rw [rawStep_ode hc] at hr
  rcases hm with ⟨hm, hE⟩ | hm
  · obtain ⟨sol, h1, h2, -⟩ := odeStep_rk45_ok hm hr
    obtain ⟨hs, yf, g1, g2, -, g4, g5⟩ := henv _ T y _ sol (fun ts hts => tEval_last d T ts hts) h1
    rw [h2] at g5
    cases g5
    rw [dopri_lift, Fl.zero_fin] at g4
    exact ⟨_, rkChainFl_at hi' (fun t y k x => h.stateDot hi' t y k x) kdopri hs hy g4, rkChain_stop hlim (g2 hT) g1 hE he hx hxe 0⟩
  · obtain ⟨-, h1, h2⟩ := odeStep_euler_ok hm hr
    have hl := bcast2_len h2
    have hln : next.length = n := by
      rcases hl.1 with q | q
      · rw [hy.1] at q; omega
      · rw [← q, hy.1]
    have hls : sd.length = 1 ∨ sd.length = n := by
      have := hl.2.1
      simpa [vscale, hln] using this
    have hsd := h.stateDot hi' 0 y sd x hy h1 hls
    obtain ⟨z, hz⟩ := bget_fits (ys := next) (n := n) (Or.inr hln) hi'
    obtain ⟨a, b, g1, g2, rfl⟩ := bcast2_bget h2 hz
    rw [hy.bget] at g1
    cases g1
    rw [vscale, bget_map, hsd] at g2
    cases g2
    simp only [Fl.fin_mul_fin, Fl.fin_add_fin] at hz
    refine ⟨_, ⟨hln, by rw [← bget_eq_get (by omega)]; exact hz⟩, ?_⟩
    rw [euler_stop hlim hT hx]
    rw [clamp_comm hlim.le, clamp_comm hlim.le]
    refine (abs_max_sub_max_le_abs _ _ _).trans ((abs_min_sub_min_le_max _ _ _ _).trans ?_)
    rw [sub_self, abs_zero]
    refine max_le ?_ ((abs_nonneg _).trans hxe)
    rwa [add_sub_add_right_eq_sub]

theorem wrapElem_id {x : ℝ} (h1 : -Real.pi ≤ x) (h2 : x < Real.pi) : wrapElem (.fin x : Fl realFmt) (.fin 0) = .fin x := by
  have hp : (0 : ℝ) < realFmt.pi := Real.pi_pos
  rw [wrapElem_exact hp]
  have : ⌊(x + realFmt.pi) / (2 * realFmt.pi)⌋ = 0 := by
    rw [Int.floor_eq_zero_iff]
    exact ⟨div_nonneg (by show 0 ≤ x + Real.pi; linarith) (by linarith), (div_lt_one (by linarith)).2 (by show x + Real.pi < 2 * Real.pi; linarith)⟩
  rw [this]; simp

/-- element `i` is not wrapped, or is wrapped about 0 with its limits less than half a turn away -/
def WrapsOutside (d : Dyn realFmt) (i : Nat) (lo hi : ℝ) : Prop :=
  NotWrapped d i ∨ (WrappedAt d i (.fin 0) ∧ -Real.pi ≤ lo ∧ hi < Real.pi)

theorem Stops.dynStep {env : Env realFmt} (henv : IsRk dopri env) {d d' : Dyn realFmt} {n i : Nat} {lo hi r T : ℝ} {u : Vec realFmt}
    (h : Stops d n i lo hi u r) (hi' : i < n) (hn : 2 ≤ n) (hlim : lo < hi) (hw : WrapsOutside d i lo hi) (hc : d.custom = none) (hT : 0 ≤ T) {E : ℝ}
    {y s sd : Vec realFmt} {x e : ℝ} (hy : At n i y x) (he : lo ≤ e ∧ e ≤ hi) (hx : lo ≤ x ∧ x ≤ hi) (hxe : |x - e| ≤ E)
    (hm : (d.integrationMethod = "RK45" ∧ 4 / 3 * (|r| * T) ≤ E) ∨ d.integrationMethod = "Euler")
    (hr : d.step env (.fin T) y u = (d', .ok (s, sd))) :
    ∃ w, At n i s w ∧ (lo ≤ w ∧ w ≤ hi) ∧ |w - min (max (e + r * T) lo) hi| ≤ E := by
  have hr2 : (d.step env (.fin T) y u).2 = .ok (s, sd) := by rw [hr]
  obtain ⟨next, h1, h2⟩ := dynStep_ok hr2
  obtain ⟨w, hw1, hw2⟩ := h.raw henv hi' hn hlim hc hT hy he hx hxe hm h1
  have hl : s.length = n := by
    unfold Dyn.step at hr2
    simp only at hr2
    obtain ⟨⟨next', sd0⟩, g1, g2⟩ := Except.bind_ok.1 hr2
    obtain ⟨nc, g3, g4⟩ := Except.bind_ok.1 g2
    obtain ⟨nw, g5, g6⟩ := Except.bind_ok.1 g4
    cases g6
    rw [h1] at g1
    cases g1
    have l1 : nc.length = n := by
      unfold npClip at g3
      obtain ⟨b, k1, k2⟩ := Except.bind_ok.1 g3
      have q1 := (bcast2_length k1).1
      have q2 := (bcast2_length k2).1
      have := hw1.1
      simp only at q1
      omega
    unfold Dyn.wrapAngles at g5
    split at g5
    · cases g5; exact l1
    · have := (bcast2_length g5).1
      omega
  obtain ⟨z, hz⟩ := bget_fits (ys := s) (n := n) (Or.inr hl) hi'
  obtain ⟨x', lo', hi'', k1, k2, k3, k4, k5⟩ := h2 i z hz
  rw [hw1.bget] at k1
  rw [h.minAt] at k2
  rw [h.maxAt] at k3
  cases k1; cases k2; cases k3
  have hclip : Fl.clip (.fin w : Fl realFmt) (.fin lo) (.fin hi) = .fin (min (max w lo) hi) := clip_fin (some lo) (some hi) w
  rw [hclip] at k4 k5
  have hin : lo ≤ min (max w lo) hi ∧ min (max w lo) hi ≤ hi := ⟨le_min (le_max_right _ _) hlim.le, min_le_right _ _⟩
  have hzz : z = .fin (min (max w lo) hi) := by
    rcases hw with hw | ⟨hw, b1, b2⟩
    · exact k4 hw
    · rw [k5 _ hw, wrapElem_id (b1.trans hin.1) (hin.2.trans_lt b2)]
  subst hzz
  exact ⟨_, ⟨hl, by rw [← bget_eq_get (by omega)]; exact hz⟩, hin, hw2⟩

theorem Stops.congr {e e' : Entity realFmt} (hc : SameConfig e e') {n i : Nat} {lo hi r : ℝ} {u : Vec realFmt}
    (h : Stops e.dynamics n i lo hi u r) : Stops e'.dynamics n i lo hi u r := by
  have h6 := hc.2.2.2.2.2
  rw [← h6] at h
  exact ⟨h.minAt, h.maxAt, h.rhs, h.dot⟩

theorem applied_back {env : Env realFmt} {e e' : Entity realFmt} (hc : SameConfig e e') {a : Action realFmt} {v : Vec realFmt}
    (h : Applied env e' a v) : Applied env e a v := by
  obtain ⟨ty, u, h1, h2⟩ := applied_iff.1 h
  refine applied_iff.2 ⟨ty, u, ?_, ?_⟩
  · rw [← h1]
    obtain ⟨-, q2, -, -, q5, -⟩ := hc
    cases a <;> simp [Entity.resolve, q2, q5]
  · obtain ⟨-, -, q3, q4, -⟩ := hc
    rw [q3, q4] at h2
    exact h2

/-- a history of calls -/
theorem Stops.run {env : Env realFmt} (henv : IsRk dopri env) {n i : Nat} {lo hi : ℝ} (hi' : i < n) (hn : 2 ≤ n) (hlim : lo < hi)
    {rate : Action realFmt → ℝ} {E : ℝ} (hist : List (ℝ × Action realFmt)) :
    ∀ {e : Entity realFmt} {x z : ℝ}, WrapsOutside e.dynamics i lo hi → e.dynamics.custom = none →
      (∀ h ∈ hist, 0 ≤ h.1 ∧ ((e.dynamics.integrationMethod = "RK45" ∧ 4 / 3 * (|rate h.2| * h.1) ≤ E) ∨ e.dynamics.integrationMethod = "Euler") ∧
        ∀ v, Applied env e h.2 v → Stops e.dynamics n i lo hi v (rate h.2)) →
      At n i e.state x → (lo ≤ z ∧ z ≤ hi) → (lo ≤ x ∧ x ≤ hi) → |x - z| ≤ E →
      ∃ w, At n i (e.run env (stepsOf hist)).state w ∧ (lo ≤ w ∧ w ≤ hi) ∧ |w - stopping env lo hi rate e hist z| ≤ E := by
  induction hist with
  | nil => intro e x z _ _ _ hx hz hx' hxz; exact ⟨x, hx, hx', hxz⟩
  | cons h hist ih =>
    intro e x z hw hcu hh hx hz hx' hxz
    obtain ⟨T, a⟩ := h
    have hc : SameConfig e (e.step env (.fin T) a).entity := step_sameConfig env e _ _
    have hrun : e.run env (stepsOf ((T, a) :: hist)) = (e.step env (.fin T) a).entity.run env (stepsOf hist) := rfl
    have hm := sameConfig_method hc
    have hw' : WrapsOutside (e.step env (.fin T) a).entity.dynamics i lo hi := by
      unfold WrapsOutside NotWrapped WrappedAt at hw ⊢
      rw [(SameConfig.limits hc).2.2]; exact hw
    have hcu' : (e.step env (.fin T) a).entity.dynamics.custom = none := by
      have h6 := hc.2.2.2.2.2
      rw [← h6] at hcu; exact hcu
    have hh' : ∀ h ∈ hist, 0 ≤ h.1 ∧ (((e.step env (.fin T) a).entity.dynamics.integrationMethod = "RK45" ∧ 4 / 3 * (|rate h.2| * h.1) ≤ E) ∨
        (e.step env (.fin T) a).entity.dynamics.integrationMethod = "Euler") ∧
        ∀ v, Applied env (e.step env (.fin T) a).entity h.2 v → Stops (e.step env (.fin T) a).entity.dynamics n i lo hi v (rate h.2) := by
      intro g hg
      obtain ⟨q1, q2, q3⟩ := hh g (by simp [hg])
      refine ⟨q1, by rw [hm.1]; exact q2, fun v hv => (q3 v (applied_back hc hv)).congr hc⟩
    rw [hrun]
    cases ho : (e.step env (.fin T) a).outcome with
    | error err =>
      simp only [stopping, ho]
      exact ih hw' hcu' hh' (by rw [(step_error ho).1]; exact hx) hz hx' hxz
    | ok q =>
      cases q
      simp only [stopping, ho]
      obtain ⟨ty, u, v, d, s, sd, g1, g2, g3, g4⟩ := step_ok ho
      obtain ⟨q1, q2, q3⟩ := hh (T, a) (by simp)
      obtain ⟨w, w1, w2, w3⟩ := (q3 v (applied_of g1 g2)).dynStep henv hi' hn hlim hw hcu q1 hx hz hx' hxz q2 g3
      refine ih hw' hcu' hh' (x := w) (by rw [g4]; exact w1) ⟨le_min (le_max_right _ _) hlim.le, min_le_right _ _⟩ w2 w3

end SAD
