import Verif.Model.AeroUtil
import Verif.Lemmas.Flight
import Verif.Lemmas.Base
import Verif.Props.Demo
import Mathlib.Algebra.Order.Floor.Semiring

/-! # C69: the fixed-step Euler integrator -/

set_option linter.unusedSectionVars false

namespace SAD.Aero
open SAD Spec

/-- `n` calls of `step`, whatever they raise -/
def Euler.run {K : Type} {R : Fmt K} [Field K] [LinearOrder K] (n : ℕ) (e : Euler R) : Euler R := (fun e => e.step.2)^[n] e

/-! ## Specification -/

section
variable {K : Type} [Field K] [LinearOrder K]

/-- the time after `n` calls: equal steps, the last one shortened or stretched (by up to the tolerance) to end at `tend` -/
def gridTime (t0 tend h tol : K) (n : ℕ) : K :=
  if n = 0 then t0 else if tend ≤ t0 + n * h + tol then tend else t0 + n * h

/-- the state after `n` calls: Euler's method on the grid -/
def eulerPoint (F : K → List K → List K) (t0 tend h tol : K) (y0 : List K) : ℕ → List K
  | 0 => y0
  | n + 1 =>
    let t := gridTime t0 tend h tol n
    let y := eulerPoint F t0 tend h tol y0 n
    List.zipWith (fun a d => a + (gridTime t0 tend h tol (n + 1) - t) * d) y (F t y)

end

/-! ## Every arithmetic -/

section
variable {K : Type} {R : Fmt K} [Field K] [LinearOrder K]

/-- A finished integrator stays as it is. -/
theorem C69_finished_idle (e : Euler R) (h : e.status = .finished) (n : ℕ) : (Euler.run n e) = e ∧ e.step.1 = none := by
  have hs : e.step = (none, e) := by unfold Euler.step; rw [h]
  refine ⟨?_, by rw [hs]⟩
  unfold Euler.run
  exact Function.iterate_fixed (by simp only [hs]) n

/-- When the derivative raises, the exception reaches the caller and time, state and status are as before. -/
theorem C69_raises (e : Euler R) (h : e.status = .running) {err : PyErr} (hf : e.derFunc e.t e.y = .error err) :
    e.step.1 = some err ∧ e.step.2.t = e.t ∧ e.step.2.y = e.y ∧ e.step.2.status = .running := by
  unfold Euler.step
  simp only [h, hf]
  exact ⟨trivial, trivial, trivial, trivial⟩

theorem iadd_same {y v : Vec R} (h : v.length = y.length) : iadd y v = .ok (List.zipWith (· + ·) y v) := by
  unfold iadd; rw [if_pos h]

/-- what a successful step from a running integrator does -/
theorem step_ok (e : Euler R) (h : e.status = .running) {yd : Vec R} (hf : e.derFunc e.t e.y = .ok yd) (hl : yd.length = e.y.length) :
    e.step.1 = none ∧ e.step.2.derFunc = e.derFunc ∧ e.step.2.tstep = e.tstep ∧ e.step.2.tend = e.tend ∧ e.step.2.timeTol = e.timeTol ∧
    e.step.2.t = (if e.tend ≤ e.t + e.tstep + e.timeTol then e.tend else e.t + e.tstep) ∧
    e.step.2.y = List.zipWith (· + ·) e.y (vscale (e.step.2.t - e.t) yd) ∧
    e.step.2.yprev = some e.y ∧ e.step.2.tprev = some e.t ∧
    (e.step.2.status = .finished ↔ Fl.eqb e.step.2.t e.tend = true) := by
  have key : e.step = (none, if Fl.eqb (if e.tend ≤ e.t + e.tstep + e.timeTol then e.tend else e.t + e.tstep) e.tend then
      { e with yprev := some e.y, tprev := some e.t, t := if e.tend ≤ e.t + e.tstep + e.timeTol then e.tend else e.t + e.tstep,
               y := List.zipWith (· + ·) e.y (vscale ((if e.tend ≤ e.t + e.tstep + e.timeTol then e.tend else e.t + e.tstep) - e.t) yd),
               status := .finished }
      else { e with yprev := some e.y, tprev := some e.t, t := if e.tend ≤ e.t + e.tstep + e.timeTol then e.tend else e.t + e.tstep,
                    y := List.zipWith (· + ·) e.y (vscale ((if e.tend ≤ e.t + e.tstep + e.timeTol then e.tend else e.t + e.tstep) - e.t) yd) }) := by
    unfold Euler.step
    simp only [h, hf]
    rw [iadd_same (by simpa [vscale] using hl)]
  rw [key]
  generalize (if e.tend ≤ e.t + e.tstep + e.timeTol then e.tend else e.t + e.tstep) = t'
  by_cases ht : Fl.eqb t' e.tend = true
  · simp only [if_pos ht]
    exact ⟨trivial, trivial, trivial, trivial, trivial, trivial, trivial, trivial, trivial, by simp [ht]⟩
  · simp only [if_neg ht]
    exact ⟨trivial, trivial, trivial, trivial, trivial, trivial, trivial, trivial, trivial, by simp [ht, h]⟩

/-- A successful step of a running integrator ends at `tend` exactly when the status becomes 'finished'. -/
theorem C69_finished_iff (e : Euler R) (h : e.status = .running) {yd : Vec R} (hf : e.derFunc e.t e.y = .ok yd)
    (hl : yd.length = e.y.length) : e.step.2.status = .finished ↔ Fl.eqb e.step.2.t e.step.2.tend = true := by
  obtain ⟨_, _, _, h4, _, _, _, _, _, hs⟩ := step_ok e h hf hl
  rw [hs, h4]

/-- The constructor refuses a step that is not positive and an end that is not after the start. -/
theorem C69_asserts (f : Fl R → Vec R → Py (Vec R)) (t0 tend h tol : Fl R) (y0 : Vec R) :
    (∃ e, Euler.new f t0 y0 tend h tol = .ok e) ↔ 0 < h ∧ t0 < tend := by
  unfold Euler.new
  by_cases h1 : 0 < h
  · by_cases h2 : t0 < tend
    · rw [if_neg (not_not.2 h1), if_neg (not_not.2 h2)]
      exact ⟨fun _ => ⟨h1, h2⟩, fun _ => ⟨_, rfl⟩⟩
    · rw [if_neg (not_not.2 h1), if_pos h2]
      exact ⟨fun ⟨_, e⟩ => (by cases e), fun e => absurd e.2 h2⟩
  · rw [if_pos h1]
    exact ⟨fun ⟨_, e⟩ => (by cases e), fun e => absurd e.1 h1⟩

end

/-! ## Exact arithmetic -/

section
variable {K : Type} {R : Fmt K} [Field K] [LinearOrder K] [IsStrictOrderedRing K] [Exact R]

variable {f : Fl R → Vec R → Py (Vec R)} {F : K → List K → List K} {t0 tend h tol : K} {y0 : List K} {e : Euler R}

theorem eulerPoint_length (hF : ∀ t y, y.length = y0.length → (F t y).length = y0.length) (n : ℕ) :
    (eulerPoint F t0 tend h tol y0 n).length = y0.length := by
  induction n with
  | zero => rfl
  | succ n ih => simp only [eulerPoint, List.length_zipWith, ih, hF _ _ ih, min_self]

theorem zipWith_toVec (y d : List K) (s : K) :
    List.zipWith (· + ·) (toVec y : Vec R) (vscale (.fin s) (toVec d)) = toVec (List.zipWith (fun a d => a + s * d) y d) := by
  induction y generalizing d with
  | nil => rfl
  | cons a y ih =>
    cases d with
    | nil => rfl
    | cons b d =>
      have := ih d
      simp only [toVec, vscale, List.map_cons, List.zipWith_cons_cons, Fl.fin_mul_fin, Fl.fin_add_fin] at this ⊢
      rw [this]

/-- The default step is 0, so an integrator without a given step cannot be constructed; the default tolerance is a billionth. -/
theorem C69_default (f : Fl R → Vec R → Py (Vec R)) (t0 tend h : Fl R) (y0 : Vec R) :
    Euler.new f t0 y0 tend = .error .assertionError ∧ ∀ e, Euler.new f t0 y0 tend h = .ok e → e.timeTol = 1e-9 ∧ e.tstep = h ∧ e.y = y0 ∧ e.t = t0 ∧ e.status = .running := by
  constructor
  · unfold Euler.new
    rw [if_pos]
    show ¬ Fl.ltb (0 : Fl R) 0 = true
    cases (0 : Fl R) <;> simp [Fl.ltb]
  · intro e he
    unfold Euler.new at he
    split_ifs at he
    cases he
    exact ⟨rfl, rfl, rfl, rfl, rfl⟩

/-- After `n` calls: the time is the `n`-th point of the grid, the state that of Euler's method, and the status is 'finished' exactly
when the end has been reached. -/
theorem C69_run (hf : ∀ t y, y.length = y0.length → f (.fin t) (toVec y) = .ok (toVec (F t y)) ∧ (F t y).length = y0.length) (htol : 0 ≤ tol)
    (he : Euler.new f (.fin t0) (toVec y0) (.fin tend) (.fin h) (.fin tol) = .ok e) (n : ℕ) :
    (Euler.run n e).step.1 = none ∧
    (Euler.run n e).t = .fin (gridTime t0 tend h tol n) ∧
    ((Euler.run n e).status = .finished ↔ 0 < n ∧ tend ≤ t0 + n * h + tol) ∧
    ((Euler.run n e).status = .finished ↔ (Euler.run n e).t = .fin tend) ∧
    (∀ m ≤ n, (∀ k < m, (Euler.run k e).status = .running) → (Euler.run m e).y = toVec (eulerPoint F t0 tend h tol y0 m)) := by
  have hpos := (C69_asserts f (.fin t0) (.fin tend) (.fin h) (.fin tol) (toVec y0)).1 ⟨e, he⟩
  have hh : 0 < h := by simpa [Fl.zero_fin] using hpos.1
  have ht : t0 < tend := by simpa using hpos.2
  have mono : ∀ a b : ℕ, a ≤ b → t0 + a * h + tol ≤ t0 + b * h + tol := fun a b hab => by
    have : (a : K) ≤ b := Nat.cast_le.2 hab
    have := mul_le_mul_of_nonneg_right this hh.le
    linarith
  -- the invariant
  have inv : ∀ n, (Euler.run n e).derFunc = f ∧ (Euler.run n e).tstep = .fin h ∧ (Euler.run n e).tend = .fin tend ∧
      (Euler.run n e).timeTol = .fin tol ∧ (Euler.run n e).t = .fin (gridTime t0 tend h tol n) ∧
      ((Euler.run n e).status = .finished ↔ 0 < n ∧ tend ≤ t0 + n * h + tol) ∧
      (∃ y : List K, y.length = y0.length ∧ (Euler.run n e).y = toVec y) ∧
      (∀ m ≤ n, (∀ k < m, (Euler.run k e).status = .running) → (Euler.run m e).y = toVec (eulerPoint F t0 tend h tol y0 m)) := by
    intro n
    induction n with
    | zero =>
      have h0 : e = ⟨f, .fin h, .fin t0, toVec y0, none, none, .fin tend, .running, .fin tol⟩ := by
        unfold Euler.new at he
        rw [if_neg (not_not.2 hpos.1), if_neg (not_not.2 hpos.2)] at he
        cases he
        rfl
      have hr : Euler.run 0 e = e := rfl
      rw [hr, h0]
      refine ⟨rfl, rfl, rfl, rfl, by simp [gridTime], by simp, ⟨y0, rfl, rfl⟩, ?_⟩
      intro m hm _
      obtain rfl := Nat.le_zero.1 hm
      rfl
    | succ n ih =>
      obtain ⟨i1, i2, i3, i4, i5, i6, ⟨y, iy, i7⟩, i8⟩ := ih
      have hstep : Euler.run (n + 1) e = (Euler.run n e).step.2 := by
        unfold Euler.run
        rw [Function.iterate_succ_apply']
      cases hs : (Euler.run n e).status with
      | finished =>
        have hid : Euler.run (n + 1) e = Euler.run n e := by
          rw [hstep]
          unfold Euler.step
          rw [hs]
        obtain ⟨n0, n1⟩ := i6.1 hs
        have n2 : tend ≤ t0 + (n + 1 : ℕ) * h + tol := n1.trans (mono _ _ (Nat.le_succ n))
        rw [hid]
        refine ⟨i1, i2, i3, i4, ?_, ?_, ⟨y, iy, i7⟩, ?_⟩
        · rw [i5]
          unfold gridTime
          rw [if_neg (by omega), if_pos n1, if_neg (by omega), if_pos n2]
        · rw [hs]; simp only [true_iff]; exact ⟨by omega, n2⟩
        · intro m hm hrun
          rcases Nat.lt_or_ge n m with hlt | hge
          · have := hrun n hlt
            rw [hs] at this
            cases this
          · exact i8 m hge hrun
      | running =>
        obtain ⟨fy, fl⟩ := hf (gridTime t0 tend h tol n) y iy
        have hd : (Euler.run n e).derFunc (Euler.run n e).t (Euler.run n e).y = .ok (toVec (F (gridTime t0 tend h tol n) y)) := by
          rw [i1, i5, i7, fy]
        have hl : (toVec (F (gridTime t0 tend h tol n) y) : Vec R).length = (Euler.run n e).y.length := by
          rw [i7]; simp [toVec, fl, iy]
        obtain ⟨-, s2, s3, s4, s5, s6, s7, -, -, s10⟩ := step_ok _ hs hd hl
        have hnot : ¬ (0 < n ∧ tend ≤ t0 + n * h + tol) := fun hc => by
          rw [i6.2 hc] at hs; cases hs
        have hg : gridTime t0 tend h tol n = t0 + n * h := by
          unfold gridTime
          split_ifs with a b
          · rw [a]; simp
          · exact absurd ⟨Nat.pos_of_ne_zero a, b⟩ hnot
          · rfl
        have ecast : t0 + (n : K) * h + h = t0 + ((n + 1 : ℕ) : K) * h := by push_cast; ring
        have hg' : gridTime t0 tend h tol (n + 1) = if tend ≤ t0 + ((n + 1 : ℕ) : K) * h + tol then tend else t0 + ((n + 1 : ℕ) : K) * h := by
          unfold gridTime
          rw [if_neg (Nat.succ_ne_zero n)]
        have tt : (Euler.run (n + 1) e).t = .fin (gridTime t0 tend h tol (n + 1)) := by
          rw [hstep, s6, i3, i5, i2, i4, hg, hg']
          simp only [Fl.fin_add_fin, Fl.fin_le_fin, ecast]
          split_ifs <;> rfl
        have yy : (Euler.run (n + 1) e).y =
            toVec (List.zipWith (fun a d => a + (gridTime t0 tend h tol (n + 1) - gridTime t0 tend h tol n) * d) y (F (gridTime t0 tend h tol n) y)) := by
          rw [← zipWith_toVec, ← Fl.fin_sub_fin, ← tt, ← i5, ← i7, hstep]
          exact s7
        refine ⟨by rw [hstep, s2, i1], by rw [hstep, s3, i2], by rw [hstep, s4, i3], by rw [hstep, s5, i4], tt, ?_, ⟨_, ?_, yy⟩, ?_⟩
        · rw [hstep, s10, ← hstep, tt, i3, hg']
          have hz : (0 < n + 1) := Nat.succ_pos n
          simp only [hz, true_and, Fl.eqb, decide_eq_true_eq]
          split_ifs with hc
          · exact ⟨fun _ => hc, fun _ => rfl⟩
          · constructor
            · intro hEq
              exact absurd (by rw [hEq]; linarith) hc
            · intro hc'
              exact absurd hc' hc
        · simp [iy, fl]
        · intro m hm hrun
          rcases Nat.lt_or_ge n m with hlt | hge
          · obtain rfl : m = n + 1 := by omega
            have prev := i8 n le_rfl (fun k hk => hrun k (by omega))
            have : y = eulerPoint F t0 tend h tol y0 n := by
              rw [i7] at prev
              exact List.map_injective_iff.2 (fun a b hab => by cases hab; rfl) prev
            rw [yy, this]
            rfl
          · exact i8 m hge hrun
  obtain ⟨i1, i2, i3, i4, i5, i6, ⟨y, iy, i7⟩, i8⟩ := inv n
  refine ⟨?_, i5, i6, ?_, i8⟩
  · cases hs : (Euler.run n e).status with
    | finished => unfold Euler.step; rw [hs]
    | running =>
      obtain ⟨fy, fl⟩ := hf (gridTime t0 tend h tol n) y iy
      exact (step_ok _ hs (yd := toVec (F (gridTime t0 tend h tol n) y)) (by rw [i1, i5, i7, fy]) (by rw [i7]; simp [toVec, fl, iy])).1
  · rw [i6, i5]
    unfold gridTime
    constructor
    · rintro ⟨a, b⟩
      rw [if_neg (by omega), if_pos b]
    · intro hEq
      split_ifs at hEq with a b
      · cases hEq; exact absurd ht (lt_irrefl _)
      · exact ⟨Nat.pos_of_ne_zero a, b⟩
      · have : t0 + (n : K) * h = tend := by cases hEq; rfl
        exact ⟨Nat.pos_of_ne_zero a, by linarith⟩

/-- Time advances strictly until the end and never passes it. -/
theorem C69_time (hf : ∀ t y, y.length = y0.length → f (.fin t) (toVec y) = .ok (toVec (F t y)) ∧ (F t y).length = y0.length) (htol : 0 ≤ tol)
    (he : Euler.new f (.fin t0) (toVec y0) (.fin tend) (.fin h) (.fin tol) = .ok e) (n : ℕ) :
    (Euler.run n e).t ≤ .fin tend ∧ ((Euler.run n e).status = .running → (Euler.run n e).t < (Euler.run (n + 1) e).t ∧
      (Euler.run (n + 1) e).t ≤ (Euler.run n e).t + .fin (h + tol)) := by
  have hpos := (C69_asserts f (.fin t0) (.fin tend) (.fin h) (.fin tol) (toVec y0)).1 ⟨e, he⟩
  have hh : 0 < h := by simpa [Fl.zero_fin] using hpos.1
  have ht : t0 < tend := by simpa using hpos.2
  have ecast : t0 + ((n + 1 : ℕ) : K) * h = t0 + (n : K) * h + h := by push_cast; ring
  obtain ⟨-, a1, a2, -, -⟩ := C69_run hf htol he n
  obtain ⟨-, b1, -, -, -⟩ := C69_run hf htol he (n + 1)
  rw [a1, b1]
  refine ⟨?_, fun hr => ?_⟩
  · rw [Fl.fin_le_fin]
    unfold gridTime
    split_ifs with c d
    · exact ht.le
    · exact le_rfl
    · linarith [not_le.1 d]
  · have hnot : ¬ (0 < n ∧ tend ≤ t0 + n * h + tol) := fun hc => by rw [a2.2 hc] at hr; cases hr
    have hg : gridTime t0 tend h tol n = t0 + n * h := by
      unfold gridTime
      split_ifs with a b
      · rw [a]; simp
      · exact absurd ⟨Nat.pos_of_ne_zero a, b⟩ hnot
      · rfl
    have hlt : t0 + n * h < tend := by
      by_cases hn : n = 0
      · rw [hn]; simpa using ht
      · have : ¬ tend ≤ t0 + n * h + tol := fun hc => hnot ⟨Nat.pos_of_ne_zero hn, hc⟩
        linarith [not_le.1 this]
    rw [hg, Fl.fin_add_fin, Fl.fin_lt_fin, Fl.fin_le_fin]
    unfold gridTime
    rw [if_neg (Nat.succ_ne_zero n)]
    split_ifs with c
    · rw [ecast] at c
      exact ⟨hlt, by linarith⟩
    · rw [ecast]
      exact ⟨by linarith, by linarith⟩

/-- The integrator finishes after exactly `max 1 ⌈(tend - tol - tstart) / step⌉` calls, which is at most `⌈(tend - tstart) / step⌉`. -/
theorem C69_calls [FloorSemiring K]
    (hf : ∀ t y, y.length = y0.length → f (.fin t) (toVec y) = .ok (toVec (F t y)) ∧ (F t y).length = y0.length) (htol : 0 ≤ tol)
    (he : Euler.new f (.fin t0) (toVec y0) (.fin tend) (.fin h) (.fin tol) = .ok e) (n : ℕ) :
    ((Euler.run n e).status = .finished ↔ max 1 ⌈(tend - tol - t0) / h⌉₊ ≤ n) ∧
    max 1 ⌈(tend - tol - t0) / h⌉₊ ≤ ⌈(tend - t0) / h⌉₊ := by
  have hpos := (C69_asserts f (.fin t0) (.fin tend) (.fin h) (.fin tol) (toVec y0)).1 ⟨e, he⟩
  have hh : 0 < h := by simpa [Fl.zero_fin] using hpos.1
  have ht : t0 < tend := by simpa using hpos.2
  obtain ⟨-, -, a2, -, -⟩ := C69_run hf htol he n
  constructor
  · rw [a2, max_le_iff, Nat.ceil_le, div_le_iff₀ hh]
    refine and_congr Iff.rfl ⟨fun h => by linarith, fun h => by linarith⟩
  · refine max_le ?_ ?_
    · exact Nat.one_le_ceil_iff.2 (div_pos (by linarith) hh)
    · exact Nat.ceil_mono (div_le_div_of_nonneg_right (by linarith) hh.le)

/-- A constant derivative is integrated exactly: the final state is the initial one plus the elapsed time times the derivative. -/
theorem C69_constant {c : List K} (hc : c.length = y0.length) (hf : ∀ t y, f (.fin t) (toVec y) = .ok (toVec c)) (htol : 0 ≤ tol)
    (he : Euler.new f (.fin t0) (toVec y0) (.fin tend) (.fin h) (.fin tol) = .ok e) (n : ℕ)
    (hrun : ∀ k < n, (Euler.run k e).status = .running) (hfin : (Euler.run n e).status = .finished) :
    (Euler.run n e).y = toVec (List.zipWith (fun a d => a + (tend - t0) * d) y0 c) := by
  have key : ∀ m, eulerPoint (fun _ _ => c) t0 tend h tol y0 m = List.zipWith (fun a d => a + (gridTime t0 tend h tol m - t0) * d) y0 c := by
    intro m
    induction m with
    | zero =>
      simp only [eulerPoint, gridTime, if_true, sub_self, zero_mul, add_zero]
      clear hf he hrun hfin
      induction y0 generalizing c with
      | nil => cases c <;> rfl
      | cons a y ih =>
        cases c with
        | nil => simp at hc
        | cons b c => simpa using ih (by simpa using hc)
    | succ m ih =>
      simp only [eulerPoint]
      rw [ih]
      generalize gridTime t0 tend h tol (m + 1) = s
      generalize gridTime t0 tend h tol m = t
      clear hf he hrun hfin ih
      induction y0 generalizing c with
      | nil => cases c <;> rfl
      | cons a y ih =>
        cases c with
        | nil => simp at hc
        | cons b c =>
          simp only [List.zipWith_cons_cons, List.cons.injEq]
          exact ⟨by ring, ih (by simpa using hc)⟩
  obtain ⟨-, a1, -, a3, a4⟩ := C69_run (F := fun _ _ => c) (fun t y _ => ⟨hf t y, hc⟩) htol he n
  have hg : gridTime t0 tend h tol n = tend := by
    have := a3.1 hfin
    rw [a1] at this
    exact Fl.fin.inj this
  rw [a4 n le_rfl hrun, key, hg]

/-- The dense output taken after a successful step gives the two states at the two ends of that step and is affine between them. -/
theorem C69_dense {e : Euler R} {ta tb : K} {ya yb : List K} (hl : ya.length = yb.length) (hlt : ta < tb) (h1 : e.tprev = some (.fin ta))
    (h2 : e.yprev = some (toVec ya)) (h3 : e.t = .fin tb) (h4 : e.y = toVec yb) :
    ∃ slope, e.denseOutput = .ok slope ∧ ∀ t : K, Euler.denseCall slope e (.fin t) =
      .ok (toVec (List.zipWith (fun a b => a + (t - ta) / (tb - ta) * (b - a)) ya yb)) := by
  have hne : tb - ta ≠ 0 := by linarith [sub_pos.2 hlt]
  have hl' : (toVec yb : Vec R).length = (toVec ya : Vec R).length := by simp [toVec, hl]
  unfold Euler.denseOutput Euler.denseCall
  rw [h1, h2, h3, h4]
  simp only [vsub, bcast2_same hl', bind, Except.bind, Fl.fin_sub_fin]
  refine ⟨_, rfl, fun t => ?_⟩
  unfold vadd
  rw [bcast2_same (by simp [toVec, hl]), Except.ok.injEq]
  clear hl' h1 h2 h3 h4
  induction ya generalizing yb with
  | nil => cases yb <;> rfl
  | cons a ya ih =>
    cases yb with
    | nil => simp at hl
    | cons b yb =>
      have := ih (by simpa using hl)
      simp only [toVec, List.map_cons, List.zipWith_cons_cons, List.cons.injEq, Fl.fin_sub_fin, Fl.fin_div_fin _ _ hne, Fl.fin_mul_fin,
        Fl.fin_add_fin, Fl.fin.injEq] at this ⊢
      exact ⟨by field_simp, this⟩

end

/-! ## Double precision, and witnesses -/

section

/-- In double precision the time can stop advancing: starting at 2^53 with step 1 the integrator never finishes, whatever the number of
calls. -/
theorem C69_stuck : ∃ e : Euler b64, Euler.new (fun _ _ => .ok [0]) (.fin (2 ^ 53)) [.fin 0] (.fin (2 ^ 53 + 2)) (.fin 1) = .ok e ∧
    ∀ n, (Euler.run n e).status = .running ∧ (Euler.run n e).t = .fin (2 ^ 53) := by
  have a1 : (.fin (2 ^ 53) + .fin 1 : Fl b64) = .fin (2 ^ 53) := by decide +kernel
  have a2 : ¬ ((.fin (2 ^ 53 + 2) : Fl b64) ≤ .fin (2 ^ 53) + 1e-9) := by decide +kernel
  have a3 : List.zipWith (· + ·) ([.fin 0] : Vec b64) (vscale (.fin (2 ^ 53) - .fin (2 ^ 53)) [0]) = [.fin 0] := by decide +kernel
  have a4 : Fl.eqb (.fin (2 ^ 53) : Fl b64) (.fin (2 ^ 53 + 2)) = false := by decide +kernel
  have a5 : (0 : Fl b64) < .fin 1 ∧ (.fin (2 ^ 53) : Fl b64) < .fin (2 ^ 53 + 2) := by decide +kernel
  refine ⟨⟨fun _ _ => .ok [0], .fin 1, .fin (2 ^ 53), [.fin 0], none, none, .fin (2 ^ 53 + 2), .running, 1e-9⟩, ?_, fun n => ?_⟩
  · unfold Euler.new
    rw [if_neg (not_not.2 a5.1), if_neg (not_not.2 a5.2)]
  · generalize h0 : (⟨fun _ _ => .ok [0], .fin 1, .fin (2 ^ 53), [.fin 0], none, none, .fin (2 ^ 53 + 2), .running, 1e-9⟩ : Euler b64) = e
    have inv : (Euler.run n e).derFunc = (fun _ _ => .ok [0]) ∧ (Euler.run n e).tstep = .fin 1 ∧ (Euler.run n e).tend = .fin (2 ^ 53 + 2) ∧
        (Euler.run n e).timeTol = 1e-9 ∧ (Euler.run n e).t = .fin (2 ^ 53) ∧ (Euler.run n e).y = [.fin 0] ∧ (Euler.run n e).status = .running := by
      induction n with
      | zero => rw [← h0]; exact ⟨rfl, rfl, rfl, rfl, rfl, rfl, rfl⟩
      | succ n ih =>
        obtain ⟨i1, i2, i3, i4, i5, i6, i7⟩ := ih
        have hstep : Euler.run (n + 1) e = (Euler.run n e).step.2 := by unfold Euler.run; rw [Function.iterate_succ_apply']
        obtain ⟨-, s2, s3, s4, s5, s6, s7, -, -, s10⟩ := step_ok _ i7 (yd := [0]) (by rw [i1]) (by rw [i6]; rfl)
        rw [i3, i5, i2, i4, a1, if_neg a2] at s6
        rw [s6, i5, i6, a3] at s7
        rw [s6, i3, a4] at s10
        rw [hstep]
        refine ⟨by rw [s2, i1], by rw [s3, i2], by rw [s4, i3], by rw [s5, i4], s6, s7, ?_⟩
        cases hs : (Euler.run n e).step.2.status with
        | running => rfl
        | finished => exact absurd (s10.1 hs) (by simp)
    exact ⟨inv.2.2.2.2.2.2, inv.2.2.2.2.1⟩

/-- `x' = t` from `x(0) = 0` to time 4, in exact rational arithmetic -/
def ramp : Euler ratFmt := ⟨fun t _ => .ok [t], .fin 1, .fin 0, [.fin 0], none, none, .fin 4, .running, 1e-9⟩

/-- The function `dense_output` returns reads the integrator when it is called: taken after the first step and called after the third, it
no longer passes through the states of the first step. -/
theorem C69_dense_stale : ∃ slope, (Euler.run 1 ramp).denseOutput = .ok slope ∧
    Euler.denseCall slope (Euler.run 1 ramp) 0 = .ok [.fin 0] ∧ Euler.denseCall slope (Euler.run 3 ramp) 0 = .ok [.fin 1] := by
  have h : Demo.okAnd ((Euler.run 1 ramp).denseOutput) (fun slope =>
      Demo.okAnd (Euler.denseCall slope (Euler.run 1 ramp) 0) (fun v => decide (v = [.fin 0])) &&
      Demo.okAnd (Euler.denseCall slope (Euler.run 3 ramp) 0) (fun v => decide (v = [.fin 1]))) = true := by decide +kernel
  obtain ⟨slope, h1, h2⟩ := Demo.of_okAnd h
  rw [Bool.and_eq_true] at h2
  obtain ⟨v, v1, v2⟩ := Demo.of_okAnd h2.1
  obtain ⟨w, w1, w2⟩ := Demo.of_okAnd h2.2
  exact ⟨slope, h1, by rw [v1, of_decide_eq_true v2], by rw [w1, of_decide_eq_true w2]⟩

/-- the hypotheses of `C69_run` are met: `x' = t` is defined everywhere, and the run has four steps -/
example : Euler.new (fun t (_ : Vec ratFmt) => .ok [t]) (.fin 0) (toVec [0]) (.fin 4) (.fin 1) (.fin 1e-9) = .ok { ramp with timeTol := .fin 1e-9 } ∧
    (∀ (t : ℚ) (y : List ℚ), y.length = [(0 : ℚ)].length → (fun t (_ : Vec ratFmt) => (.ok [t] : Py (Vec ratFmt))) (.fin t) (toVec y) =
      .ok (toVec ((fun t _ => [t]) t y)) ∧ ((fun t (_ : List ℚ) => [t]) t y).length = [(0 : ℚ)].length) ∧
    eulerPoint (fun t _ => [t]) 0 4 1 1e-9 [0] 4 = [(6 : ℚ)] := by
  refine ⟨?_, fun t y _ => ⟨rfl, rfl⟩, by decide +kernel⟩
  have a : (0 : Fl ratFmt) < .fin 1 ∧ (.fin 0 : Fl ratFmt) < .fin 4 := by decide +kernel
  unfold Euler.new
  rw [if_neg (not_not.2 a.1), if_neg (not_not.2 a.2)]
  rfl

end
end SAD.Aero
