import Verif.Model.F16Typed
import Verif.Props.Controlled
import Verif.Props.Euler
import Verif.Model.Formats

/-!
# C115: F-16 states given as arrays of integers or in single precision
-/

set_option linter.unusedSectionVars false

namespace SAD.Aero
open SAD

section
variable {K : Type} {R : Fmt K} [Field K] [LinearOrder K] [FloorRing K]

theorem stateEquationsTyped_ok {d : DType} {vt x1 x2 phi theta psi p q r qbar t pd pd' : Fl R} {c : Coefs R} {adj : Bool} {out : SubOut R}
    (hpd : d.store pd = .ok pd') (h : stateEquationsTyped d vt x1 x2 phi theta psi p q r qbar t pd' c adj = .ok out) :
    ∃ ref, stateEquations vt x1 x2 phi theta psi p q r qbar t pd c adj = .ok ref ∧ out.xd.length = 13 ∧ ref.xd.length = 13 ∧
      (∀ b ∈ out.xd, ∃ v, d.store v = .ok b) ∧ ∀ i a b, (d = .f32 → i ≠ 7) → i ≠ 2 → ref.xd[i]? = some a → out.xd[i]? = some b → d.store a = .ok b := by
  unfold stateEquationsTyped at h
  obtain ⟨cbta, h1, h⟩ := Except.bind_ok.1 h
  obtain ⟨ca, h2, h⟩ := Except.bind_ok.1 h
  obtain ⟨sb, h3, h⟩ := Except.bind_ok.1 h
  obtain ⟨sa, h4, h⟩ := Except.bind_ok.1 h
  obtain ⟨sth, h5, h⟩ := Except.bind_ok.1 h
  obtain ⟨cth, h6, h⟩ := Except.bind_ok.1 h
  obtain ⟨sph, h7, h⟩ := Except.bind_ok.1 h
  obtain ⟨cph, h8, h⟩ := Except.bind_ok.1 h
  obtain ⟨spsi, h9, h⟩ := Except.bind_ok.1 h
  obtain ⟨cpsi, h10, h⟩ := Except.bind_ok.1 h
  obtain ⟨xd0, d0, h⟩ := Except.bind_ok.1 h
  obtain ⟨xd1, d1, h⟩ := Except.bind_ok.1 h
  obtain ⟨xd2, d2, h⟩ := Except.bind_ok.1 h
  obtain ⟨tth, h11, h⟩ := Except.bind_ok.1 h
  obtain ⟨xd3, d3, h⟩ := Except.bind_ok.1 h
  obtain ⟨xd4, d4, h⟩ := Except.bind_ok.1 h
  obtain ⟨xd5, d5, h⟩ := Except.bind_ok.1 h
  obtain ⟨xd6, d6, h⟩ := Except.bind_ok.1 h
  obtain ⟨xd7, d7, h⟩ := Except.bind_ok.1 h
  obtain ⟨xd8, d8, h⟩ := Except.bind_ok.1 h
  obtain ⟨xd9, d9, h⟩ := Except.bind_ok.1 h
  obtain ⟨xd10, d10, h⟩ := Except.bind_ok.1 h
  obtain ⟨xd11, d11, h⟩ := Except.bind_ok.1 h
  cases h
  refine ⟨_, by
    unfold stateEquations
    rw [h1, h2, h3, h4, h5, h6, h7, h8, h9, h10]
    simp only [bind, Except.bind]
    rw [h11], rfl, rfl, ?_, ?_⟩
  · simp only [List.forall_mem_cons]
    exact ⟨⟨_, d0⟩, ⟨_, d1⟩, ⟨_, d2⟩, ⟨_, d3⟩, ⟨_, d4⟩, ⟨_, d5⟩, ⟨_, d6⟩, ⟨_, d7⟩, ⟨_, d8⟩, ⟨_, d9⟩, ⟨_, d10⟩, ⟨_, d11⟩, ⟨_, hpd⟩, by simp⟩
  have d7' : d ≠ .f32 → d.store ((0.9604 * p - 1.792e-5 * 160) * r + 1.759e-2 * (r * r - p * p) + qbar * 300 * 11.32 * 1.792e-5 * c.cm) = .ok xd7 := by
    intro hd
    cases d <;> first | exact absurd rfl hd | exact d7
  intro i a b hi hi2 ha hb
  match i, hi, hi2, ha, hb with
  | 0, _, _, ha, hb => cases ha; cases hb; exact d0
  | 1, _, _, ha, hb => cases ha; cases hb; exact d1
  | 2, _, hi2, _, _ => exact absurd rfl hi2
  | 3, _, _, ha, hb => cases ha; cases hb; exact d3
  | 4, _, _, ha, hb => cases ha; cases hb; exact d4
  | 5, _, _, ha, hb => cases ha; cases hb; exact d5
  | 6, _, _, ha, hb => cases ha; cases hb; exact d6
  | 7, hi, _, ha, hb => cases ha; cases hb; exact d7' fun e => hi e rfl
  | 8, _, _, ha, hb => cases ha; cases hb; exact d8
  | 9, _, _, ha, hb => cases ha; cases hb; exact d9
  | 10, _, _, ha, hb => cases ha; cases hb; exact d10
  | 11, _, _, ha, hb => cases ha; cases hb; exact d11
  | 12, _, _, ha, hb => cases ha; cases hb; exact hpd
  | n + 13, _, _, ha, _ => cases ha

/-- C115: `subf16_model` of a state with another dtype. If it returns, the same state as a float64 array gives derivatives of which the ones returned are the conversions
to that dtype, except those computed from other derivatives (`beta`) or, in single precision, from products of two elements (`Q`); all are numbers of that
dtype. -/
theorem C115_derivatives (d : DType) (x u : Vec R) (model : String) (adj : Bool) (out : SubOut R) (h : subf16Typed d x u model adj = .ok out) :
    ∃ ref, subf16 x u model adj = .ok ref ∧ out.xd.length = 13 ∧ ref.xd.length = 13 ∧ (∀ b ∈ out.xd, ∃ v, d.store v = .ok b) ∧
      ∀ i a b, (d = .f32 → i ≠ 7) → i ≠ 2 → ref.xd[i]? = some a → out.xd[i]? = some b → d.store a = .ok b := by
  unfold subf16Typed at h
  split at h
  · rename_i hm
    split at h
    · obtain ⟨⟨amach, qbar⟩, h1, h⟩ := Except.bind_ok.1 h
      obtain ⟨pd, h2, h⟩ := Except.bind_ok.1 h
      obtain ⟨t, h3, h⟩ := Except.bind_ok.1 h
      obtain ⟨c, h4, h⟩ := Except.bind_ok.1 h
      obtain ⟨c', h5, h⟩ := Except.bind_ok.1 h
      obtain ⟨ref, hr, i1, i2, i3⟩ := stateEquationsTyped_ok h2 h
      refine ⟨ref, ?_, i1, i2, i3⟩
      unfold subf16
      rw [if_pos hm]
      simp only [h1, h3, h4, h5, bind, Except.bind]
      exact hr
    · cases h
  · cases h

theorem store_int {v b : Fl R} (h : DType.store .i64 v = .ok b) : ∃ (a : K) (n : ℤ), v = .fin a ∧ b = .fin n ∧ n = if 0 ≤ a then ⌊a⌋ else ⌈a⌉ := by
  cases v with
  | fin a =>
    refine ⟨a, _, rfl, ?_, rfl⟩
    have e : (DType.store .i64 (.fin a : Fl R)) = if -(2 ^ 63) ≤ (if 0 ≤ a then ⌊a⌋ else ⌈a⌉ : ℤ) ∧ (if 0 ≤ a then ⌊a⌋ else ⌈a⌉ : ℤ) < 2 ^ 63 then
        .ok (.fin ((if 0 ≤ a then ⌊a⌋ else ⌈a⌉ : ℤ) : K)) else .error .overflowError := rfl
    rw [e] at h
    generalize (if 0 ≤ a then ⌊a⌋ else ⌈a⌉ : ℤ) = n at h ⊢
    split_ifs at h
    cases h
    rfl
  | nan => cases h
  | pinf => cases h
  | ninf => cases h

/-- C115: given an array of integers, all the derivatives are integers: each (but that of `beta`) is the true one without its fraction, zero if that is less
than one. -/
theorem C115_integers [IsStrictOrderedRing K] (x u : Vec R) (model : String) (adj : Bool) (out : SubOut R) (h : subf16Typed .i64 x u model adj = .ok out) :
    (∀ b ∈ out.xd, ∃ n : ℤ, b = .fin n) ∧ ∃ ref, subf16 x u model adj = .ok ref ∧ ∀ i < 13, i ≠ 2 → ∃ (a : K) (n : ℤ), ref.xd[i]? = some (.fin a) ∧
      out.xd[i]? = some (.fin n) ∧ |(n : K)| ≤ |a| ∧ |a| < |(n : K)| + 1 ∧ 0 ≤ n * a ∧ (|a| < 1 → n = 0) := by
  obtain ⟨ref, h1, h2, h3, h4, h5⟩ := C115_derivatives .i64 x u model adj out h
  refine ⟨fun b hb => ?_, ref, h1, fun i hi hi2 => ?_⟩
  · obtain ⟨v, hv⟩ := h4 b hb
    obtain ⟨-, n, -, e, -⟩ := store_int hv
    exact ⟨n, e⟩
  · have ha : ref.xd[i]? = some (ref.xd[i]'(h3 ▸ hi)) := List.getElem?_eq_getElem _
    have hb : out.xd[i]? = some (out.xd[i]'(h2 ▸ hi)) := List.getElem?_eq_getElem _
    obtain ⟨a, n, e1, e2, e3⟩ := store_int (h5 i _ _ (by simp) hi2 ha hb)
    refine ⟨a, n, ha.trans (by rw [e1]), hb.trans (by rw [e2]), ?_⟩
    by_cases h0 : 0 ≤ a
    · rw [if_pos h0] at e3
      have n0 : 0 ≤ n := e3 ▸ Int.floor_nonneg.2 h0
      have n0' : (0 : K) ≤ n := by exact_mod_cast n0
      rw [abs_of_nonneg n0', abs_of_nonneg h0]
      refine ⟨e3 ▸ Int.floor_le a, e3 ▸ Int.lt_floor_add_one a, mul_nonneg n0' h0, fun h1 => ?_⟩
      rw [e3]
      exact Int.floor_eq_zero_iff.2 ⟨h0, h1⟩
    · rw [if_neg h0] at e3
      have h0' := (not_le.1 h0).le
      have n0 : n ≤ 0 := e3 ▸ Int.ceil_le.2 (by simpa using h0')
      have n0' : (n : K) ≤ 0 := by exact_mod_cast n0
      rw [abs_of_nonpos n0', abs_of_nonpos h0']
      have c1 : a ≤ (n : K) := e3 ▸ Int.le_ceil a
      have c2 : (n : K) < a + 1 := e3 ▸ Int.ceil_lt_add_one a
      refine ⟨by linarith, by linarith, mul_nonneg_of_nonpos_of_nonpos n0' h0', fun h1 => ?_⟩
      have : (-1 : K) < n := by linarith
      have : -1 < n := by exact_mod_cast this
      omega

/-- C115: `controlled_f16` accepts no array of integers. -/
theorem C115_controlled (x uRef : Vec R) (llc : Llc R) (model : String) (v2 : Bool) :
    controlledF16Typed .i64 x uRef llc model v2 = .error (if uRef.length = 4 ∧ (model = "stevens" ∨ model = "morelli") then .typeError else .assertionError) := by
  unfold controlledF16Typed
  by_cases h1 : uRef.length = 4
  · by_cases h2 : model = "stevens" ∨ model = "morelli"
    · simp only [h1, h2, ne_eq, not_true_eq_false, if_false, and_self, if_true]
      rfl
    · simp only [h1, h2, ne_eq, not_true_eq_false, if_false, not_false_eq_true, and_false, if_true]
  · simp only [h1, ne_eq, not_false_eq_true, if_true, false_and, if_false]

end

section
variable {K : Type} {R : Fmt K} [Field K] [LinearOrder K]

/-- C115: an `Euler` integrator started from an array of integers: every call of `step` raises, whatever the derivative, with `TypeError` unless `der_func` itself
raised; the state never changes, and the integrator never finishes, but with each call the time goes on. -/
theorem C115_euler (e : Euler R) (h : e.status = .running) (n : ℕ) :
    (Euler.runTyped .i64 n e).y = e.y ∧ (Euler.runTyped .i64 n e).status = .running ∧
    ((Euler.runTyped .i64 n e).stepTyped .i64).1 = some (match e.derFunc (Euler.runTyped .i64 n e).t e.y with
      | .error err => err
      | .ok _ => .typeError) ∧
    (∀ yd, e.derFunc (Euler.runTyped .i64 n e).t e.y = .ok yd → (Euler.runTyped .i64 (n + 1) e).t =
      if e.tend ≤ (Euler.runTyped .i64 n e).t + e.tstep + e.timeTol then e.tend else (Euler.runTyped .i64 n e).t + e.tstep) := by
  have hlast : ∀ (n : ℕ) (e : Euler R), Euler.runTyped .i64 (n + 1) e = ((Euler.runTyped .i64 n e).stepTyped .i64).2 := by
    intro n
    induction n with
    | zero => intro e; rfl
    | succ n ih => intro e; exact ih _
  have hstep : ∀ e : Euler R, e.status = .running → (e.stepTyped .i64).2.y = e.y ∧ (e.stepTyped .i64).2.status = .running ∧ (e.stepTyped .i64).2.derFunc = e.derFunc ∧
      (e.stepTyped .i64).2.tend = e.tend ∧ (e.stepTyped .i64).2.tstep = e.tstep ∧ (e.stepTyped .i64).2.timeTol = e.timeTol ∧
      (e.stepTyped .i64).1 = some (match e.derFunc e.t e.y with
        | .error err => err
        | .ok _ => .typeError) ∧
      ∀ yd, e.derFunc e.t e.y = .ok yd → (e.stepTyped .i64).2.t = if e.tend ≤ e.t + e.tstep + e.timeTol then e.tend else e.t + e.tstep := by
    intro e he
    unfold Euler.stepTyped
    rw [he]
    cases hd : e.derFunc e.t e.y with
    | error err => simp [hd]
    | ok yd => simp [hd, DType.inPlace]
  have inv : ∀ n, (Euler.runTyped .i64 n e).y = e.y ∧ (Euler.runTyped .i64 n e).status = .running ∧ (Euler.runTyped .i64 n e).derFunc = e.derFunc ∧
      (Euler.runTyped .i64 n e).tend = e.tend ∧ (Euler.runTyped .i64 n e).tstep = e.tstep ∧ (Euler.runTyped .i64 n e).timeTol = e.timeTol := by
    intro n
    induction n with
    | zero => exact ⟨rfl, h, rfl, rfl, rfl, rfl⟩
    | succ n ih =>
      obtain ⟨i1, i2, i3, i4, i5, i6⟩ := ih
      obtain ⟨s1, s2, s3, s4, s5, s6, -⟩ := hstep _ i2
      rw [hlast]
      exact ⟨s1.trans i1, s2, s3.trans i3, s4.trans i4, s5.trans i5, s6.trans i6⟩
  obtain ⟨i1, i2, i3, i4, i5, i6⟩ := inv n
  obtain ⟨-, -, -, -, -, -, s7, s8⟩ := hstep _ i2
  rw [i1, i3] at s7 s8
  rw [i4, i5, i6] at s8
  exact ⟨i1, i2, s7, fun yd hy => (hlast n e) ▸ s8 yd hy⟩

end

section
variable {K : Type} {R : Fmt K} [Field K] [LinearOrder K] [FloorRing K] [Exact R]

theorem between_id (d : DType) (v : Fl R) : d.between v = v := by
  cases d <;> simp [DType.between]

theorem inPlace_float {d : DType} (hd : d ≠ .i64) (a b : Vec R) (op : Fl R → Fl R → Fl R) : d.inPlace a b op = DType.inPlace .f64 a b op := by
  cases d with
  | i64 => exact absurd rfl hd
  | f64 => rfl
  | f32 =>
    unfold DType.inPlace
    simp only
    have : (fun v : Vec R => v.map Fl.cast32) = id := by
      funext v
      exact (List.map_congr_left fun a _ => Fl.cast32_exact a).trans (List.map_id v)
    rw [this]
    cases DType.inPlace.broadcast a b op <;> rfl

/-- C115: in exact arithmetic a float32 state is like a float64 one: single precision affects nothing but the accuracy. -/
theorem C115_single (x u uRef : Vec R) (llc : Llc R) (hl : llc.xequil.length ≠ 1) (model : String) (adj v2 : Bool) (e : Euler R) :
    subf16Typed .f32 x u model adj = subf16 x u model adj ∧ controlledF16Typed .f32 x uRef llc model v2 = controlledF16 x uRef llc model v2 ∧
    e.stepTyped .f32 = e.step := by
  have st : ∀ v : Fl R, DType.store .f32 v = .ok v := fun v => by simp [DType.store]
  have h1 : ∀ (x u : Vec R) (adj : Bool), subf16Typed .f32 x u model adj = subf16 x u model adj := by
    intro x u adj
    unfold subf16Typed subf16 stateEquationsTyped stateEquations
    simp only [st, between_id]
    rfl
  have h2 : ∀ x, llc.getUDegTyped .f32 uRef x = llc.getUDeg uRef x := by
    intro x
    unfold Llc.getUDegTyped Llc.getUDeg
    have : DType.inPlace .f32 (x.take llc.xequil.length) llc.xequil (· - ·) =
        if llc.xequil.length ≤ x.length then vsub (x.take llc.xequil.length) llc.xequil else .error .valueError := by
      rw [inPlace_float (by simp)]
      show DType.inPlace.broadcast (x.take llc.xequil.length) llc.xequil (· - ·) = _
      unfold DType.inPlace.broadcast
      by_cases hx : llc.xequil.length ≤ x.length
      · have e : llc.xequil.length = (x.take llc.xequil.length).length := by rw [List.length_take, min_eq_left hx]
        rw [if_pos hx, if_pos e]
        unfold vsub bcast2
        rw [if_pos e.symm]
      · have e : llc.xequil.length ≠ (x.take llc.xequil.length).length := by rw [List.length_take]; omega
        rw [if_neg hx, if_neg e]
        split
        · rename_i c hc
          exact absurd (by rw [hc]; rfl) hl
        · rfl
    simp only [this]
    by_cases hx : llc.xequil.length ≤ x.length
    · simp only [hx, if_true]
      rfl
    · simp only [hx, if_false]
      rfl
  refine ⟨h1 x u adj, ?_, ?_⟩
  · unfold controlledF16Typed controlledF16
    simp only [h1, h2]
  · unfold Euler.stepTyped Euler.step
    have : ∀ a b : Vec R, DType.inPlace .f32 a b (· + ·) = iadd a b := by
      intro a b
      rw [inPlace_float (by simp)]
      rfl
    simp only [this]
    rfl

end

/-- rational arithmetic with a speed of sound and a density -/
def airFmt : Fmt ℚ := { ratFmt with sqrt := fun _ => 1100, pow := fun _ _ => 1 }

/-- level flight at 500 ft/s with the elevator at -10 degrees: -1.95 ft/s² become -1, a pitch acceleration of 1.58 becomes 1, a power rate of 23.47 becomes 23 and the
rate of the angle of attack, 0.058, vanishes -/
example : (match subf16Typed (R := airFmt) .i64 ([500, 0, 0, 0, 0, 0, 0, 0, 0, 0, 0, 1000, 9].map fun n : ℤ => .fin n) [.fin (1 / 2), .fin (-10), .fin 0, .fin 0] "stevens" with
    | .ok out => decide (out.xd = [.fin (-1), .fin 0, .fin 0, .fin 0, .fin 0, .fin 0, .fin 0, .fin 1, .fin 0, .fin 500, .fin 0, .fin 0, .fin 23])
    | .error _ => false) = true := by decide +kernel

example : (match subf16 (R := airFmt) ([500, 0, 0, 0, 0, 0, 0, 0, 0, 0, 0, 1000, 9].map fun n : ℤ => .fin n) [.fin (1 / 2), .fin (-10), .fin 0, .fin 0] "stevens" with
    | .ok out => decide (out.xd = [.fin (-8595542603 / 4400000000), .fin (28811299 / 500000000), .fin 0, .fin 0, .fin 0, .fin 0, .fin 0, .fin (1238424131 / 781250000),
        .fin 0, .fin 500, .fin 0, .fin 0, .fin (2347 / 100)])
    | .error _ => false) = true := by decide +kernel

/-- a valid call of `controlled_f16` with integers raises -/
example (llc : Llc airFmt) : controlledF16Typed .i64 (List.replicate 16 (.fin 1)) (List.replicate 4 (.fin 0)) llc "morelli" false = .error .typeError := by
  rw [C115_controlled]
  simp

/-- an integrator started from integers with a constant derivative: after a hundred calls the state is what it was -/
example : ∃ e : Euler ratFmt, Euler.new (fun _ _ => .ok [.fin (1 / 2)]) (.fin 0) [.fin 3] (.fin 1) (.fin (1 / 10)) = .ok e ∧ (Euler.runTyped .i64 100 e).y = [.fin 3] ∧
    ((Euler.runTyped .i64 100 e).stepTyped .i64).1 = some .typeError := by
  have h : ∃ e : Euler ratFmt, Euler.new (fun _ _ => .ok [.fin (1 / 2)]) (.fin 0) [.fin 3] (.fin 1) (.fin (1 / 10)) = .ok e ∧ e.y = [.fin 3] ∧ e.status = .running ∧
      e.derFunc = fun _ _ => .ok [.fin (1 / 2)] := by
    unfold Euler.new
    rw [if_neg (by decide +kernel), if_neg (by decide +kernel)]
    exact ⟨_, rfl, rfl, rfl, rfl⟩
  obtain ⟨e, h1, h2, h3, h4⟩ := h
  obtain ⟨i1, -, i3, -⟩ := C115_euler e h3 100
  rw [h4] at i3
  exact ⟨e, h1, i1.trans h2, i3⟩

end SAD.Aero
