import Verif.Props.Invariance
import Verif.Props.Controlled

/-! # C79: NaN and out-of-range inputs of the F-16 model -/

set_option linter.unusedSectionVars false

namespace SAD.Aero
open SAD Spec

section
variable {K : Type} {R : Fmt K} [Field K] [LinearOrder K] [FloorRing K]

theorem pyMin_self (a : Fl R) : Fl.pyMin a a = a := by unfold Fl.pyMin; split_ifs <;> rfl

theorem clampDeg_nan (lo hi : Fl R) : clampDeg lo hi .nan = clampDeg lo hi (hi * Fl.pi / 180) := by
  unfold clampDeg
  rw [pyMin_self]
  unfold Fl.pyMin
  rw [if_neg (Fl.nan_lt _)]

theorem nan_rad : (.nan : Fl R) * Fl.pi / 180 = .nan := rfl

/-- a surface deflection as it is used: NaN counts as the upper limit of the surface -/
def nanTo (hi : Fl R) : Fl R → Fl R
  | .nan => hi
  | x => x

theorem clampDeg_nanTo (lo hi x : Fl R) : clampDeg lo hi (x * Fl.pi / 180) = clampDeg lo hi (nanTo hi x * Fl.pi / 180) := by
  cases x with
  | nan => rw [nan_rad, clampDeg_nan]; rfl
  | _ => rfl

/-- C79: with the polynomial model a NaN surface deflection acts as the surface's full positive deflection, in any arithmetic. -/
theorem C79_nan_surfaces (x : Vec R) (t el ail rdr : Fl R) (adj : Bool) :
    subf16 x [t, el, ail, rdr] "morelli" adj = subf16 x [t, nanTo 25 el, nanTo 21.5 ail, nanTo 30 rdr] "morelli" adj := by
  have hb : ∀ alpha beta p q r vt : Fl R, buildUp "morelli" alpha beta el ail rdr p q r vt =
      buildUp "morelli" alpha beta (nanTo 25 el) (nanTo 21.5 ail) (nanTo 30 rdr) p q r vt := fun alpha beta p q r vt => by
    unfold buildUp
    rw [if_neg (by decide), if_neg (by decide)]
    unfold morellif16
    rw [clampDeg_nanTo (-25) 25 el, clampDeg_nanTo (-21.5) 21.5 ail, clampDeg_nanTo (-30) 30 rdr]
  unfold subf16
  rw [if_pos (Or.inr rfl), if_pos (Or.inr rfl)]
  split
  next e => cases e; simp only [hb]
  next h =>
    split
    next e => cases e; exact absurd rfl (h _ _ _ _ _ _ _ _ _ _ _ _ _ _ _ _ _ rfl)
    next => rfl

theorem fix_nan : fix (.nan : Fl R) = .error .valueError := rfl

theorem cellOf_nan (first last off : ℤ) : cellOf first last off (.nan : Fl R) = .error .valueError := rfl

theorem alphaCell_nan : alphaCell (.nan : Fl R) = .error .valueError := by
  unfold alphaCell
  rw [show (0.2 : Fl R) * .nan = .nan from ?_, cellOf_nan]
  cases (0.2 : Fl R) <;> rfl

theorem elCell_nan : elCell (.nan : Fl R) = .error .valueError := rfl

theorem nan_mul (a : Fl R) : (.nan : Fl R) * a = .nan := by cases a <;> rfl
theorem mul_nan (a : Fl R) : a * (.nan : Fl R) = .nan := by cases a <;> rfl
theorem nan_div (a : Fl R) : (.nan : Fl R) / a = .nan := by cases a <;> rfl

theorem thrust_nan_mach (power alt t : Fl R) (a : Fl R) : thrust power alt (.nan / a) ≠ .ok t := by
  intro h
  unfold thrust at h
  rw [nan_div] at h
  simp only [mul_nan, fix_nan, Except.bind_ok] at h
  obtain ⟨_, _, _, h, -⟩ := h
  cases h

/-- C79: a NaN airspeed, angle of attack or altitude makes both models raise, in any arithmetic; it never yields a result. -/
theorem C79_nan_state (x u : Vec R) (model : String) (adj : Bool) (h : x[0]? = some .nan ∨ x[1]? = some .nan ∨ x[11]? = some .nan)
    (hx : x.length = 13) (hu : u.length = 4) (hm : model = "stevens" ∨ model = "morelli") :
    ∃ e, subf16 x u model adj = .error e := by
  match x, hx, u, hu with
  | [vt, x1, x2, phi, theta, psi, p, q, r, n, ee, alt, power], _, [thtlc, el, ail, rdr], _ =>
  cases hr : subf16 [vt, x1, x2, phi, theta, psi, p, q, r, n, ee, alt, power] [thtlc, el, ail, rdr] model adj with
  | error e => exact ⟨e, rfl⟩
  | ok out =>
    exfalso
    unfold subf16 at hr
    rw [if_pos hm] at hr
    simp only [Except.bind_ok] at hr
    obtain ⟨⟨mach, qbar⟩, ha, th, ht, c, hb, c', hd, -⟩ := hr
    simp only [List.getElem?_cons_zero, List.getElem?_cons_succ, Option.some.injEq] at h
    rcases h with h | h | h
    · subst h
      unfold adc at ha
      simp only [Except.bind_ok] at ha
      obtain ⟨a, -, ha⟩ := ha
      simp only [Except.ok.injEq, Prod.mk.injEq] at ha
      obtain ⟨rfl, -⟩ := ha
      exact thrust_nan_mach _ _ _ _ ht
    · subst h
      rw [nan_mul] at hd
      unfold addDamping dampp at hd
      simp only [alphaCell_nan, Except.bind_ok] at hd
      obtain ⟨_, ⟨_, h, -⟩, -⟩ := hd
      cases h
    · subst h
      unfold thrust at ht
      rw [if_neg (Fl.nan_lt _)] at ht
      simp only [mul_nan, fix_nan, Except.bind_ok] at ht
      obtain ⟨_, h, -⟩ := ht
      cases h

/-- C79: a NaN sideslip or elevator deflection makes the tabulated model raise, in any arithmetic. -/
theorem C79_nan_stevens (x u : Vec R) (adj : Bool) (h : x[2]? = some .nan ∨ u[1]? = some .nan) :
    ∃ e, subf16 x u "stevens" adj = .error e := by
  cases hr : subf16 x u "stevens" adj with
  | error e => exact ⟨e, rfl⟩
  | ok out =>
    exfalso
    unfold subf16 at hr
    rw [if_pos (Or.inl rfl)] at hr
    split at hr
    next vt x1 x2 phi theta psi p q r n ee alt power thtlc el ail rdr =>
      simp only [Except.bind_ok] at hr
      obtain ⟨_, -, _, -, c, hb, -⟩ := hr
      unfold buildUp at hb
      rw [if_pos rfl] at hb
      simp only [Except.bind_ok] at hb
      obtain ⟨_, hcx, _, -, _, hcl, -⟩ := hb
      simp only [List.getElem?_cons_zero, List.getElem?_cons_succ, Option.some.injEq] at h
      rcases h with rfl | rfl
      · unfold cl absBetaCell at hcl
        rw [nan_mul] at hcl
        simp only [Fl.abs, mul_nan, fix_nan, Except.bind_ok] at hcl
        obtain ⟨_, -, _, ⟨_, h, -⟩, -⟩ := hcl
        cases h
      · unfold cx at hcx
        simp only [elCell_nan, Except.bind_ok] at hcx
        obtain ⟨_, -, _, h, -⟩ := hcx
        cases h
    next => cases hr

theorem foldl_nan (l : List (Fl R)) : l.foldl (· + ·) (.nan : Fl R) = .nan := by
  induction l with
  | nil => rfl
  | cons a l ih =>
    rw [List.foldl_cons, show (.nan : Fl R) + a = .nan by cases a <;> rfl, ih]

theorem foldl_nan_mem (l : List (Fl R)) (h : .nan ∈ l) (a : Fl R) : l.foldl (· + ·) a = .nan := by
  induction l generalizing a with
  | nil => cases h
  | cons b l ih =>
    rw [List.foldl_cons]
    rcases List.mem_cons.1 h with h | h
    · rw [← h, show a + (.nan : Fl R) = .nan by cases a <;> rfl, foldl_nan]
    · exact ih h _

theorem saturate_nan (lo hi : Fl R) : saturate .nan lo hi = .nan := by
  unfold saturate Fl.pyMin Fl.pyMax
  rw [if_neg (Fl.lt_nan _), if_neg (Fl.nan_lt _)]

theorem getUDeg_nan (x0 x1 x2 x3 x4 x5 x6 x7 x8 x9 x10 x11 x12 x13 x14 x15 r0 r1 r2 r3 : Fl R) (rest more : Vec R) {l : Llc R}
    (hl : Llc.new = .ok l) (hn : .nan ∈ [x1, x2, x6, x7, x8, x13, x14, x15]) :
    l.getUDeg (r0 :: r1 :: r2 :: r3 :: more)
      (x0 :: x1 :: x2 :: x3 :: x4 :: x5 :: x6 :: x7 :: x8 :: x9 :: x10 :: x11 :: x12 :: x13 :: x14 :: x15 :: rest) =
      .ok ([x1 - 0.0389, x7 - 0.0, x13, x2 - 0.0, x6 - 0.0, x8 - 0.0, x14, x15], [saturate (r3 + 0.1395) 0 1, .nan, .nan, .nan]) := by
  cases hl
  have na : ∀ a : Fl R, (.nan : Fl R) + a = .nan := fun a => by cases a <;> rfl
  have ns : ∀ a : Fl R, (.nan : Fl R) - a = .nan := fun a => by cases a <;> rfl
  have hz : ∀ a1 a2 b1 b2 b3 : Fl R, ∀ k0 k1 k2 k3 k4 k5 k6 k7 : Fl R,
      dot [k0, k1, k2, k3, k4, k5, k6, k7] [x1 - a1, x7 - a2, x13, x2 - b1, x6 - b2, x8 - b3, x14, x15] = .nan :=
    fun a1 a2 b1 b2 b3 k0 k1 k2 k3 k4 k5 k6 k7 => by
      refine foldl_nan_mem _ ?_ _
      simp only [List.mem_cons, List.not_mem_nil, or_false] at hn
      simp only [List.zipWith_cons_cons, List.zipWith_nil_right, List.mem_cons, List.not_mem_nil, or_false]
      rcases hn with h | h | h | h | h | h | h | h <;> simp [← h, mul_nan, ns]
  simp only [Llc.getUDeg, CtrlLimits.new, bind, Except.bind, vsub, vadd, matVec, bcast2, getIdx,
    List.length_cons, List.length_nil, List.take_succ_cons, List.take_zero, List.drop_succ_cons, List.drop_zero, List.zipWith_cons_cons,
    List.zipWith_nil_right, List.map_cons, List.map_nil,
    List.cons_append, List.nil_append, if_true, List.getElem?_cons_succ, List.getElem?_cons_zero, hz, na, saturate_nan]
  rw [if_pos (by omega)]

/-- C79: if any of the eight states the controller feeds back (alpha, beta, the body rates and the three integrals) is NaN, all three
surface commands are NaN: the gains that are zero do not help, zero times NaN is NaN. In any arithmetic. -/
theorem C79_nan_feedback (l : Llc R) (hl : Llc.new = .ok l) (uRef x : Vec R) (hx : 16 ≤ x.length) (hu : 4 ≤ uRef.length)
    (hn : ∃ i ∈ [1, 2, 6, 7, 8, 13, 14, 15], x[i]? = some .nan) :
    ∃ xCtrl t, l.getUDeg uRef x = .ok (xCtrl, [t, .nan, .nan, .nan]) := by
  match x, hx with
  | x0 :: x1 :: x2 :: x3 :: x4 :: x5 :: x6 :: x7 :: x8 :: x9 :: x10 :: x11 :: x12 :: x13 :: x14 :: x15 :: rest, _ =>
  match uRef, hu with
  | r0 :: r1 :: r2 :: r3 :: more, _ =>
  refine ⟨_, _, getUDeg_nan _ _ _ _ _ _ _ _ _ _ _ _ _ _ _ _ _ _ _ _ _ _ hl ?_⟩
  obtain ⟨i, hi, hn⟩ := hn
  simp only [List.mem_cons, List.not_mem_nil, or_false] at hi ⊢
  rcases hi with rfl | rfl | rfl | rfl | rfl | rfl | rfl | rfl <;>
    simp only [List.getElem?_cons_succ, List.getElem?_cons_zero, Option.some.injEq] at hn <;> simp [hn]

/-- C79: whenever a state fed back is NaN and the controlled aircraft with the polynomial model still returns, the rates of the first 13
states are those of full deflection: elevator 25, aileron 21.5 and rudder 30 degrees. In any arithmetic. -/
theorem C79_hard_over (l : Llc R) (hl : Llc.new = .ok l) (uRef x : Vec R) (v2 : Bool)
    (hn : ∃ i ∈ [1, 2, 6, 7, 8, 13, 14, 15], x[i]? = some .nan) (o : ControlledOut R) (h : controlledF16 x uRef l "morelli" v2 = .ok o) :
    ∃ xCtrl t out, l.getUDeg uRef x = .ok (xCtrl, [t, .nan, .nan, .nan]) ∧
      subf16 (x.take 13) [t, 25, 21.5, 30] "morelli" = .ok out ∧ o.xd.take 13 = out.xd := by
  have hlen := (C72_lengths x uRef l "morelli" v2 o h).1
  unfold controlledF16 at h
  by_cases h1 : uRef.length ≠ 4
  · rw [if_pos h1] at h; cases h
  rw [if_neg h1, if_neg (by simp)] at h
  simp only [Except.bind_ok] at h
  obtain ⟨⟨xCtrl, uDeg⟩, hu, out, ho, ⟨ps, nyR⟩, -, d, -, u0, -, u1, -, u2, -, u3, -, hrest⟩ := h
  obtain ⟨xc, t, e⟩ := C79_nan_feedback l hl uRef x hlen (by omega) hn
  rw [e] at hu
  simp only [Except.ok.injEq, Prod.mk.injEq] at hu
  obtain ⟨rfl, rfl⟩ := hu
  dsimp only at ho
  rw [C79_nan_surfaces] at ho
  refine ⟨xc, t, out, e, ho, ?_⟩
  cases hrest
  have h13 := (subf16_length ho).1
  change List.take 13 (out.xd ++ d ++ _) = out.xd
  rw [List.append_assoc, List.take_append_of_le_length (by omega), List.take_of_length_le (by omega)]

end

section
variable {K : Type} {R : Fmt K} [Field K] [LinearOrder K] [IsStrictOrderedRing K] [FloorRing K] [Exact R]

theorem clampDeg_limited (hp : 0 < R.pi) (lo hi x : K) (h : lo ≤ hi) :
    clampDeg (.fin lo : Fl R) (.fin hi) (.fin x * Fl.pi / 180) = clampDeg (.fin lo) (.fin hi) (.fin (limited lo hi x) * Fl.pi / 180) := by
  rw [rad_fin, rad_fin, clampDeg_fin, clampDeg_fin]
  have m : ∀ a b : K, a ≤ b → a * R.pi / 180 ≤ b * R.pi / 180 := fun a b hab =>
    div_le_div_of_nonneg_right (mul_le_mul_of_nonneg_right hab hp.le) (by norm_num)
  unfold limited
  rcases le_total hi x with h1 | h1
  · rw [min_eq_left (m _ _ h1), min_eq_left h1, max_eq_right h, min_self]
  · rw [min_eq_right (m _ _ h1), min_eq_right h1]
    rcases le_total lo x with h2 | h2
    · rw [max_eq_right h2, min_eq_right (m _ _ h1)]
    · rw [max_eq_left h2, max_eq_left (m _ _ h2), min_eq_right (m _ _ h), max_self]

/-- C79: with the polynomial model, deflections beyond 25, 21.5 and 30 degrees act as the limits (exact arithmetic). -/
theorem C79_limits (hp : 0 < R.pi) (x : Vec R) (t : Fl R) (el ail rdr : K) (adj : Bool) :
    subf16 x [t, .fin el, .fin ail, .fin rdr] "morelli" adj =
      subf16 x [t, .fin (limited (-25) 25 el), .fin (limited (-21.5) 21.5 ail), .fin (limited (-30) 30 rdr)] "morelli" adj := by
  have n25 : (25 : Fl R) = .fin 25 := by rw [Fl.ofNat_fin]; norm_num
  have n30 : (30 : Fl R) = .fin 30 := by rw [Fl.ofNat_fin]; norm_num
  have n21 : (21.5 : Fl R) = .fin 21.5 := sci_fin _ _
  have hb : ∀ alpha beta p q r vt : Fl R, buildUp "morelli" alpha beta (.fin el) (.fin ail) (.fin rdr) p q r vt =
      buildUp "morelli" alpha beta (.fin (limited (-25) 25 el)) (.fin (limited (-21.5) 21.5 ail)) (.fin (limited (-30) 30 rdr)) p q r vt :=
    fun alpha beta p q r vt => by
      unfold buildUp
      rw [if_neg (by decide), if_neg (by decide)]
      unfold morellif16
      simp only [n25, n30, n21, Fl.neg_fin]
      rw [clampDeg_limited hp (-25) 25 el (by norm_num), clampDeg_limited hp (-21.5) 21.5 ail (by norm_num),
        clampDeg_limited hp (-30) 30 rdr (by norm_num)]
  unfold subf16
  rw [if_pos (Or.inr rfl), if_pos (Or.inr rfl)]
  split
  next e => cases e; simp only [hb]
  next h =>
    split
    next e => cases e; exact absurd rfl (h _ _ _ _ _ _ _ _ _ _ _ _ _ _ _ _ _ rfl)
    next => rfl

end

example : 0 < realFmt.pi := Real.pi_pos

open Real

/-- C79: a NaN in an integral of the controller is not noticed: from every flyable state the controlled aircraft with the polynomial model
returns finite rates for the first 13 states, with all surfaces fully deflected. -/
theorem C79_silent (s : Flight ℝ) (h : Flyable s) (i1 i2 i3 : Fl realFmt) (hn : .nan ∈ [i1, i2, i3]) (nzRef psRef nyRef throttle : ℝ) (v2 : Bool) :
    ∃ (l : Llc realFmt) (o : ControlledOut realFmt) (t : ℝ) (out : SubOut realFmt) (rates : List ℝ), Llc.new = .ok l ∧
      controlledF16 (toVec s.toList ++ [i1, i2, i3]) (toVec [nzRef, psRef, nyRef, throttle]) l "morelli" v2 = .ok o ∧
      subf16 (toVec s.toList) (toVec [t, 25, 21.5, 30]) "morelli" = .ok out ∧ out.xd = toVec rates ∧ o.xd.take 13 = toVec rates := by
  obtain ⟨l, hl⟩ : ∃ l : Llc realFmt, Llc.new = .ok l := ⟨_, rfl⟩
  obtain ⟨pd, -, e'⟩ := subf16_real .morelli s ⟨limited 0 1 (throttle + 0.1395), 25, 21.5, 30⟩ true h
  generalize kRates .morelli s ⟨limited 0 1 (throttle + 0.1395), 25, 21.5, 30⟩ true pd = k at e'
  have n25 : (25 : Fl realFmt) = .fin 25 := by rw [Fl.ofNat_fin]; norm_num
  have n30 : (30 : Fl realFmt) = .fin 30 := by rw [Fl.ofNat_fin]; norm_num
  have n21 : (21.5 : Fl realFmt) = .fin 21.5 := sci_fin _ _
  have n0 : (0 : Fl realFmt) = .fin 0 := by rw [Fl.ofNat_fin]; norm_num
  have hsat : saturate (.fin throttle + 0.1395 : Fl realFmt) 0 1 = .fin (limited 0 1 (throttle + 0.1395)) := by
    rw [sci_fin, Fl.fin_add_fin, n0, Fl.one_fin, saturate_fin]
  have ex : (toVec s.toList ++ [i1, i2, i3] : Vec realFmt) = .fin s.vt :: .fin s.alpha :: .fin s.beta :: .fin s.phi :: .fin s.theta ::
    .fin s.psi :: .fin s.p :: .fin s.q :: .fin s.r :: .fin s.posN :: .fin s.posE :: .fin s.alt :: .fin s.power :: i1 :: i2 :: i3 :: [] := rfl
  have eu : (toVec [nzRef, psRef, nyRef, throttle] : Vec realFmt) = .fin nzRef :: .fin psRef :: .fin nyRef :: .fin throttle :: [] := rfl
  have e := getUDeg_nan (.fin s.vt) (.fin s.alpha) (.fin s.beta) (.fin s.phi) (.fin s.theta) (.fin s.psi) (.fin s.p) (.fin s.q) (.fin s.r)
    (.fin s.posN) (.fin s.posE) (.fin s.alt) (.fin s.power) i1 i2 i3 (.fin nzRef) (.fin psRef) (.fin nyRef) (.fin throttle) [] [] hl (by
      simp only [List.mem_cons, List.not_mem_nil, or_false] at hn ⊢; tauto)
  rw [← ex, ← eu, hsat] at e
  have e'' : subf16 (toVec s.toList : Vec realFmt) [.fin (limited 0 1 (throttle + 0.1395)), .nan, .nan, .nan] "morelli" = .ok (KOut.toFl k) := by
    rw [C79_nan_surfaces]
    simp only [nanTo, n25, n30, n21]
    exact e'
  have e13 : List.take 13 (toVec s.toList ++ [i1, i2, i3] : Vec realFmt) = toVec s.toList := rfl
  have : ∃ o, controlledF16 (toVec s.toList ++ [i1, i2, i3]) (toVec [nzRef, psRef, nyRef, throttle]) l "morelli" v2 = .ok o := by
    unfold controlledF16
    rw [if_neg (by simp [toVec]), if_neg (by simp)]
    simp only [e, bind, Except.bind, e13, e'']
    cases v2
    · simp [toVec, KOut.toFl, KOut.xd, getIdx, mathCos, mathSin, integratorDerivatives, bind, Except.bind, sci_fin]
    · simp [toVec, KOut.toFl, KOut.xd, getIdx, mathCos, mathSin, integratorDerivatives, bind, Except.bind]
  obtain ⟨o, ho⟩ := this
  obtain ⟨xc, t, out, h0, h1, h2⟩ := C79_hard_over l hl _ _ v2 (by
    simp only [List.mem_cons, List.not_mem_nil, or_false] at hn
    rw [ex]
    rcases hn with rfl | rfl | rfl
    · exact ⟨13, by simp, rfl⟩
    · exact ⟨14, by simp, rfl⟩
    · exact ⟨15, by simp, rfl⟩) o ho
  refine ⟨l, o, limited 0 1 (throttle + 0.1395), KOut.toFl k, k.xd, hl, ho, e', rfl, ?_⟩
  rw [e] at h0
  cases h0
  rw [h2]
  have h3 : subf16 (toVec s.toList : Vec realFmt) [.fin (limited 0 1 (throttle + 0.1395)), 25, 21.5, 30] "morelli" = .ok (KOut.toFl k) := by
    rw [n25, n30, n21]; exact e'
  rw [e13, h3] at h1
  cases h1
  rfl

example : Flyable cruise ∧ (.nan : Fl realFmt) ∈ [.nan, 0, 0] := ⟨cruise_flyable, by simp⟩
example : ∃ i ∈ [1, 2, 6, 7, 8, 13, 14, 15], (toVec cruise.toList ++ [.nan, 0, 0] : Vec realFmt)[i]? = some .nan := ⟨13, by simp, rfl⟩
example : (toVec cruise.toList : Vec realFmt).set 1 .nan = .fin 502 :: .nan :: (toVec cruise.toList).drop 2 := rfl

end SAD.Aero
