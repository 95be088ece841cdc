import Verif.Lemmas.Flight
import Verif.Lemmas.Binary
import Verif.Spec.Base
import Verif.Props.Demo

/-! # C65: the low-level controller -/

set_option linter.unusedSectionVars false

namespace SAD.Aero
open SAD Spec

/-! ## Saturation -/

section
variable {K : Type} {R : Fmt K} [Field K] [LinearOrder K]

theorem saturate_spec {lo hi : Fl R} (h : lo ≤ hi) (x : Fl R) :
    Saturated lo hi x (saturate x lo hi) ∧ (saturate x lo hi = .nan ↔ x = .nan) ∧ (x ≠ .nan → Within lo hi (saturate x lo hi)) := by
  have hlo := Fl.ne_nan_of_le_left h
  have hhi := Fl.ne_nan_of_le_right h
  unfold saturate Fl.pyMax Fl.pyMin
  by_cases hx : x = .nan
  · subst hx
    simp [Saturated]
  · have key : ∀ y, Within lo hi y → y ≠ .nan := fun y hy => Fl.ne_nan_of_le_left hy.2
    by_cases h1 : hi < x
    · simp only [if_pos h1, if_neg (Fl.not_lt_of_le' h)]
      refine ⟨⟨fun h2 => absurd (Fl.lt_of_lt_of_le' h2 h) (fun h3 => Fl.lt_irrefl' _ (Fl.lt_of_lt_of_le' h3 (Fl.le_of_lt' h1))), fun _ => rfl,
        fun _ h3 => absurd h1 (Fl.not_lt_of_le' h3)⟩, by simp [hx, hhi], fun _ => ⟨h, Fl.le_refl_of _ hhi⟩⟩
    · simp only [if_neg h1]
      have h1' : x ≤ hi := (Fl.not_lt' hhi hx).1 h1
      by_cases h2 : x < lo
      · simp only [if_pos h2]
        exact ⟨⟨fun _ => rfl, fun h3 => absurd h3 h1, fun h3 => absurd h2 (Fl.not_lt_of_le' h3)⟩, by simp [hx, hlo], fun _ => ⟨Fl.le_refl_of _ hlo, h⟩⟩
      · simp only [if_neg h2]
        exact ⟨⟨fun h3 => absurd h3 h2, fun h3 => absurd h3 h1, fun _ _ => rfl⟩, by simp, fun _ => ⟨(Fl.not_lt' hx hlo).1 h2, h1'⟩⟩

/-- the limits of a controller are intervals -/
structure CtrlLimits.Ordered (l : CtrlLimits R) : Prop where
  throttle : l.throttleMin ≤ l.throttleMax
  elevator : l.elevatorMinDeg ≤ l.elevatorMaxDeg
  aileron : l.aileronMinDeg ≤ l.aileronMaxDeg
  rudder : l.rudderMinDeg ≤ l.rudderMaxDeg

/-- In every arithmetic, for every controller, state and reference: each output is NaN or within its limits. -/
theorem C65_within (l : Llc R) (hl : l.ctrlLimits.Ordered) (uRef x xCtrl uDeg : Vec R) (h : l.getUDeg uRef x = .ok (xCtrl, uDeg)) :
    ∃ t e a d, uDeg = [t, e, a, d] ∧
      (t = .nan ∨ Within l.ctrlLimits.throttleMin l.ctrlLimits.throttleMax t) ∧
      (e = .nan ∨ Within l.ctrlLimits.elevatorMinDeg l.ctrlLimits.elevatorMaxDeg e) ∧
      (a = .nan ∨ Within l.ctrlLimits.aileronMinDeg l.ctrlLimits.aileronMaxDeg a) ∧
      (d = .nan ∨ Within l.ctrlLimits.rudderMinDeg l.ctrlLimits.rudderMaxDeg d) := by
  have key : ∀ {lo hi : Fl R}, lo ≤ hi → ∀ x, saturate x lo hi = .nan ∨ Within lo hi (saturate x lo hi) := fun hh x => by
    obtain ⟨_, h1, h2⟩ := saturate_spec hh x
    by_cases hx : x = .nan
    · exact .inl (h1.2 hx)
    · exact .inr (h2 hx)
  unfold Llc.getUDeg at h
  simp only [bind, Except.bind] at h
  repeat' (split at h <;> try contradiction)
  cases h
  exact ⟨_, _, _, _, rfl, key hl.throttle _, key hl.elevator _, key hl.aileron _, key hl.rudder _⟩

end

section
variable {K : Type} {R : Fmt K} [Field K] [LinearOrder K] [IsStrictOrderedRing K]

theorem neg_le_self_of {a : Fl R} (h : (0 : Fl R) ≤ a) : -a ≤ a := by
  cases a with
  | nan => simp at h
  | ninf => simp [Fl.zero_fin] at h
  | pinf => exact Fl.ninf_le_pinf
  | fin a =>
    rw [show (0 : Fl R) = .fin 0 by rw [Fl.ofNat_fin]; norm_num, Fl.fin_le_fin] at h
    change Fl.fin (-a) ≤ Fl.fin a
    rw [Fl.fin_le_fin]; linarith

theorem nat_nonneg (n : ℕ) : (0 : Fl R) ≤ (OfNat.ofNat n : Fl R) := by
  rw [Fl.ofNat_fin, Fl.ofNat_fin, Fl.fin_le_fin]; exact_mod_cast Nat.zero_le n

/-- The limits of every controller the library constructs are intervals. -/
theorem default_limits (hs : Sound R) : (CtrlLimits.new : CtrlLimits R).Ordered where
  throttle := nat_nonneg 1
  elevator := neg_le_self_of (nat_nonneg 25)
  aileron := neg_le_self_of (by
    have h := hs.mono 0 (((215 : ℕ) : K) / (10 : K) ^ 1) (by positivity)
    rw [hs.rnd_zero] at h
    rw [show (0 : Fl R) = .fin 0 by rw [Fl.ofNat_fin]; norm_num]
    exact h)
  rudder := neg_le_self_of (nat_nonneg 30)

end

/-! ## The feedback law -/

section
variable {K : Type} {R : Fmt K} [Field K] [LinearOrder K] [IsStrictOrderedRing K] [FloorRing K] [Exact R]

/-- `x` limited to `[lo, hi]` -/
def limited (lo hi x : K) : K := max lo (min hi x)

theorem saturate_fin (x lo hi : K) : saturate (.fin x : Fl R) (.fin lo) (.fin hi) = .fin (limited lo hi x) := by
  unfold saturate limited
  rw [pyMin_fin, pyMax_fin, max_comm, min_comm]

/-- the surface commands asked for by the feedback: throttle offset and gains times deviations from trim (alpha 0.0389 rad, elevator
-0.7496 degrees), before limiting -/
def feedback (s : Flight K) (intNz intPs intNy throttle : K) : List K :=
  [throttle + 0.1395,
   -0.7496 + 156.8801506723475 * (s.alpha - 0.0389) + 31.037008068526642 * s.q + 38.72983346216317 * intNz,
   -37.84483 * s.beta + 25.40956 * s.p + 6.82876 * s.r + 332.88343 * intPs + 17.15997 * intNy,
   23.91233 * s.beta - 5.69968 * s.p + 21.63431 * s.r - 64.49490 * intPs + 88.36203 * intNy]

/-- In exact arithmetic the outputs are the feedback law limited to `[0, 1]`, `[-25, 25]`, `[-21.5, 21.5]`, `[-30, 30]`: the elevator sees
only alpha, q and the normal acceleration integral, aileron and rudder only beta, p, r and the other two integrals. -/
theorem C65_law (s : Flight K) (intNz intPs intNy nzRef psRef nyRef throttle : K) (extra more : List K) :
    ∃ l : Llc R, Llc.new = .ok l ∧
      l.getUDeg (toVec ([nzRef, psRef, nyRef, throttle] ++ more)) (toVec (s.toList ++ [intNz, intPs, intNy] ++ extra)) =
        .ok (toVec [s.alpha - 0.0389, s.q, intNz, s.beta, s.p, s.r, intPs, intNy], toVec [limited 0 1 ((feedback s intNz intPs intNy throttle).getD 0 0),
          limited (-25) 25 ((feedback s intNz intPs intNy throttle).getD 1 0),
          limited (-21.5) 21.5 ((feedback s intNz intPs intNy throttle).getD 2 0),
          limited (-30) 30 ((feedback s intNz intPs intNy throttle).getD 3 0)]) := by
  refine ⟨_, rfl, ?_⟩
  have e1 : (toVec (s.toList ++ [intNz, intPs, intNy] ++ extra) : Vec R) = .fin s.vt :: .fin s.alpha :: .fin s.beta :: .fin s.phi ::
    .fin s.theta :: .fin s.psi :: .fin s.p :: .fin s.q :: .fin s.r :: .fin s.posN :: .fin s.posE :: .fin s.alt :: .fin s.power ::
    .fin intNz :: .fin intPs :: .fin intNy :: toVec extra := rfl
  have e2 : (toVec ([nzRef, psRef, nyRef, throttle] ++ more) : Vec R) = .fin nzRef :: .fin psRef :: .fin nyRef :: .fin throttle :: toVec more := rfl
  have e25 : (25 : Fl R) = .fin 25 := by rw [Fl.ofNat_fin]; norm_num
  have e30 : (30 : Fl R) = .fin 30 := by rw [Fl.ofNat_fin]; norm_num
  rw [e1, e2]
  simp only [Llc.getUDeg, CtrlLimits.new, sci_fin, e25, e30, Fl.neg_fin, Fl.zero_fin, Fl.one_fin, bind, Except.bind, vsub, vadd, matVec, dot, bcast2, getIdx,
    List.length_cons, List.length_nil, List.take_succ_cons, List.take_zero, List.drop_succ_cons, List.drop_zero, List.zipWith_cons_cons,
    List.zipWith_nil_right, List.map_cons, List.map_nil, List.foldl_cons, List.foldl_nil, Fl.fin_sub_fin, Fl.fin_mul_fin, Fl.fin_add_fin,
    List.cons_append, List.nil_append, if_true, List.getElem?_cons_succ, List.getElem?_cons_zero]
  norm_num [saturate_fin]
  refine ⟨rfl, ?_⟩
  simp only [toVec, feedback, List.map_cons, List.map_nil, List.getElem?_cons_succ, List.getElem?_cons_zero, Option.getD_some, List.cons.injEq,
    Fl.fin.injEq, and_true]
  refine ⟨?_, ?_, ?_, ?_⟩ <;> (congr 1; norm_num; try ring)

theorem limited_range {lo hi : K} (h : lo ≤ hi) (x : K) : lo ≤ limited lo hi x ∧ limited lo hi x ≤ hi :=
  ⟨le_max_left _ _, max_le h (min_le_left _ _)⟩

theorem limited_of_mem {lo hi x : K} (h1 : lo ≤ x) (h2 : x ≤ hi) : limited lo hi x = x := by
  rw [limited, min_eq_right h2, max_eq_right h1]

/-- At the trim state with the integrators at zero: elevator at its trim value, aileron and rudder at 0, throttle the reference plus
0.1395. -/
theorem C65_trim (nzRef psRef nyRef throttle : K) (h : 0 ≤ throttle ∧ throttle ≤ 1 - 0.1395) :
    ∃ l : Llc R, Llc.new = .ok l ∧
      l.getUDeg (toVec [nzRef, psRef, nyRef, throttle])
        (toVec ([502.0, 0.0389, 0.0, 0.0, 0.0389, 0.0, 0.0, 0.0, 0.0, 0.0, 0.0, 1000.0, 9.0567] ++ [0, 0, 0])) =
        .ok (toVec [0, 0, 0, 0, 0, 0, 0, 0], toVec [throttle + 0.1395, -0.7496, 0, 0]) := by
  obtain ⟨l, hl, e⟩ := C65_law (R := R) (⟨502.0, 0.0389, 0.0, 0.0, 0.0389, 0.0, 0.0, 0.0, 0.0, 0.0, 0.0, 1000.0, 9.0567⟩ : Flight K) 0 0 0
    nzRef psRef nyRef throttle [] []
  refine ⟨l, hl, e.trans ?_⟩
  have hh := h.2
  simp only [feedback, List.getD_cons_zero, List.getD_cons_succ]
  rw [limited_of_mem (by norm_num; linarith [h.1]) (by linarith), limited_of_mem (by norm_num) (by norm_num),
    limited_of_mem (by norm_num) (by norm_num), limited_of_mem (by norm_num) (by norm_num)]
  norm_num

/-- Integrators: the derivative of each is the difference between output and reference. -/
theorem C65_integrators (nzRef psRef nyRef nz ps nyR : K) (more : List K) :
    integratorDerivatives (toVec ([nzRef, psRef, nyRef] ++ more) : Vec R) (.fin nz) (.fin ps) (.fin nyR) =
      .ok (toVec [nz - nzRef, ps - psRef, nyR - nyRef]) := by
  simp [integratorDerivatives, toVec, getIdx, bind, Except.bind]

end

section
variable {K : Type} {R : Fmt K} [Field K] [LinearOrder K]

/-- The only gains are those named `old`; asking for any others raises. -/
theorem C65_gains (name : String) :
    (name = "old" → ∃ l : Llc R, Llc.new name = .ok l) ∧ (name ≠ "old" → (Llc.new name : Py (Llc R)) = .error .assertionError) := by
  unfold Llc.new
  constructor
  · intro h
    rw [if_pos h]
    exact ⟨_, rfl⟩
  · intro h
    rw [if_neg h]

/-- A state without the three integrators, or a reference without throttle, raises. -/
theorem C65_lengths (l : Llc R) (hl : Llc.new = .ok l) (uRef x : Vec R) :
    (x.length < 13 → l.getUDeg uRef x = .error .valueError) ∧
    (13 ≤ x.length → x.length < 16 → l.getUDeg uRef x = .error .indexError) ∧
    (16 ≤ x.length → uRef.length < 4 → l.getUDeg uRef x = .error .indexError) ∧
    (16 ≤ x.length → 4 ≤ uRef.length → ∃ r, l.getUDeg uRef x = .ok r) := by
  cases hl
  have ok : ∀ {α : Type} (xs : List α) (i : ℕ), i < xs.length → ∃ v, getIdx xs i = .ok v := fun xs i h => by
    unfold getIdx; rw [List.getElem?_eq_getElem h]; exact ⟨_, rfl⟩
  have err : ∀ {α : Type} (xs : List α) (i : ℕ), xs.length ≤ i → getIdx xs i = .error .indexError := fun xs i h => by
    unfold getIdx; rw [List.getElem?_eq_none h]
  unfold Llc.getUDeg
  simp only [List.length_cons, List.length_nil, Nat.reduceAdd, bind, Except.bind]
  refine ⟨fun h => ?_, fun h1 h2 => ?_, fun h1 h2 => ?_, fun h1 h2 => ?_⟩
  · rw [if_neg (by omega)]
  all_goals
    rw [if_pos (by omega), vsub, bcast2_same (by simp; omega)]
    simp only
    generalize hd : _ ++ List.drop 13 x = xd
    have hlen : xd.length = x.length := by rw [← hd]; simp; omega
    obtain ⟨v1, g1⟩ := ok xd 1 (by omega)
    obtain ⟨v7, g7⟩ := ok xd 7 (by omega)
    simp only [g1, g7]
  · by_cases a13 : x.length = 13
    · rw [err xd 13 (by omega)]
    obtain ⟨v13, g13⟩ := ok xd 13 (by omega)
    obtain ⟨v2, g2⟩ := ok xd 2 (by omega)
    obtain ⟨v6, g6⟩ := ok xd 6 (by omega)
    obtain ⟨v8, g8⟩ := ok xd 8 (by omega)
    simp only [g13, g2, g6, g8]
    by_cases a14 : x.length = 14
    · rw [err xd 14 (by omega)]
    obtain ⟨v14, g14⟩ := ok xd 14 (by omega)
    simp only [g14]
    rw [err xd 15 (by omega)]
  all_goals
    obtain ⟨v13, g13⟩ := ok xd 13 (by omega)
    obtain ⟨v2, g2⟩ := ok xd 2 (by omega)
    obtain ⟨v6, g6⟩ := ok xd 6 (by omega)
    obtain ⟨v8, g8⟩ := ok xd 8 (by omega)
    obtain ⟨v14, g14⟩ := ok xd 14 (by omega)
    obtain ⟨v15, g15⟩ := ok xd 15 (by omega)
    simp only [g13, g2, g6, g8, g14, g15, matVec, List.length_cons, List.length_nil, Nat.reduceAdd, if_true]
  · rw [err uRef 3 (by omega)]
  · obtain ⟨r3, gr⟩ := ok uRef 3 (by omega)
    simp only [gr, vadd, List.map_cons, List.map_nil]
    rw [bcast2_same (by simp)]
    exact ⟨_, rfl⟩

end

/-! ## Double precision -/

section
variable {libm : Fmt ℚ}

/-- a finite datum of magnitude at most `2 ^ n` -/
def Bnd (n : ℕ) (a : Fl (b64Of libm)) : Prop := ∃ y : ℚ, a = .fin y ∧ |y| ≤ 2 ^ n

theorem nearest_pow (n : ℕ) : nearestBin 53 (-1022) ((2 : ℚ) ^ n) = 2 ^ n := by
  have hl : Int.log 2 |(2 : ℚ) ^ n| = n := by
    rw [abs_of_pos (by positivity)]
    have := Int.log_zpow (R := ℚ) (b := 2) (by norm_num) (n : ℤ)
    rw [zpow_natCast] at this
    exact_mod_cast this
  have hb : binExp (-1022) ((2 : ℚ) ^ n) = n := by unfold binExp; rw [hl]; omega
  refine nearestBin_of_mul 53 (-1022) (n := 2 ^ 52) ?_
  unfold ulpOf
  rw [hb]
  push_cast
  rw [← zpow_natCast, show (4503599627370496 : ℚ) = 2 ^ (52 : ℤ) by norm_num, ← zpow_add₀ (by norm_num)]
  congr 1
  omega

theorem round_bnd {x : ℚ} {n : ℕ} (hn : n ≤ 1023) (h : |x| ≤ 2 ^ n) : Bnd n (Fl.round x : Fl (b64Of libm)) := by
  have h1 : nearestBin 53 (-1022) x ≤ 2 ^ n := (nearest_pow n) ▸ nearestBin_mono 53 (-1022) (by norm_num) (le_of_abs_le h)
  have h2 : -2 ^ n ≤ nearestBin 53 (-1022) x := by
    have := nearestBin_mono 53 (-1022) (by norm_num) (neg_le_of_abs_le h)
    rwa [nearestBin_neg, nearest_pow] at this
  have h3 : (2 : ℚ) ^ n < (2 : ℚ) ^ ((1023 : ℤ) + 1) := by
    rw [← zpow_natCast]; exact zpow_lt_zpow_right₀ (by norm_num) (by omega)
  refine ⟨nearestBin 53 (-1022) x, ?_, abs_le.2 ⟨h2, h1⟩⟩
  change Fl.ofExt (rndBin 53 (-1022) 1023 x) = _
  unfold rndBin
  simp only
  rw [if_neg (by linarith), if_neg (by linarith)]
  rfl

theorem Bnd.mono {n m : ℕ} {a : Fl (b64Of libm)} (h : Bnd n a) (hm : n ≤ m) : Bnd m a := by
  obtain ⟨y, rfl, hy⟩ := h
  exact ⟨y, rfl, hy.trans (pow_le_pow_right₀ (by norm_num) hm)⟩

theorem Bnd.neg {n : ℕ} {a : Fl (b64Of libm)} (h : Bnd n a) : Bnd n (-a) := by
  obtain ⟨y, rfl, hy⟩ := h
  exact ⟨-y, rfl, by rwa [abs_neg]⟩

theorem Bnd.add {n m : ℕ} {a b : Fl (b64Of libm)} (ha : Bnd n a) (hb : Bnd n b) (hm : n + 1 ≤ m) (hm' : m ≤ 1023) : Bnd m (a + b) := by
  obtain ⟨y, rfl, hy⟩ := ha
  obtain ⟨z, rfl, hz⟩ := hb
  change Bnd m (Fl.round (y + z))
  refine round_bnd hm' ((abs_add_le _ _).trans (le_trans ?_ (pow_le_pow_right₀ (by norm_num) hm)))
  rw [pow_succ]; linarith

theorem Bnd.sub {n m : ℕ} {a b : Fl (b64Of libm)} (ha : Bnd n a) (hb : Bnd n b) (hm : n + 1 ≤ m) (hm' : m ≤ 1023) : Bnd m (a - b) :=
  ha.add hb.neg hm hm'

theorem Bnd.mul {n m k : ℕ} {a b : Fl (b64Of libm)} (ha : Bnd n a) (hb : Bnd m b) (hk : n + m ≤ k) (hk' : k ≤ 1023) : Bnd k (a * b) := by
  obtain ⟨y, rfl, hy⟩ := ha
  obtain ⟨z, rfl, hz⟩ := hb
  change Bnd k (Fl.round (y * z))
  refine round_bnd hk' (le_trans ?_ (pow_le_pow_right₀ (by norm_num) hk))
  rw [abs_mul, pow_add]
  exact mul_le_mul hy hz (abs_nonneg _) (by positivity)

theorem Bnd.ne_nan {n : ℕ} {a : Fl (b64Of libm)} (h : Bnd n a) : a ≠ .nan := by
  obtain ⟨y, rfl, _⟩ := h
  simp

theorem lit_bnd (m e : ℕ) {n : ℕ} (hn : n ≤ 1023) (h : |(m : ℚ) / 10 ^ e| ≤ 2 ^ n) :
    Bnd n (OfScientific.ofScientific m true e : Fl (b64Of libm)) := round_bnd hn h

theorem dot8_bnd {k1 k2 k3 k4 k5 k6 k7 k8 x1 x2 x3 x4 x5 x6 x7 x8 : Fl (b64Of libm)} (h1 : Bnd 9 k1) (h2 : Bnd 9 k2) (h3 : Bnd 9 k3)
    (h4 : Bnd 9 k4) (h5 : Bnd 9 k5) (h6 : Bnd 9 k6) (h7 : Bnd 9 k7) (h8 : Bnd 9 k8) (g1 : Bnd 1001 x1) (g2 : Bnd 1001 x2) (g3 : Bnd 1001 x3)
    (g4 : Bnd 1001 x4) (g5 : Bnd 1001 x5) (g6 : Bnd 1001 x6) (g7 : Bnd 1001 x7) (g8 : Bnd 1001 x8) :
    Bnd 1018 (0 + k1 * x1 + k2 * x2 + k3 * x3 + k4 * x4 + k5 * x5 + k6 * x6 + k7 * x7 + k8 * x8) := by
  have z : Bnd 1010 (0 : Fl (b64Of libm)) := ⟨0, by rw [Fl.ofNat_fin]; norm_num, by norm_num⟩
  have m : ∀ {k x : Fl (b64Of libm)}, Bnd 9 k → Bnd 1001 x → ∀ n, 1010 ≤ n → Bnd n (k * x) := fun hk hx n hn =>
    (hk.mul hx (le_refl 1010) (by norm_num)).mono hn
  refine Bnd.add (n := 1017) ?_ (m h8 g8 _ (by norm_num)) le_rfl (by norm_num)
  refine Bnd.add (n := 1016) ?_ (m h7 g7 _ (by norm_num)) le_rfl (by norm_num)
  refine Bnd.add (n := 1015) ?_ (m h6 g6 _ (by norm_num)) le_rfl (by norm_num)
  refine Bnd.add (n := 1014) ?_ (m h5 g5 _ (by norm_num)) le_rfl (by norm_num)
  refine Bnd.add (n := 1013) ?_ (m h4 g4 _ (by norm_num)) le_rfl (by norm_num)
  refine Bnd.add (n := 1012) ?_ (m h3 g3 _ (by norm_num)) le_rfl (by norm_num)
  refine Bnd.add (n := 1011) ?_ (m h2 g2 _ (by norm_num)) le_rfl (by norm_num)
  exact Bnd.add (n := 1010) z (m h1 g1 _ (by norm_num)) le_rfl (by norm_num)

/-- In double precision (any libm), for every finite state and reference of magnitude up to `2 ^ 1000` with the three integrators: throttle
in [0, 1], elevator in [-25, 25], aileron in [-21.5, 21.5], rudder in [-30, 30], none of them NaN. -/
theorem C65_double (l : Llc (b64Of libm)) (hl : Llc.new = .ok l) (uRef x : List ℚ) (hu : 4 ≤ uRef.length) (hx : 16 ≤ x.length)
    (hbu : ∀ v ∈ uRef, |v| ≤ 2 ^ 1000) (hbx : ∀ v ∈ x, |v| ≤ 2 ^ 1000) :
    ∃ xCtrl t e a d, l.getUDeg (toVec uRef) (toVec x) = .ok (xCtrl, [t, e, a, d]) ∧
      Within 0 1 t ∧ Within (-25) 25 e ∧ Within (-21.5) 21.5 a ∧ Within (-30) 30 d := by
  have lim := default_limits (b64Of_sound libm)
  cases hl
  match x, hx, hbx with
  | x0 :: x1 :: x2 :: x3 :: x4 :: x5 :: x6 :: x7 :: x8 :: x9 :: x10 :: x11 :: x12 :: x13 :: x14 :: x15 :: rest, _, hbx =>
  match uRef, hu, hbu with
  | r0 :: r1 :: r2 :: r3 :: more, _, hbu =>
  have b : ∀ v ∈ [x1, x2, x6, x7, x8, x13, x14, x15], Bnd 1000 (.fin v : Fl (b64Of libm)) := fun v hv => ⟨v, rfl, hbx v (by
    simp only [List.mem_cons, List.not_mem_nil, or_false] at hv ⊢; tauto)⟩
  have br : Bnd 1000 (.fin r3 : Fl (b64Of libm)) := ⟨r3, rfl, hbu r3 (by simp)⟩
  have lit : ∀ m e : ℕ, |(m : ℚ) / 10 ^ e| ≤ 2 ^ 9 → Bnd 9 (OfScientific.ofScientific m true e : Fl (b64Of libm)) := fun m e h =>
    lit_bnd m e (by norm_num) h
  have z9 : Bnd 9 (0 : Fl (b64Of libm)) := ⟨0, by rw [Fl.ofNat_fin]; norm_num, by norm_num⟩
  have y1 : Bnd 1001 (.fin x1 - 0.0389 : Fl (b64Of libm)) := (b x1 (by simp)).sub ((lit _ _ (by norm_num)).mono (by norm_num)) le_rfl (by norm_num)
  have zz : Bnd 1000 (0.0 : Fl (b64Of libm)) := (lit _ _ (by norm_num)).mono (by norm_num)
  have y2 : Bnd 1001 (.fin x2 - 0.0 : Fl (b64Of libm)) := (b x2 (by simp)).sub zz le_rfl (by norm_num)
  have y6 : Bnd 1001 (.fin x6 - 0.0 : Fl (b64Of libm)) := (b x6 (by simp)).sub zz le_rfl (by norm_num)
  have y7 : Bnd 1001 (.fin x7 - 0.0 : Fl (b64Of libm)) := (b x7 (by simp)).sub zz le_rfl (by norm_num)
  have y8 : Bnd 1001 (.fin x8 - 0.0 : Fl (b64Of libm)) := (b x8 (by simp)).sub zz le_rfl (by norm_num)
  have y13 : Bnd 1001 (.fin x13 : Fl (b64Of libm)) := (b x13 (by simp)).mono (by norm_num)
  have y14 : Bnd 1001 (.fin x14 : Fl (b64Of libm)) := (b x14 (by simp)).mono (by norm_num)
  have y15 : Bnd 1001 (.fin x15 : Fl (b64Of libm)) := (b x15 (by simp)).mono (by norm_num)
  have e1 : (toVec (x0 :: x1 :: x2 :: x3 :: x4 :: x5 :: x6 :: x7 :: x8 :: x9 :: x10 :: x11 :: x12 :: x13 :: x14 :: x15 :: rest) :
    Vec (b64Of libm)) = .fin x0 :: .fin x1 :: .fin x2 :: .fin x3 :: .fin x4 :: .fin x5 :: .fin x6 :: .fin x7 :: .fin x8 :: .fin x9 :: .fin x10 ::
    .fin x11 :: .fin x12 :: .fin x13 :: .fin x14 :: .fin x15 :: toVec rest := rfl
  have e2 : (toVec (r0 :: r1 :: r2 :: r3 :: more) : Vec (b64Of libm)) = .fin r0 :: .fin r1 :: .fin r2 :: .fin r3 :: toVec more := rfl
  rw [e1, e2]
  simp only [Llc.getUDeg, CtrlLimits.new, bind, Except.bind, vsub, vadd, matVec, dot, bcast2, getIdx,
    List.length_cons, List.length_nil, List.take_succ_cons, List.take_zero, List.drop_succ_cons, List.drop_zero, List.zipWith_cons_cons,
    List.zipWith_nil_right, List.map_cons, List.map_nil, List.foldl_cons, List.foldl_nil,
    List.cons_append, List.nil_append, if_true, List.getElem?_cons_succ, List.getElem?_cons_zero]
  rw [if_pos (by omega)]
  refine ⟨_, _, _, _, _, rfl, (saturate_spec lim.throttle _).2.2 ?_, (saturate_spec lim.elevator _).2.2 ?_,
    (saturate_spec lim.aileron _).2.2 ?_, (saturate_spec lim.rudder _).2.2 ?_⟩
  · exact (br.add ((lit _ _ (by norm_num)).mono (by norm_num)) (le_refl 1001) (by norm_num)).ne_nan
  · refine (Bnd.add (n := 1018) (m := 1019) (dot8_bnd (lit _ _ (by norm_num)).neg.neg (lit _ _ (by norm_num)).neg.neg
      (lit _ _ (by norm_num)).neg.neg z9.neg z9.neg z9.neg z9.neg z9.neg y1 y7 y13 y2 y6 y8 y14 y15)
      ((lit _ _ (by norm_num)).neg.mono (by norm_num)) le_rfl (by norm_num)).ne_nan
  · refine (Bnd.add (n := 1018) (m := 1019) (dot8_bnd z9.neg z9.neg z9.neg (lit _ _ (by norm_num)).neg (lit _ _ (by norm_num)).neg.neg
      (lit _ _ (by norm_num)).neg.neg (lit _ _ (by norm_num)).neg.neg (lit _ _ (by norm_num)).neg.neg y1 y7 y13 y2 y6 y8 y14 y15)
      ((lit _ _ (by norm_num)).mono (by norm_num)) le_rfl (by norm_num)).ne_nan
  · refine (Bnd.add (n := 1018) (m := 1019) (dot8_bnd z9.neg z9.neg z9.neg (lit _ _ (by norm_num)).neg.neg (lit _ _ (by norm_num)).neg
      (lit _ _ (by norm_num)).neg.neg (lit _ _ (by norm_num)).neg (lit _ _ (by norm_num)).neg.neg y1 y7 y13 y2 y6 y8 y14 y15)
      ((lit _ _ (by norm_num)).mono (by norm_num)) le_rfl (by norm_num)).ne_nan

end

/-- Beyond that the sum of the feedback can be infinity minus infinity: alpha 1.7e308 and q -1.7e308 give a NaN elevator. -/
theorem C65_overflow : ∃ (l : Llc b64) (uRef x xCtrl t e a d : _), Llc.new = .ok l ∧ (∀ v ∈ x, Fl.isFin v = true) ∧
    l.getUDeg uRef x = .ok (xCtrl, [t, e, a, d]) ∧ e = .nan := by
  have h : Demo.okAnd ((Llc.new : Py (Llc b64)) >>= fun l => l.getUDeg [0, 0, 0, 0]
      [0, .fin (17 * 10 ^ 307), 0, 0, 0, 0, 0, .fin (-17 * 10 ^ 307), 0, 0, 0, 0, 0, 0, 0, 0])
      (fun r => match r.2 with | [_, e, _, _] => decide (e = .nan) | _ => false) = true := by decide +kernel
  obtain ⟨⟨xc, ud⟩, h1, h2⟩ := Demo.of_okAnd h
  match ud, h2 with
  | [t, e, a, d], h2 =>
    exact ⟨_, [0, 0, 0, 0], [0, .fin (17 * 10 ^ 307), 0, 0, 0, 0, 0, .fin (-17 * 10 ^ 307), 0, 0, 0, 0, 0, 0, 0, 0], xc, t, e, a, d, rfl,
      by simp [Fl.isFin, Fl.ofNat_fin], h1, by simpa using h2⟩

example : ∃ l : Llc b64, Llc.new = .ok l ∧ l.ctrlLimits.Ordered := ⟨_, rfl, default_limits (b64Of_sound ratFmt)⟩
example : ∀ v ∈ ([600, 1 / 2, -1 / 4, 0, 0, 0, 3, -7, 5, 0, 0, 2000, 50, 1, 10, -10] : List ℚ), |v| ≤ 2 ^ 1000 := by
  decide +kernel
example : (0 : ℚ) ≤ 0.5 ∧ (0.5 : ℚ) ≤ 1 - 0.1395 := by norm_num

end SAD.Aero
