import Verif.Props.Aero
import Verif.Model.Formats
import Verif.Props.Demo

/-! # C61–C64: throttle gearing, engine lag, air data, thrust -/

set_option linter.unusedSectionVars false

namespace SAD.Aero
open SAD Spec

variable {K : Type} {R : Fmt K} [Field K] [LinearOrder K] [FloorRing K] [IsStrictOrderedRing K] [Exact R]

/-! ## C61 -/

theorem tgear_fin (x : K) : tgear (.fin x : Fl R) = .fin (if x ≤ 0.77 then 64.94 * x else 217.38 * x - 117.38) := by
  unfold tgear
  rw [lit_fin 77 2 0.77 (by norm_num), lit_fin 6494 2 64.94 (by norm_num), lit_fin 21738 2 217.38 (by norm_num),
    lit_fin 11738 2 117.38 (by norm_num)]
  simp only [Fl.fin_le_fin, Fl.fin_mul_fin, Fl.fin_sub_fin]
  split_ifs <;> rfl

/-- Throttle settings in `[0, 1]` give commanded powers in `[0, 100]`; the ends are reached. -/
theorem C61_range (x : K) (h0 : 0 ≤ x) (h1 : x ≤ 1) :
    (∃ p, tgear (.fin x : Fl R) = .fin p ∧ 0 ≤ p ∧ p ≤ 100) ∧ tgear (.fin 0 : Fl R) = .fin 0 ∧ tgear (.fin 1 : Fl R) = .fin 100 := by
  refine ⟨⟨_, tgear_fin x, ?_, ?_⟩, ?_, ?_⟩
  · split_ifs with h
    · positivity
    · push Not at h; norm_num at h ⊢; linarith
  · split_ifs with h
    · norm_num at h ⊢; linarith
    · norm_num at h ⊢; linarith
  · rw [tgear_fin]; norm_num
  · rw [tgear_fin]; norm_num

/-- Gearing is strictly increasing up to 0.77 and strictly increasing above it. -/
theorem C61_increasing (x y : K) (h : x < y) (hside : y ≤ 0.77 ∨ 0.77 < x) :
    ∃ p q, tgear (.fin x : Fl R) = .fin p ∧ tgear (.fin y : Fl R) = .fin q ∧ p < q := by
  refine ⟨_, _, tgear_fin x, tgear_fin y, ?_⟩
  rcases hside with hs | hs
  · rw [if_pos (by linarith), if_pos hs]; norm_num; linarith
  · rw [if_neg (by linarith), if_neg (by linarith)]; norm_num; linarith

/-- At 0.77 the gearing drops by 0.0012: just above, the command is `50.0026 + 217.38 ε`, so it is not monotone. -/
theorem C61_jump (ε : K) (h : 0 < ε) :
    tgear (.fin 0.77 : Fl R) = .fin 50.0038 ∧ tgear (.fin (0.77 + ε) : Fl R) = .fin (50.0038 - 0.0012 + 217.38 * ε) ∧
    (217.38 * ε < 0.0012 → tgear (.fin (0.77 + ε) : Fl R) < tgear (.fin 0.77 : Fl R)) := by
  have e1 : tgear (.fin 0.77 : Fl R) = .fin 50.0038 := by rw [tgear_fin, if_pos le_rfl]; norm_num
  have e2 : tgear (.fin (0.77 + ε) : Fl R) = .fin (50.0038 - 0.0012 + 217.38 * ε) := by
    rw [tgear_fin, if_neg (by linarith)]; norm_num; ring
  refine ⟨e1, e2, fun hε => ?_⟩
  rw [e1, e2, Fl.fin_lt_fin]
  linarith

example : ∃ x y : Fl ratFmt, x < y ∧ tgear y < tgear x :=
  ⟨.fin 0.77, .fin (0.77 + 1 / 1000000), by decide +kernel, by decide +kernel⟩
/-- the drop is there in double precision too -/
example : ∃ x y : Fl b64, x < y ∧ tgear y < tgear x :=
  ⟨0.77, .fin (770001 / 1000000), by decide +kernel, by decide +kernel⟩

/-! ## C62 -/

/-- the inverse time constant as a function of the power error -/
def rtauSpec (d : K) : K := if d ≤ 25 then 1 else if 50 ≤ d then 0.1 else 1.9 - 0.036 * d

theorem rtau_fin (d : K) : rtau (.fin d : Fl R) = .fin (rtauSpec d) := by
  unfold rtau rtauSpec
  rw [lit_fin 1 1 0.1 (by norm_num), lit_fin 19 1 1.9 (by norm_num), lit_fin 36 3 0.036 (by norm_num), Fl.ofNat_fin 25, Fl.ofNat_fin 50]
  simp only [Fl.fin_le_fin, Fl.fin_mul_fin, Fl.fin_sub_fin, Fl.one_fin]
  norm_num
  split_ifs <;> rfl

theorem rtauSpec_range (d : K) : 0.1 ≤ rtauSpec d ∧ rtauSpec d ≤ 1 := by
  unfold rtauSpec
  split_ifs with h1 h2
  · norm_num
  · norm_num
  · push Not at h1 h2; norm_num; constructor <;> linarith

theorem rtauSpec_anti {a b : K} (h : a ≤ b) : rtauSpec b ≤ rtauSpec a ∧ rtauSpec a - rtauSpec b ≤ 0.036 * (b - a) := by
  unfold rtauSpec
  split_ifs with h1 h2 h3 h4 h5 h6 h7 <;> (try push Not at *) <;> constructor <;> norm_num at * <;> linarith

/-- `rtau` lies in `[0.1, 1]`, never increases, and is Lipschitz with constant 0.036, hence continuous. -/
theorem C62_rtau (a b : K) (h : a ≤ b) :
    ∃ p q, rtau (.fin a : Fl R) = .fin p ∧ rtau (.fin b : Fl R) = .fin q ∧ 0.1 ≤ p ∧ p ≤ 1 ∧ q ≤ p ∧ |p - q| ≤ 0.036 * (b - a) := by
  obtain ⟨h1, h2⟩ := rtauSpec_anti h
  refine ⟨_, _, rtau_fin a, rtau_fin b, (rtauSpec_range a).1, (rtauSpec_range a).2, h1, ?_⟩
  rw [abs_of_nonneg (by linarith)]
  exact h2

/-- `pdot` is a rate in `[0.1, 5]` times the distance to a target, and the target is on the command's side of the present power. -/
theorem pdot_fin (p c : K) : ∃ rate target : K, pdot (.fin p : Fl R) (.fin c) = .fin (rate * (target - p)) ∧ 0.1 ≤ rate ∧ rate ≤ 5 ∧
    (p = c → target = p) ∧ (p < c → p < target) ∧ (c < p → target < p) ∧ (0 ≤ c → 0 ≤ target) ∧ (c ≤ 100 → target ≤ 100) := by
  have e50 : (50 : Fl R) = .fin 50 := by rw [Fl.ofNat_fin]; norm_num
  have e60 : (60 : Fl R) = .fin 60 := by rw [Fl.ofNat_fin]; norm_num
  have e40 : (40 : Fl R) = .fin 40 := by rw [Fl.ofNat_fin]; norm_num
  have e5 : (5 : Fl R) = .fin 5 := by rw [Fl.ofNat_fin]; norm_num
  unfold pdot
  simp only [e50, e60, e40, e5, Fl.fin_le_fin, Fl.fin_sub_fin, rtau_fin, Fl.fin_mul_fin]
  split_ifs with h1 h2 h3
  · exact ⟨5, c, rfl, by norm_num, le_rfl, fun h => h.symm, id, id, id, id⟩
  · push Not at h2
    exact ⟨_, 60, rfl, (rtauSpec_range _).1, (rtauSpec_range _).2.trans (by norm_num), fun h => by linarith, fun _ => by linarith,
      fun _ => by linarith, fun _ => by norm_num, fun _ => by norm_num⟩
  · push Not at h1
    exact ⟨5, 40, rfl, by norm_num, le_rfl, fun h => by linarith, fun _ => by linarith, fun _ => by linarith, fun _ => by norm_num,
      fun _ => by norm_num⟩
  · exact ⟨_, c, rfl, (rtauSpec_range _).1, (rtauSpec_range _).2.trans (by norm_num), fun h => h.symm, id, id, id, id⟩

/-- Power moves towards the command: the derivative is zero at the command, positive below it and negative above it. -/
theorem C62_towards (p c : K) :
    ∃ d, pdot (.fin p : Fl R) (.fin c) = .fin d ∧ (p = c → d = 0) ∧ (p < c → 0 < d) ∧ (c < p → d < 0) := by
  obtain ⟨rate, target, e, r1, r2, h1, h2, h3, _⟩ := pdot_fin (R := R) p c
  have hr : 0 < rate := lt_of_lt_of_le (by norm_num) r1
  refine ⟨_, e, fun h => by rw [h1 h]; ring, fun h => ?_, fun h => ?_⟩
  · exact mul_pos hr (by linarith [h2 h])
  · exact mul_neg_of_pos_of_neg hr (by linarith [h3 h])

/-- one explicit Euler step of the engine: power `p`, command `c`, step `dt` -/
def engineStep (p : Fl R) (cdt : K × K) : Fl R := p + .fin cdt.2 * pdot p (.fin cdt.1)

/-- Powers in `[0, 100]` stay there under any sequence of commands in `[0, 100]` and Euler steps of at most 0.2 s. -/
theorem C62_invariant (p : K) (hp : 0 ≤ p ∧ p ≤ 100) (hist : List (K × K))
    (h : ∀ cdt ∈ hist, (0 ≤ cdt.1 ∧ cdt.1 ≤ 100) ∧ 0 ≤ cdt.2 ∧ cdt.2 ≤ 0.2) :
    ∃ q, hist.foldl engineStep (.fin p : Fl R) = .fin q ∧ 0 ≤ q ∧ q ≤ 100 := by
  induction hist generalizing p with
  | nil => exact ⟨p, rfl, hp⟩
  | cons x hist ih =>
    obtain ⟨⟨c0, c1⟩, d0, d1⟩ := h x (by simp)
    obtain ⟨rate, target, e, r1, r2, _, _, _, t0, t1⟩ := pdot_fin (R := R) p x.1
    have e' : engineStep (.fin p : Fl R) x = .fin (p + x.2 * (rate * (target - p))) := by
      rw [engineStep, e, Fl.fin_mul_fin, Fl.fin_add_fin]
    rw [List.foldl_cons, e']
    refine ih _ ?_ (fun y hy => h y (by simp [hy]))
    have hl0 : 0 ≤ x.2 * rate := mul_nonneg d0 (by norm_num at r1; linarith)
    have hl1 : x.2 * rate ≤ 1 := by norm_num at d1; nlinarith
    have ht := t0 c0
    have ht' := t1 c1
    have : p + x.2 * (rate * (target - p)) = (1 - x.2 * rate) * p + x.2 * rate * target := by ring
    rw [this]
    generalize x.2 * rate = l at *
    constructor <;> nlinarith [hp.1, hp.2]

example : ∀ cdt ∈ [((100 : ℚ), (0.2 : ℚ)), (0, 0.1)], (0 ≤ cdt.1 ∧ cdt.1 ≤ 100) ∧ 0 ≤ cdt.2 ∧ cdt.2 ≤ 0.2 := by decide +kernel
/-- 0.2 s is the limit: a step of 0.5 s overshoots to a negative power -/
example : [((0 : ℚ), (0.5 : ℚ))].foldl engineStep (.fin 90 : Fl ratFmt) < .fin 0 := by decide +kernel

/-! ## C63 -/

/-- temperature in degrees Rankine as a function of altitude in feet -/
def temperature (alt : K) : K := if 35000 ≤ alt then 390 else 519 * (1 - 0.703e-5 * alt)

theorem temperature_ge (alt : K) : 390 ≤ temperature alt := by
  unfold temperature
  split_ifs with h
  · exact le_rfl
  · push Not at h; norm_num; linarith

theorem mathSqrt_fin (a : K) : mathSqrt (.fin a : Fl R) = if a < 0 then .error .valueError else .ok (.fin (R.sqrt a)) := rfl
theorem powFl_fin (a b : K) :
    powFl (.fin a : Fl R) (.fin b) = if a < 0 then .nan else if a = 0 then .fin 0 else .fin (R.pow a b) := rfl

theorem adc_fin (vt alt : K) :
    adc (.fin vt : Fl R) (.fin alt) = (mathSqrt (.fin (1.4 * 1716.3 * temperature alt)) >>= fun a =>
      .ok (.fin vt / a, .fin 0.5 * (.fin 2.377e-3 * powFl (.fin (1 - 0.703e-5 * alt)) (.fin 4.14)) * .fin vt * .fin vt)) := by
  unfold adc temperature
  rw [lit_fin 2377 6 2.377e-3 (by norm_num), lit_fin 703 8 0.703e-5 (by norm_num), lit_fin 414 2 4.14 (by norm_num),
    lit_fin 14 1 1.4 (by norm_num), lit_fin 17163 1 1716.3 (by norm_num), lit_fin 5 1 0.5 (by norm_num), Fl.ofNat_fin 35000,
    Fl.ofNat_fin 390, Fl.ofNat_fin 519]
  simp only [Fl.fin_le_fin, Fl.fin_mul_fin, Fl.fin_sub_fin, Fl.one_fin]
  push_cast
  split_ifs <;> simp only [Fl.fin_mul_fin]

end SAD.Aero

namespace SAD.Aero
open SAD Spec

/-- `adc` at any finite airspeed and altitude: the speed of sound belongs to a temperature of at least 390 R, so it is positive; Mach is
airspeed over it; below 1/0.703e-5 feet the dynamic pressure is half a positive density times the square of the airspeed (so it is
non-negative and even). -/
theorem C63_air_data (alt : ℝ) :
    390 ≤ temperature alt ∧ ∃ a ρ : ℝ, 0 < a ∧ a ^ 2 = 1.4 * 1716.3 * temperature alt ∧
      (0.703e-5 * alt < 1 → 0 < ρ ∧
        ∀ vt : ℝ, adc (.fin vt : Fl realFmt) (.fin alt) = .ok (.fin (vt / a), .fin (1 / 2 * ρ * vt ^ 2))) ∧
      (∀ vt : ℝ, ∃ q, adc (.fin vt : Fl realFmt) (.fin alt) = .ok (.fin (vt / a), q)) := by
  have ht := temperature_ge alt
  have hT : 0 < 1.4 * 1716.3 * temperature alt := by norm_num; linarith
  have ha : 0 < Real.sqrt (1.4 * 1716.3 * temperature alt) := Real.sqrt_pos.2 hT
  have hs : mathSqrt (.fin (1.4 * 1716.3 * temperature alt) : Fl realFmt) = .ok (.fin (Real.sqrt (1.4 * 1716.3 * temperature alt))) := by
    rw [mathSqrt_fin, if_neg (not_lt.2 hT.le)]; rfl
  refine ⟨ht, Real.sqrt (1.4 * 1716.3 * temperature alt), 2.377e-3 * (1 - 0.703e-5 * alt) ^ (4.14 : ℝ), ha,
    Real.sq_sqrt hT.le, fun h => ⟨?_, fun vt => ?_⟩, fun vt => ?_⟩
  · have : 0 < 1 - 0.703e-5 * alt := by linarith
    exact mul_pos (by norm_num) (Real.rpow_pos_of_pos this _)
  · have hp : 0 < 1 - 0.703e-5 * alt := by linarith
    have e : powFl (.fin (1 - 0.703e-5 * alt) : Fl realFmt) (.fin 4.14) = .fin ((1 - 0.703e-5 * alt) ^ (4.14 : ℝ)) := by
      rw [powFl_fin, if_neg (not_lt.2 hp.le), if_neg (ne_of_gt hp)]; rfl
    rw [adc_fin, hs, e]
    simp only [bind, Except.bind, Fl.fin_mul_fin, Fl.fin_div_fin _ _ (ne_of_gt ha)]
    congr 3
    ring
  · rw [adc_fin, hs]
    simp only [bind, Except.bind, Fl.fin_div_fin _ _ (ne_of_gt ha)]
    exact ⟨_, rfl⟩

/-- Above 1/0.703e-5 feet (about 142 248 ft) the density, and with it the dynamic pressure, is NaN. -/
theorem C63_ceiling (vt alt : ℝ) (h : 1 < 0.703e-5 * alt) :
    ∃ m, adc (.fin vt : Fl realFmt) (.fin alt) = .ok (m, .nan) := by
  obtain ⟨_, a, _, _, _, _, hq⟩ := C63_air_data alt
  obtain ⟨q, hq⟩ := hq vt
  have e : powFl (.fin (1 - 0.703e-5 * alt) : Fl realFmt) (.fin 4.14) = .nan := by
    rw [powFl_fin, if_pos (by linarith)]
  refine ⟨.fin (vt / a), ?_⟩
  rw [adc_fin, e] at hq ⊢
  revert hq
  cases mathSqrt (.fin (1.4 * 1716.3 * temperature alt) : Fl realFmt) with
  | error e => intro hq; cases hq
  | ok a' =>
    intro hq
    simp only [bind, Except.bind, Except.ok.injEq, Prod.mk.injEq] at hq ⊢
    exact ⟨hq.1, rfl⟩

example : (0.703e-5 : ℝ) * 30000 < 1 := by norm_num

/-! ## C64 -/

variable {K : Type} {R : Fmt K} [Field K] [LinearOrder K] [FloorRing K] [IsStrictOrderedRing K] [Exact R]

/-- the altitude the thrust tables are read at: negative altitudes read at 0.01 feet -/
def thrustAlt (alt : K) : K := if alt < 0 then 0.01 else alt

/-- The idle, military and maximum thrust at an altitude and Mach number: bilinear interpolation of the three tables, given every 10000 ft
and every Mach 0.2. -/
def thrustAt (table : List (List ℚ)) (alt mach : K) : K := interp2 0 10000 0 0.2 table (thrustAlt alt) mach

theorem blend_value {a : List (List ℚ)} (ha : Rect a 6 6) (alt mach : K) {i m : ℤ}
    (hi : i = (gridCell 0 10000 6 alt : ℕ)) (hm : m = (gridCell 0 0.2 6 mach : ℕ)) :
    blend a i m (.fin (alt / 10000 - i) : Fl R) (.fin (1 - (alt / 10000 - i))) (.fin (5 * mach - m)) =
      .ok (.fin (interp2 0 10000 0 0.2 a alt mach)) := by
  have bi : i ≤ 4 := by rw [hi]; unfold gridCell; omega
  have bm : m ≤ 4 := by rw [hm]; unfold gridCell; omega
  have bi0 : 0 ≤ i := by omega
  have bm0 : 0 ≤ m := by omega
  unfold blend
  rw [tget_range ha (by omega) (by omega), tget_range ha (by omega) (by omega), tget_range ha (by omega) (by omega),
    tget_range ha (by omega) (by omega)]
  simp only [bind, Except.bind, flLit_fin, Fl.fin_mul_fin, Fl.fin_add_fin, Fl.fin_sub_fin]
  congr 2
  unfold interp2
  rw [interp]
  simp only [List.length_map, ha.1, ← hm]
  have hgm : gridCell 0 0.2 6 mach = m.toNat := by omega
  have hgi : gridCell 0 10000 6 alt = i.toNat := by omega
  have row : ∀ j : ℕ, j < 6 → (a.map fun row => interp 0 10000 (row.map (fun q : ℚ => (q : K))) alt).getD j 0
      = ((a.getD j []).getD i.toNat 0 : ℚ) + (alt / 10000 - i) * (((a.getD j []).getD (i.toNat + 1) 0 : ℚ) - ((a.getD j []).getD i.toNat 0 : ℚ)) := by
    intro j hj
    rw [getD_map_lt _ _ [] (by rw [ha.1]; exact hj), interp]
    simp only [List.length_map, row_length ha.2 (show j < a.length by rw [ha.1]; exact hj), hgi, getD_map_cast]
    have : ((i.toNat : ℕ) : K) = (i : K) := by
      have : ((i.toNat : ℕ) : ℤ) = i := by omega
      exact_mod_cast congrArg (fun z : ℤ => (z : K)) this
    rw [this]
    field_simp
    ring
  rw [hgm, row _ (by omega), row _ (by omega)]
  have e1 : (i + 1).toNat = i.toNat + 1 := by omega
  have e2 : (m + 1).toNat = m.toNat + 1 := by omega
  rw [e1, e2]
  have : ((m.toNat : ℕ) : K) = (m : K) := by
    have : ((m.toNat : ℕ) : ℤ) = m := by omega
    exact_mod_cast congrArg (fun z : ℤ => (z : K)) this
  rw [this]
  norm_num
  ring

/-- Thrust at any power, altitude and Mach number: below power 50 the affine blend of idle and military thrust, from 50 on that of military
and maximum thrust. -/
theorem C64_value (power alt mach : K) :
    thrust (.fin power : Fl R) (.fin alt) (.fin mach) = .ok (.fin (
      if power < 50 then thrustAt thrustIdle alt mach + (thrustAt thrustMil alt mach - thrustAt thrustIdle alt mach) * (power / 50)
      else thrustAt thrustMil alt mach + (thrustAt thrustMax alt mach - thrustAt thrustMil alt mach) * ((power - 50) / 50))) := by
  have halt : (if (.fin alt : Fl R) < 0 then (0.01 : Fl R) else .fin alt) = .fin (thrustAlt alt) := by
    unfold thrustAlt
    rw [lit_fin 1 2 0.01 (by norm_num), Fl.zero_fin]
    simp only [Fl.fin_lt_fin]
    split_ifs <;> rfl
  have h0 : 0 ≤ thrustAlt alt := by
    unfold thrustAlt; split_ifs with h
    · norm_num
    · exact not_lt.1 h
  unfold thrust thrustAt
  simp only [halt]
  generalize thrustAlt alt = z at *
  have hh : (0.0001 : Fl R) * .fin z = .fin (z / 10000) := by
    rw [lit_fin 1 4 0.0001 (by norm_num), Fl.fin_mul_fin]; congr 1; norm_num; ring
  have hrm : (5 : Fl R) * .fin mach = .fin (5 * mach) := by rw [Fl.ofNat_fin, Fl.fin_mul_fin]; norm_num
  rw [hh, hrm]
  simp only [fix_fin, bind, Except.bind, flInt, Fl.fin_sub_fin, Fl.one_fin]
  generalize hi : (if 5 ≤ (if 0 < z / 10000 then ⌊z / 10000⌋ else ⌈z / 10000⌉) then 4 else
    (if 0 < z / 10000 then ⌊z / 10000⌋ else ⌈z / 10000⌉)) = i
  generalize hm : (if 5 ≤ (if 0 < 5 * mach then ⌊5 * mach⌋ else ⌈5 * mach⌉) then 4 else
    if (if 0 < 5 * mach then ⌊5 * mach⌋ else ⌈5 * mach⌉) ≤ 0 then 0 else (if 0 < 5 * mach then ⌊5 * mach⌋ else ⌈5 * mach⌉)) = m
  have gi : i = (gridCell 0 10000 6 z : ℕ) := by
    unfold gridCell
    rw [sub_zero]
    have hz : 0 ≤ z / 10000 := by positivity
    have e : (if 0 < z / 10000 then ⌊z / 10000⌋ else ⌈z / 10000⌉) = ⌊z / 10000⌋ := by
      split_ifs with h
      · rfl
      · rw [le_antisymm (not_lt.1 h) hz]; simp
    rw [e] at hi
    have := Int.floor_nonneg.2 hz
    split_ifs at hi <;> omega
  have gm : m = (gridCell 0 0.2 6 mach : ℕ) := by
    unfold gridCell
    have e0 : (mach - 0) / 0.2 = 5 * mach := by norm_num; ring
    rw [e0]
    by_cases h : 0 < 5 * mach
    · simp only [if_pos h] at hm
      have := Int.floor_nonneg.2 h.le
      split_ifs at hm <;> omega
    · simp only [if_neg h] at hm
      have h1 : ⌈5 * mach⌉ ≤ 0 := Int.ceil_le.2 (by simpa only [Int.cast_zero] using not_lt.1 h)
      have h2 : ⌊5 * mach⌋ ≤ ⌈5 * mach⌉ := Int.floor_le_ceil _
      split_ifs at hm <;> omega
  rw [blend_value thrustMil_rect z mach gi gm, blend_value thrustIdle_rect z mach gi gm, blend_value thrustMax_rect z mach gi gm]
  have e50 : (50 : Fl R) = .fin 50 := by rw [Fl.ofNat_fin]; norm_num
  simp only [e50, Fl.fin_lt_fin]
  rw [lit_fin 2 2 0.02 (by norm_num)]
  split_ifs with hp
  · simp only [Fl.fin_sub_fin, Fl.fin_mul_fin, Fl.fin_add_fin]
    norm_num
    ring
  · simp only [Fl.fin_sub_fin, Fl.fin_mul_fin, Fl.fin_add_fin]
    norm_num
    ring

/-- Idle thrust at power 0, military at 50, maximum at 100. -/
theorem C64_corners (alt mach : K) :
    thrust (.fin 0 : Fl R) (.fin alt) (.fin mach) = .ok (.fin (thrustAt thrustIdle alt mach)) ∧
    thrust (.fin 50 : Fl R) (.fin alt) (.fin mach) = .ok (.fin (thrustAt thrustMil alt mach)) ∧
    thrust (.fin 100 : Fl R) (.fin alt) (.fin mach) = .ok (.fin (thrustAt thrustMax alt mach)) := by
  refine ⟨?_, ?_, ?_⟩ <;> rw [C64_value] <;> norm_num

/-- Thrust is continuous in power (Lipschitz on every interval, across 50 too). -/
theorem C64_continuous (alt mach : K) : ∃ L : K, 0 ≤ L ∧ ∀ p q : K, ∃ v w, thrust (.fin p : Fl R) (.fin alt) (.fin mach) = .ok (.fin v) ∧
    thrust (.fin q : Fl R) (.fin alt) (.fin mach) = .ok (.fin w) ∧ |v - w| ≤ L * |p - q| := by
  generalize hA : (thrustAt thrustMil alt mach - thrustAt thrustIdle alt mach) / 50 = A
  generalize hB : (thrustAt thrustMax alt mach - thrustAt thrustMil alt mach) / 50 = B
  refine ⟨|A| + |B|, by positivity, fun p q => ⟨_, _, C64_value p alt mach, C64_value q alt mach, ?_⟩⟩
  have e1 : ∀ p : K, thrustAt thrustIdle alt mach + (thrustAt thrustMil alt mach - thrustAt thrustIdle alt mach) * (p / 50)
      = thrustAt thrustMil alt mach + A * (p - 50) := fun p => by rw [← hA]; ring
  have e2 : ∀ p : K, thrustAt thrustMil alt mach + (thrustAt thrustMax alt mach - thrustAt thrustMil alt mach) * ((p - 50) / 50)
      = thrustAt thrustMil alt mach + B * (p - 50) := fun p => by rw [← hB]; ring
  simp only [e1, e2]
  have a1 := abs_nonneg A
  have b1 := abs_nonneg B
  have ab : ∀ x y : K, |x * y| = |x| * |y| := abs_mul
  split_ifs with h1 h2 h2
  · rw [show thrustAt thrustMil alt mach + A * (p - 50) - (thrustAt thrustMil alt mach + A * (q - 50)) = A * (p - q) by ring, ab]
    nlinarith [abs_nonneg (p - q)]
  · push Not at h2
    rw [show thrustAt thrustMil alt mach + A * (p - 50) - (thrustAt thrustMil alt mach + B * (q - 50)) = A * (p - 50) - B * (q - 50) by ring,
      abs_of_neg (show p - q < 0 by linarith)]
    refine (abs_sub _ _).trans ?_
    rw [ab, ab, abs_of_neg (show p - 50 < 0 by linarith), abs_of_nonneg (show 0 ≤ q - 50 by linarith)]
    nlinarith
  · push Not at h1
    rw [show thrustAt thrustMil alt mach + B * (p - 50) - (thrustAt thrustMil alt mach + A * (q - 50)) = B * (p - 50) - A * (q - 50) by ring,
      abs_of_pos (show 0 < p - q by linarith)]
    refine (abs_sub _ _).trans ?_
    rw [ab, ab, abs_of_neg (show q - 50 < 0 by linarith), abs_of_nonneg (show 0 ≤ p - 50 by linarith)]
    nlinarith
  · rw [show thrustAt thrustMil alt mach + B * (p - 50) - (thrustAt thrustMil alt mach + B * (q - 50)) = B * (p - q) by ring, ab]
    nlinarith [abs_nonneg (p - q)]

/-- Every negative altitude gives the thrust of 0.01 feet. -/
theorem C64_negative_altitude (power alt mach : K) (h : alt < 0) :
    thrust (.fin power : Fl R) (.fin alt) (.fin mach) = thrust (.fin power) (.fin 0.01) (.fin mach) := by
  have : thrustAlt alt = thrustAlt (0.01 : K) := by
    unfold thrustAlt; rw [if_pos h, if_neg (by norm_num)]
  rw [C64_value, C64_value]
  unfold thrustAt
  rw [this]

example : thrust (.fin 50 : Fl ratFmt) (.fin 10000) (.fin (2 / 5)) = .ok (.fin 9312) := by decide +kernel

end SAD.Aero
