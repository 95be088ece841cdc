import Verif.Lemmas.Aero
import Verif.Lemmas.Interp
import Verif.Lemmas.Binary

/-! # C57–C60: truncation and the aerodynamic tables -/

set_option linter.unusedSectionVars false

namespace SAD.Aero
open SAD Spec

variable {K : Type} {R : Fmt K} [Field K] [LinearOrder K] [FloorRing K] [IsStrictOrderedRing K]

/-! ## C57 -/

/-- `fix` rounds every finite float towards zero. -/
theorem C57_truncates (x : K) :
    ∃ k : ℤ, fixArg (.float (.fin x : Fl R)) = .ok k ∧ |(k : K)| ≤ |x| ∧ |x| < |(k : K)| + 1 ∧
      (0 ≤ x → 0 ≤ k) ∧ (x ≤ 0 → k ≤ 0) := by
  refine ⟨_, rfl, ?_⟩
  have f1 := Int.floor_le x
  have f2 := Int.lt_floor_add_one x
  have g1 := Int.le_ceil x
  have g2 := Int.ceil_lt_add_one x
  split_ifs with h
  · have h0 : 0 ≤ ⌊x⌋ := Int.floor_nonneg.2 h.le
    have h0' : (0 : K) ≤ (⌊x⌋ : K) := by exact_mod_cast h0
    rw [abs_of_nonneg h0', abs_of_nonneg h.le]
    exact ⟨f1, f2, fun _ => h0, fun h' => absurd h (not_lt.2 h')⟩
  · push Not at h
    have h0 : ⌈x⌉ ≤ 0 := Int.ceil_le.2 (by simpa using h)
    have h0' : (⌈x⌉ : K) ≤ 0 := by exact_mod_cast h0
    rw [abs_of_nonpos h0', abs_of_nonpos h]
    refine ⟨by linarith, by linarith, fun h' => ?_, fun _ => h0⟩
    have : x = 0 := le_antisymm h h'
    simp [this]

/-- `fix` raises on NaN, infinities and anything that is not a float. -/
theorem C57_rejects :
    fixArg (.float (.nan : Fl R)) = .error .valueError ∧ fixArg (.float (.pinf : Fl R)) = .error .overflowError ∧
    fixArg (.float (.ninf : Fl R)) = .error .overflowError ∧ (∀ i, fixArg (.int i : PyArg R) = .error .assertionError) ∧
    fixArg (.other : PyArg R) = .error .assertionError :=
  ⟨rfl, rfl, rfl, fun _ => rfl, rfl⟩

example : fixArg (.float (.fin (-27 / 10) : Fl b64)) = .ok (-2) := by decide +kernel
example : fixArg (.float (.fin (27 / 10) : Fl b64)) = .ok 2 := by decide +kernel

/-! ## C58 -/

/-- The table functions of angle of attack and one other argument -/
inductive Table2 where
  | cx | cm | cl | cn | dlda | dldr | dnda | dndr

/-- the function of the code behind each name -/
def Table2.eval : Table2 → Fl R → Fl R → Py (Fl R)
  | .cx => Aero.cx
  | .cm => Aero.cm
  | .cl => Aero.cl
  | .cn => Aero.cn
  | .dlda => Aero.dlda
  | .dldr => Aero.dldr
  | .dnda => Aero.dnda
  | .dndr => Aero.dndr

theorem alphaCell_range (h : ElevenTenths R) {alpha : Fl R} {c : Cell R} (hc : alphaCell alpha = .ok c) : c.InRange 12 :=
  cellOf_range h (first := -2) (by norm_num) (by norm_num) hc
theorem elCell_range (h : ElevenTenths R) {el : Fl R} {c : Cell R} (hc : elCell el = .ok c) : c.InRange 5 :=
  cellOf_range h (first := -2) (by norm_num) (by norm_num) hc
theorem betaCell_range (h : ElevenTenths R) {beta : Fl R} {c : Cell R} (hc : betaCell beta = .ok c) : c.InRange 7 :=
  cellOf_range h (first := -3) (by norm_num) (by norm_num) hc

/-- The row and column indices used for an angle of attack, elevator or sideslip are always inside the 12-column, 5-row and
7-row tables: no index is negative (which Python would wrap around) or too large. -/
theorem C58_indices (hS : Sound R) (h11 : ElevenTenths R) (hc : SmallConstants R) (x : Fl R) (c : Cell R) :
    (alphaCell x = .ok c → (0 ≤ c.lo ∧ c.lo < 12) ∧ 0 ≤ c.hi ∧ c.hi < 12) ∧
    (elCell x = .ok c → (0 ≤ c.lo ∧ c.lo < 5) ∧ 0 ≤ c.hi ∧ c.hi < 5) ∧
    (betaCell x = .ok c → (0 ≤ c.lo ∧ c.lo < 7) ∧ 0 ≤ c.hi ∧ c.hi < 7) ∧
    (absBetaCell x = .ok c → (0 ≤ c.lo ∧ c.lo < 7) ∧ 0 ≤ c.hi ∧ c.hi < 7) :=
  ⟨fun h => alphaCell_range h11 h, fun h => elCell_range h11 h, fun h => betaCell_range h11 h,
    fun h => absBetaCell_range h11 h (absBeta_pos hS hc x)⟩

/-- No table function raises `IndexError`, whatever the arguments (NaN and infinities included). -/
theorem C58_no_index_error (hS : Sound R) (h11 : ElevenTenths R) (hc : SmallConstants R) (alpha beta el x y z : Fl R) :
    (∀ f : Table2, f.eval x y ≠ .error .indexError) ∧ Aero.cz alpha beta el ≠ .error .indexError ∧
    Aero.dampp alpha ≠ .error .indexError ∧ Aero.thrust x y z ≠ .error .indexError := by
  have ea : ∀ (x : Fl R) e, alphaCell x = .error e → e ≠ .indexError := fun x e h => cellOf_error h11 h
  have ee : ∀ (x : Fl R) e, elCell x = .error e → e ≠ .indexError := fun x e h => cellOf_error h11 h
  have eb : ∀ (x : Fl R) e, betaCell x = .error e → e ≠ .indexError := fun x e h => cellOf_error h11 h
  have eB : ∀ (x : Fl R) e, absBetaCell x = .error e → e ≠ .indexError := fun x e h => absBetaCell_error h11 h
  have rB : ∀ (x : Fl R) c, absBetaCell x = .ok c → c.InRange 7 := fun x c h => absBetaCell_range h11 h (absBeta_pos hS hc x)
  have lift : ∀ {x : Py (Fl R)} {f : Fl R → Fl R}, x ≠ .error .indexError →
      (x >>= fun d => .ok (f d)) ≠ .error .indexError := by
    intro x f h
    cases x with
    | error e => exact fun h' => h (by simpa [bind, Except.bind] using h')
    | ok v => simp [bind, Except.bind]
  refine ⟨fun f => ?_, ?_, ?_, ?_⟩
  · cases f
    · exact two_noIndex cxTable_rect (ea x) (ee y) (fun c h => alphaCell_range h11 h) (fun c h => elCell_range h11 h)
    · exact two_noIndex cmTable_rect (ea x) (ee y) (fun c h => alphaCell_range h11 h) (fun c h => elCell_range h11 h)
    · have := lift (f := fun d => d * flInt (sign y)) (two_noIndex clTable_rect (ea x) (eB y) (fun c h => alphaCell_range h11 h) (rB y))
      simpa only [Table2.eval, Aero.cl, bind_assoc] using this
    · have := lift (f := fun d => d * flInt (sign y)) (two_noIndex cnTable_rect (ea x) (eB y) (fun c h => alphaCell_range h11 h) (rB y))
      simpa only [Table2.eval, Aero.cn, bind_assoc] using this
    · exact two_noIndex dldaTable_rect (ea x) (eb y) (fun c h => alphaCell_range h11 h) (fun c h => betaCell_range h11 h)
    · exact two_noIndex dldrTable_rect (ea x) (eb y) (fun c h => alphaCell_range h11 h) (fun c h => betaCell_range h11 h)
    · exact two_noIndex dndaTable_rect (ea x) (eb y) (fun c h => alphaCell_range h11 h) (fun c h => betaCell_range h11 h)
    · exact two_noIndex dndrTable_rect (ea x) (eb y) (fun c h => alphaCell_range h11 h) (fun c h => betaCell_range h11 h)
  · unfold Aero.cz
    cases hca : alphaCell alpha with
    | error e => exact fun h => ea _ e hca (by simpa [bind, Except.bind] using h)
    | ok c =>
      obtain ⟨v, hv⟩ := lookup1_ok (a := czTable) (c := c) (by
        have : czTable.length = 12 := by decide +kernel
        rw [this]; exact alphaCell_range h11 hca)
      simp [bind, Except.bind, hv]
  · unfold Aero.dampp
    cases hca : alphaCell alpha with
    | error e => exact fun h => ea _ e hca (by simpa [bind, Except.bind] using h)
    | ok c =>
      obtain ⟨v, hv⟩ := mapM_ok damppTable (f := fun row => lookup1 row c) (fun row hrow => lookup1_ok (by
        rw [damppTable_rect.2 row hrow]; exact alphaCell_range h11 hca))
      simp [bind, Except.bind, hv]
  · rcases thrust_form hS hc x y z with ⟨v, h⟩ | ⟨e, he, h⟩
    · rw [h]; simp
    · rw [h]
      intro h'
      cases h'
      rcases he with he | he
      · exact fix_error he rfl
      · exact fix_error he rfl

/-- On numbers of the format every table function returns a value; the thrust table needs `5 * mach` not to overflow. -/
theorem C58_defined (hS : Sound R) (h11 : ElevenTenths R) (hc : SmallConstants R) {alpha y : K}
    (ha : Representable R alpha) (hy : Representable R y) (power beta el : Fl R) :
    (∀ f : Table2, ∃ v, f.eval (.fin alpha : Fl R) (.fin y) = .ok v) ∧ (∃ v, Aero.cz (.fin alpha) beta el = .ok v) ∧
    (∃ v, Aero.dampp (.fin alpha : Fl R) = .ok v) ∧
    (∀ mach z : K, (5 : Fl R) * .fin mach = .fin z → ∃ v, Aero.thrust power (.fin y) (.fin mach) = .ok v) := by
  have oa := alphaCell_ok hS h11 hc ha
  have oe := elCell_ok hS h11 hy
  have ob := betaCell_ok hS h11 hc hy
  have oB := absBetaCell_ok' hS h11 hc hy
  have rB : ∀ (x : Fl R) c, absBetaCell x = .ok c → c.InRange 7 := fun x c h => absBetaCell_range h11 h (absBeta_pos hS hc x)
  have ra : ∀ c : Cell R, alphaCell (.fin alpha) = .ok c → c.InRange 12 := fun c h => alphaCell_range h11 h
  have re : ∀ c : Cell R, elCell (.fin y) = .ok c → c.InRange 5 := fun c h => elCell_range h11 h
  have rb : ∀ c : Cell R, betaCell (.fin y) = .ok c → c.InRange 7 := fun c h => betaCell_range h11 h
  have lift : ∀ {x : Py (Fl R)} {f : Fl R → Fl R}, (∃ v, x = .ok v) → ∃ v, (x >>= fun d => .ok (f d)) = .ok v := by
    rintro x f ⟨v, rfl⟩
    exact ⟨_, rfl⟩
  refine ⟨fun f => ?_, ?_, ?_, ?_⟩
  · cases f
    · exact two_defined cxTable_rect oa oe ra re
    · exact two_defined cmTable_rect oa oe ra re
    · have := lift (f := fun d => d * flInt (sign (.fin y : Fl R))) (two_defined clTable_rect oa oB ra (rB _))
      simpa only [Table2.eval, Aero.cl, bind_assoc] using this
    · have := lift (f := fun d => d * flInt (sign (.fin y : Fl R))) (two_defined cnTable_rect oa oB ra (rB _))
      simpa only [Table2.eval, Aero.cn, bind_assoc] using this
    · exact two_defined dldaTable_rect oa ob ra rb
    · exact two_defined dldrTable_rect oa ob ra rb
    · exact two_defined dndaTable_rect oa ob ra rb
    · exact two_defined dndrTable_rect oa ob ra rb
  · obtain ⟨c, hca⟩ := oa
    obtain ⟨v, hv⟩ := lookup1_ok (a := czTable) (c := c) (by
      have : czTable.length = 12 := by decide +kernel
      rw [this]; exact ra c hca)
    exact ⟨_, by unfold Aero.cz; simp only [bind, Except.bind, hca, hv]; rfl⟩
  · obtain ⟨c, hca⟩ := oa
    obtain ⟨v, hv⟩ := mapM_ok damppTable (f := fun row => lookup1 row c) (fun row hrow => lookup1_ok (by
        rw [damppTable_rect.2 row hrow]; exact ra c hca))
    exact ⟨v, by unfold Aero.dampp; simp only [bind, Except.bind, hca, hv]⟩
  · intro mach z hz
    rcases thrust_form hS hc power (.fin y) (.fin mach) with h | ⟨e, he, h⟩
    · exact h
    · exfalso
      rcases he with he | he
      · obtain ⟨c, e1, c0, c1, _⟩ := hc (1 / 10000) (by simp)
        obtain ⟨c', e2, c0', c1', e3⟩ := hc (1 / 100) (by simp)
        rw [lit_val (m := 1) (e := 4) (by norm_num) e1, lit_val (m := 1) (e := 2) (by norm_num) e2] at he
        split_ifs at he
        · have hle : c * c' ≤ c' := by nlinarith
          have u := hS.mono (c * c') c' hle
          have l := hS.mono 0 (c * c') (by positivity)
          have hr : (Fl.round c' : Fl R) = .fin c' := by rw [Fl.round, e3]; rfl
          rw [hr] at u
          rw [hS.rnd_zero] at l
          rw [fin_mul_round] at he
          cases hz : (Fl.round (c * c') : Fl R) <;> rw [hz] at u l he <;> simp_all [fix]
        · obtain ⟨w, hw⟩ := round_scaled hS c0 c1 hy
          rw [fin_mul_round, hw] at he
          cases he
      · rw [hz] at he
        cases he

local macro "b64" : tactic => `(tactic| (change rndBin 53 (-1022) 1023 _ = _; decide +kernel))

/-- binary64 (with any libm) meets the assumptions of the C58 theorems, and so does every exact format. -/
theorem C58_formats (libm : Fmt ℚ) : Sound (b64Of libm) ∧ ElevenTenths (b64Of libm) ∧ SmallConstants (b64Of libm) := by
  refine ⟨b64Of_sound libm, ?_, ?_⟩
  · exact ⟨2476979795053773 / 2251799813685248, by b64, by norm_num, by norm_num, by b64, by b64,
      by b64⟩
  · intro q hq
    simp only [List.mem_cons, List.not_mem_nil, or_false] at hq
    rcases hq with rfl | rfl | rfl | rfl
    · exact ⟨3602879701896397 / 18014398509481984, by b64, by norm_num, by norm_num, by b64⟩
    · exact ⟨3602879701896397 / 36028797018963968, by b64, by norm_num, by norm_num, by b64⟩
    · exact ⟨7378697629483821 / 73786976294838206464, by b64, by norm_num, by norm_num, by b64⟩
    · exact ⟨5764607523034235 / 576460752303423488, by b64, by norm_num, by norm_num, by b64⟩

instance (x : ℚ) : Decidable (Representable b64 x) := inferInstanceAs (Decidable (_ ∧ _))
example : Representable b64 (-45) ∧ Representable b64 (1 / 2) := by decide +kernel
/-- far outside the table, in double precision -/
example : ∃ v : Fl b64, cx (.fin (-1000)) (.fin 400) = .ok v := by
  obtain ⟨h1, h2, h3⟩ := C58_formats ratFmt
  have r : Representable b64 (-1000) ∧ Representable b64 400 := by decide +kernel
  exact (C58_defined h1 h2 h3 r.1 r.2 0 0 0).1 .cx

/-! ## C59

The grids, in degrees: angle of attack -10, -5, …, 45; elevator -24, -12, …, 24; sideslip of `dlda`, `dldr`, `dnda`, `dndr`
-30, -20, …, 30; absolute sideslip of `cl`, `cn` 0, 5, …, 30. -/

section exact
variable [Exact R]

theorem alpha_cell (alpha : K) :
    ∃ c : Cell R, alphaCell (.fin alpha) = .ok c ∧ c.InRange 12 ∧ Brackets c 12 ((alpha - -10) / 5) := by
  have e : (0.2 : Fl R) * .fin alpha = .fin (alpha / 5) := by
    rw [lit_fin 2 1 (1 / 5) (by norm_num), Fl.fin_mul_fin]; congr 1; ring
  obtain ⟨c, hc⟩ := cellOf_ok (R := R) elevenTenths_exact (-2) 9 2 (alpha / 5)
  have hc' : alphaCell (.fin alpha : Fl R) = .ok c := by rw [alphaCell, e, hc]
  have hb := cellOf_brackets (n := 12) (by norm_num) (by norm_num) (by norm_num) hc
  refine ⟨c, hc', alphaCell_range elevenTenths_exact hc', ?_⟩
  convert hb using 1
  push_cast
  ring

theorem el_cell (el : K) : ∃ c : Cell R, elCell (.fin el) = .ok c ∧ c.InRange 5 ∧ Brackets c 5 ((el - -24) / 12) := by
  have e : (Fl.fin el / 12 : Fl R) = .fin (el / 12) := by
    rw [Fl.ofNat_fin, Fl.fin_div_fin _ _ (by norm_num)]; norm_num
  obtain ⟨c, hc⟩ := cellOf_ok (R := R) elevenTenths_exact (-2) 2 2 (el / 12)
  have hc' : elCell (.fin el : Fl R) = .ok c := by rw [elCell, e, hc]
  have hb := cellOf_brackets (n := 5) (by norm_num) (by norm_num) (by norm_num) hc
  refine ⟨c, hc', elCell_range elevenTenths_exact hc', ?_⟩
  convert hb using 1
  push_cast
  ring

theorem beta_cell (beta : K) :
    ∃ c : Cell R, betaCell (.fin beta) = .ok c ∧ c.InRange 7 ∧ Brackets c 7 ((beta - -30) / 10) := by
  have e : (0.1 : Fl R) * .fin beta = .fin (beta / 10) := by
    rw [lit_fin 1 1 (1 / 10) (by norm_num), Fl.fin_mul_fin]; congr 1; ring
  obtain ⟨c, hc⟩ := cellOf_ok (R := R) elevenTenths_exact (-3) 3 3 (beta / 10)
  have hc' : betaCell (.fin beta : Fl R) = .ok c := by rw [betaCell, e, hc]
  have hb := cellOf_brackets (n := 7) (by norm_num) (by norm_num) (by norm_num) hc
  refine ⟨c, hc', betaCell_range elevenTenths_exact hc', ?_⟩
  convert hb using 1
  push_cast
  ring

theorem absBeta_cell (beta : K) :
    ∃ c : Cell R, absBetaCell (.fin beta) = .ok c ∧ c.InRange 7 ∧ Brackets c 7 ((|beta| - 0) / 5) := by
  have hs : (0.2 : Fl R) * (Fl.fin beta : Fl R).abs = .fin (|beta| / 5) := by
    rw [lit_fin 2 1 (1 / 5) (by norm_num), abs_fin, Fl.fin_mul_fin]; congr 1; ring
  obtain ⟨c, hc⟩ := absBetaCell_ok (R := R) elevenTenths_exact hs
  refine ⟨c, hc, absBetaCell_range elevenTenths_exact hc (fun k hk => ?_), ?_⟩
  · rw [hs] at hk; exact fix_nonneg (by positivity) hk
  · rw [sub_zero]; exact absBetaCell_brackets hc

theorem two_value {a : List (List ℚ)} {M : ℕ} (ha : Rect a M 12) (hM : 2 ≤ M) {x : K} {cy : Py (Cell R)} {ys ystep y : K}
    (hy : ystep ≠ 0) (hcy : ∃ c, cy = .ok c ∧ c.InRange M ∧ Brackets c M ((y - ys) / ystep)) :
    (alphaCell (.fin x : Fl R) >>= fun ca => cy >>= fun ce => lookup2 a ca ce) = .ok (.fin (interp2 (-10) 5 ys ystep a x y)) := by
  obtain ⟨c, h1, h2, h3⟩ := alpha_cell (R := R) x
  obtain ⟨d, rfl, g2, g3⟩ := hcy
  simp only [h1, bind, Except.bind]
  exact lookup2_value ha hM (by norm_num) h2 g2 (by norm_num) hy h3 g3

/-- The eight two-way table functions are the bilinear interpolants of their tables (`cl` and `cn` in the absolute sideslip,
with the sign of the sideslip). -/
theorem C59_two_way (alpha el beta : K) :
    cx (.fin alpha : Fl R) (.fin el) = .ok (.fin (interp2 (-10) 5 (-24) 12 cxTable alpha el)) ∧
    cm (.fin alpha : Fl R) (.fin el) = .ok (.fin (interp2 (-10) 5 (-24) 12 cmTable alpha el)) ∧
    cl (.fin alpha : Fl R) (.fin beta) = .ok (.fin (interp2 (-10) 5 0 5 clTable alpha |beta| * sgn beta)) ∧
    cn (.fin alpha : Fl R) (.fin beta) = .ok (.fin (interp2 (-10) 5 0 5 cnTable alpha |beta| * sgn beta)) ∧
    dlda (.fin alpha : Fl R) (.fin beta) = .ok (.fin (interp2 (-10) 5 (-30) 10 dldaTable alpha beta)) ∧
    dldr (.fin alpha : Fl R) (.fin beta) = .ok (.fin (interp2 (-10) 5 (-30) 10 dldrTable alpha beta)) ∧
    dnda (.fin alpha : Fl R) (.fin beta) = .ok (.fin (interp2 (-10) 5 (-30) 10 dndaTable alpha beta)) ∧
    dndr (.fin alpha : Fl R) (.fin beta) = .ok (.fin (interp2 (-10) 5 (-30) 10 dndrTable alpha beta)) := by
  have hsgn : ∀ v : K, (Fl.fin v : Fl R) * flInt (sign (Fl.fin beta : Fl R)) = .fin (v * sgn beta) := by
    intro v
    rw [sign_fin, flInt, Fl.fin_mul_fin, sgn]
    split_ifs <;> simp
  refine ⟨two_value cxTable_rect (by norm_num) (by norm_num) (el_cell el),
    two_value cmTable_rect (by norm_num) (by norm_num) (el_cell el), ?_, ?_,
    two_value dldaTable_rect (by norm_num) (by norm_num) (beta_cell beta),
    two_value dldrTable_rect (by norm_num) (by norm_num) (beta_cell beta),
    two_value dndaTable_rect (by norm_num) (by norm_num) (beta_cell beta),
    two_value dndrTable_rect (by norm_num) (by norm_num) (beta_cell beta)⟩
  · have := two_value (R := R) (x := alpha) clTable_rect (by norm_num) (by norm_num) (absBeta_cell beta)
    have e : cl (.fin alpha : Fl R) (.fin beta) = (alphaCell (.fin alpha : Fl R) >>= fun ca => absBetaCell (.fin beta) >>= fun ce =>
        lookup2 clTable ca ce) >>= fun dum => .ok (dum * flInt (sign (.fin beta : Fl R))) := by
      simp only [cl, bind_assoc]
    rw [e, this]
    simp only [bind, Except.bind, hsgn]
  · have := two_value (R := R) (x := alpha) cnTable_rect (by norm_num) (by norm_num) (absBeta_cell beta)
    have e : cn (.fin alpha : Fl R) (.fin beta) = (alphaCell (.fin alpha : Fl R) >>= fun ca => absBetaCell (.fin beta) >>= fun ce =>
        lookup2 cnTable ca ce) >>= fun dum => .ok (dum * flInt (sign (.fin beta : Fl R))) := by
      simp only [cn, bind_assoc]
    rw [e, this]
    simp only [bind, Except.bind, hsgn]

theorem czTable_length : czTable.length = 12 := by decide +kernel

/-- `cz` interpolates its table linearly in the angle of attack and adds the sideslip and elevator corrections; `dampp` gives the
nine linearly interpolated damping coefficients. -/
theorem C59_one_way (alpha beta el : K) :
    cz (.fin alpha : Fl R) (.fin beta) (.fin el) =
      .ok (.fin (interp (-10) 5 (czTable.map (fun q : ℚ => (q : K))) alpha * (1 - (beta / 57.3) ^ 2) - 0.19 * (el / 25))) ∧
    dampp (.fin alpha : Fl R) =
      .ok (damppTable.map fun row => .fin (interp (-10) 5 (row.map (fun q : ℚ => (q : K))) alpha)) := by
  obtain ⟨c, h1, h2, h3⟩ := alpha_cell (R := R) alpha
  constructor
  · have hv := lookup1_value (a := czTable) (c := c) (start := -10) (step := 5) (x := alpha) (by norm_num)
      (by rw [czTable_length]; norm_num) (by rw [czTable_length]; exact h2) (by rw [czTable_length]; exact h3)
    unfold cz
    simp only [bind, Except.bind, h1, hv]
    rw [lit_fin 573 1 57.3 (by norm_num), lit_fin 19 2 0.19 (by norm_num), Fl.ofNat_fin 25, Fl.fin_div_fin _ _ (by norm_num),
      Fl.fin_div_fin _ _ (by norm_num)]
    simp only [powNat, Fl.round_exact, Fl.one_fin, Fl.fin_sub_fin, Fl.fin_mul_fin]
    norm_num
  · have hv : ∀ row ∈ damppTable, lookup1 row c = .ok (.fin (interp (-10) 5 (row.map (fun q : ℚ => (q : K))) alpha)) := by
      intro row hrow
      have hl := damppTable_rect.2 row hrow
      exact lookup1_value (by norm_num) (by rw [hl]; norm_num) (by rw [hl]; exact h2) (by rw [hl]; exact h3)
    unfold dampp
    simp only [bind, Except.bind, h1]
    exact mapM_eq _ hv

/-- what the two-way table functions of the code look like: the value of the table at grid point `(i, j)` -/
structure TableSpec where
  table : List (List ℚ)
  rows : ℕ
  /-- first grid value and spacing of the second argument -/
  start : ℚ
  step : ℚ

/-- the grids of the six tables read with a signed second argument -/
def Table2.spec : Table2 → TableSpec
  | .cx => ⟨cxTable, 5, -24, 12⟩
  | .cm => ⟨cmTable, 5, -24, 12⟩
  | .cl => ⟨clTable, 7, 0, 5⟩
  | .cn => ⟨cnTable, 7, 0, 5⟩
  | .dlda => ⟨dldaTable, 7, -30, 10⟩
  | .dldr => ⟨dldrTable, 7, -30, 10⟩
  | .dnda => ⟨dndaTable, 7, -30, 10⟩
  | .dndr => ⟨dndrTable, 7, -30, 10⟩

/-- domain of the second argument: `cl` and `cn` are tabulated for positive sideslip (see C60 for the rest) -/
def Table2.Dom : Table2 → K → Prop
  | .cl, y => 0 < y
  | .cn, y => 0 < y
  | _, _ => True

theorem Table2.rect (f : Table2) : Rect f.spec.table f.spec.rows 12 ∧ 2 ≤ f.spec.rows ∧ 0 < f.spec.step := by
  cases f
  · exact ⟨cxTable_rect, by decide, by simp [Table2.spec]⟩
  · exact ⟨cmTable_rect, by decide, by simp [Table2.spec]⟩
  · exact ⟨clTable_rect, by decide, by simp [Table2.spec]⟩
  · exact ⟨cnTable_rect, by decide, by simp [Table2.spec]⟩
  · exact ⟨dldaTable_rect, by decide, by simp [Table2.spec]⟩
  · exact ⟨dldrTable_rect, by decide, by simp [Table2.spec]⟩
  · exact ⟨dndaTable_rect, by decide, by simp [Table2.spec]⟩
  · exact ⟨dndrTable_rect, by decide, by simp [Table2.spec]⟩

theorem Table2.value (f : Table2) (x y : K) (hy : f.Dom y) :
    f.eval (.fin x : Fl R) (.fin y) = .ok (.fin (interp2 (-10) 5 (f.spec.start : K) (f.spec.step : K) f.spec.table x y)) := by
  have h := C59_two_way (R := R) x y y
  cases f
  · simpa [Table2.eval, Table2.spec] using h.1
  · simpa [Table2.eval, Table2.spec] using h.2.1
  · have hy : 0 < y := hy
    have := h.2.2.1
    rw [abs_of_pos hy, sgn, if_neg (not_lt.2 hy.le), if_neg (ne_of_gt hy), mul_one] at this
    simpa [Table2.eval, Table2.spec] using this
  · have hy : 0 < y := hy
    have := h.2.2.2.1
    rw [abs_of_pos hy, sgn, if_neg (not_lt.2 hy.le), if_neg (ne_of_gt hy), mul_one] at this
    simpa [Table2.eval, Table2.spec] using this
  · simpa [Table2.eval, Table2.spec] using h.2.2.2.2.1
  · simpa [Table2.eval, Table2.spec] using h.2.2.2.2.2.1
  · simpa [Table2.eval, Table2.spec] using h.2.2.2.2.2.2.1
  · simpa [Table2.eval, Table2.spec] using h.2.2.2.2.2.2.2

/-- At a grid point each function returns the tabulated number. -/
theorem C59_grid_points (f : Table2) (i j : ℕ) (hi : i < 12) (hj : j < f.spec.rows)
    (hd : f.Dom ((f.spec.start : K) + f.spec.step * j)) :
    f.eval (.fin (-10 + 5 * i) : Fl R) (.fin (f.spec.start + f.spec.step * j)) = .ok (.fin (entry f.spec.table j i : K)) := by
  obtain ⟨hr, hm, hs⟩ := f.rect
  rw [f.value _ _ hd, interp2_grid hr.2 (by norm_num) (by rw [hr.1]; exact hm) (by norm_num) (by exact_mod_cast hs) hi
    (by rw [hr.1]; exact hj)]

/-- Inside a grid cell each function stays within every bound of the four surrounding tabulated numbers. -/
theorem C59_between (f : Table2) (i j : ℕ) (hi : i + 2 ≤ 12) (hj : j + 2 ≤ f.spec.rows) (x y : K) (hd : f.Dom y)
    (h1 : -10 + 5 * (i : K) ≤ x) (h2 : x ≤ -10 + 5 * ((i : K) + 1))
    (h3 : (f.spec.start : K) + f.spec.step * j ≤ y) (h4 : y ≤ f.spec.start + f.spec.step * (j + 1)) (lo hi' : K)
    (hb : ∀ j' i', (j' = j ∨ j' = j + 1) → (i' = i ∨ i' = i + 1) →
      lo ≤ (entry f.spec.table j' i' : K) ∧ (entry f.spec.table j' i' : K) ≤ hi') :
    ∃ v, f.eval (.fin x : Fl R) (.fin y) = .ok (.fin v) ∧ lo ≤ v ∧ v ≤ hi' := by
  obtain ⟨hr, hm, hs⟩ := f.rect
  exact ⟨_, f.value _ _ hd, interp2_between hr.2 (by norm_num) (by exact_mod_cast hs) hi (by rw [hr.1]; exact hj) h1 h2 h3 h4 hb⟩

/-- Above 40 degrees (so beyond the table's 45 degrees too) each function is affine in the angle of attack, with the slope of the last
cell, and below -5 degrees with the slope of the first cell. -/
theorem C59_extrapolates (f : Table2) (x y : K) (hd : f.Dom y) :
    (40 ≤ x → ∃ a b, f.eval (.fin 40 : Fl R) (.fin y) = .ok (.fin a) ∧ f.eval (.fin 45 : Fl R) (.fin y) = .ok (.fin b) ∧
      f.eval (.fin x : Fl R) (.fin y) = .ok (.fin (a + (x - 40) / 5 * (b - a)))) ∧
    (x ≤ -5 → ∃ a b, f.eval (.fin (-10) : Fl R) (.fin y) = .ok (.fin a) ∧ f.eval (.fin (-5) : Fl R) (.fin y) = .ok (.fin b) ∧
      f.eval (.fin x : Fl R) (.fin y) = .ok (.fin (a + (x + 10) / 5 * (b - a)))) := by
  obtain ⟨hr, hm, hs⟩ := f.rect
  have hm' : 2 ≤ f.spec.table.length := by rw [hr.1]; exact hm
  constructor
  · intro hx
    refine ⟨_, _, f.value _ _ hd, f.value _ _ hd, ?_⟩
    rw [f.value _ _ hd, interp2_affine hr.2 hm' (by norm_num) (i := 10) (by norm_num) (Or.inr (by norm_num; exact hx)) (Or.inl rfl)]
    norm_num
  · intro hx
    refine ⟨_, _, f.value _ _ hd, f.value _ _ hd, ?_⟩
    rw [f.value _ _ hd, interp2_affine hr.2 hm' (by norm_num) (i := 0) (by norm_num) (Or.inl rfl) (Or.inr (by norm_num; exact hx))]
    norm_num

/-- `cx(2.5°, 6°)` in exact arithmetic: the mean of four table entries -/
example : cx (.fin (5 / 2) : Fl ratFmt) (.fin 6) = .ok (.fin ((-0.021 + -0.004 + -0.039 + -0.025) / 4)) := by decide +kernel

/-! ## C60 -/

/-- The rolling and yawing moment coefficients are odd in the sideslip angle and vanish without sideslip. -/
theorem C60_odd (alpha beta : K) :
    (∃ v, cl (.fin alpha : Fl R) (.fin beta) = .ok (.fin v) ∧ cl (.fin alpha : Fl R) (.fin (-beta)) = .ok (.fin (-v))) ∧
    (∃ v, cn (.fin alpha : Fl R) (.fin beta) = .ok (.fin v) ∧ cn (.fin alpha : Fl R) (.fin (-beta)) = .ok (.fin (-v))) ∧
    cl (.fin alpha : Fl R) (.fin 0) = .ok (.fin 0) ∧ cn (.fin alpha : Fl R) (.fin 0) = .ok (.fin 0) := by
  have hsgn : sgn (-beta) = -sgn beta := by
    unfold sgn
    rcases lt_trichotomy beta 0 with h | h | h
    · rw [if_neg (by linarith), if_neg (by linarith), if_pos h]; ring
    · simp [h]
    · rw [if_pos (by linarith), if_neg (by linarith), if_neg (by linarith)]
  have h := C59_two_way (R := R) alpha 0 beta
  have h' := C59_two_way (R := R) alpha 0 (-beta)
  have h0 := C59_two_way (R := R) alpha 0 0
  refine ⟨⟨_, h.2.2.1, ?_⟩, ⟨_, h.2.2.2.1, ?_⟩, ?_, ?_⟩
  · rw [h'.2.2.1, abs_neg, hsgn, mul_neg]
  · rw [h'.2.2.2.1, abs_neg, hsgn, mul_neg]
  · rw [h0.2.2.1]; simp [sgn]
  · rw [h0.2.2.2.1]; simp [sgn]

end exact

/-- The same in any format that rounds symmetrically, such as binary64, errors included. -/
theorem C60_odd_rounded (hsym : ∀ x : K, (Fl.round (-x) : Fl R) = -Fl.round x) (alpha : Fl R) (beta : K) :
    cl alpha (.fin (-beta)) = (cl alpha (.fin beta)).map (fun v => -v) ∧
    cn alpha (.fin (-beta)) = (cn alpha (.fin beta)).map (fun v => -v) := by
  have habs : absBetaCell (.fin (-beta) : Fl R) = absBetaCell (.fin beta) := by
    unfold absBetaCell; rw [abs_fin, abs_fin, abs_neg]
  have hs : sign (.fin (-beta) : Fl R) = -sign (.fin beta : Fl R) := by
    simp only [sign_fin]
    rcases lt_trichotomy beta 0 with h | h | h
    · rw [if_neg (by linarith), if_neg (by linarith), if_pos h]; rfl
    · simp [h]
    · rw [if_pos (by linarith), if_neg (by linarith), if_neg (by linarith)]
  have hm : ∀ v : Fl R, v * flInt (-sign (.fin beta : Fl R)) = -(v * flInt (sign (.fin beta : Fl R))) := by
    intro v
    have := mul_neg_fin hsym v (sign (.fin beta : Fl R) : K)
    simpa [flInt] using this
  constructor
  · unfold cl
    rw [habs, hs]
    simp only [hm]
    cases alphaCell alpha with
    | error e => rfl
    | ok c =>
      cases absBetaCell (.fin beta : Fl R) with
      | error e => rfl
      | ok d =>
        change (lookup2 clTable c d >>= fun dum => .ok _) = (lookup2 clTable c d >>= fun dum => .ok _).map _
        cases lookup2 clTable c d <;> rfl
  · unfold cn
    rw [habs, hs]
    simp only [hm]
    cases alphaCell alpha with
    | error e => rfl
    | ok c =>
      cases absBetaCell (.fin beta : Fl R) with
      | error e => rfl
      | ok d =>
        change (lookup2 cnTable c d >>= fun dum => .ok _) = (lookup2 cnTable c d >>= fun dum => .ok _).map _
        cases lookup2 cnTable c d <;> rfl

theorem b64_round_neg (libm : Fmt ℚ) (x : ℚ) : (Fl.round (-x) : Fl (b64Of libm)) = -Fl.round x := by
  unfold Fl.round
  change Fl.ofExt (rndBin 53 (-1022) 1023 (-x)) = -Fl.ofExt (rndBin 53 (-1022) 1023 x)
  unfold rndBin
  simp only [nearestBin_neg]
  have hp : (0 : ℚ) < 2 ^ (1023 + 1 : ℤ) := by positivity
  generalize (2 : ℚ) ^ (1023 + 1 : ℤ) = M at *
  generalize nearestBin 53 (-1022) x = y
  by_cases h1 : M ≤ y
  · rw [if_neg (by linarith), if_pos (by linarith), if_pos h1]; rfl
  · by_cases h2 : y ≤ -M
    · rw [if_pos (by linarith), if_neg h1, if_pos h2]; rfl
    · rw [if_neg (by linarith), if_neg (by linarith), if_neg h1, if_neg h2]; rfl

/-- the hypothesis holds of binary64 -/
example (libm : Fmt ℚ) (alpha : Fl (b64Of libm)) (beta : ℚ) :
    cl alpha (.fin (-beta)) = (cl alpha (.fin beta)).map (fun v => -v) :=
  (C60_odd_rounded (b64_round_neg libm) alpha beta).1

end SAD.Aero
