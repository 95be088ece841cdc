import Verif.Spec.Finite
import Verif.Lemmas.F16
import Verif.Props.Aero
import Verif.Props.Engine

/-! # The F-16 equations of motion in exact arithmetic -/

set_option linter.unusedSectionVars false

namespace SAD.Aero
open SAD Spec

variable {K : Type} {R : Fmt K} [Field K] [LinearOrder K] [IsStrictOrderedRing K] [FloorRing K] [Exact R]

def Coef.toFl (c : Coef K) : Coefs R := ⟨.fin c.cx, .fin c.cy, .fin c.cz, .fin c.cl, .fin c.cm, .fin c.cn⟩

theorem pyMax_fin (a b : K) : Fl.pyMax (.fin a : Fl R) (.fin b) = .fin (max a b) := by
  unfold Fl.pyMax
  simp only [Fl.fin_lt_fin]
  split_ifs with h
  · rw [max_eq_right h.le]
  · rw [max_eq_left (not_lt.1 h)]

theorem pyMin_fin (a b : K) : Fl.pyMin (.fin a : Fl R) (.fin b) = .fin (min a b) := by
  unfold Fl.pyMin
  simp only [Fl.fin_lt_fin]
  split_ifs with h
  · rw [min_eq_right h.le]
  · rw [min_eq_left (not_lt.1 h)]

theorem n180 : (180 : Fl R) = .fin 180 := by rw [Fl.ofNat_fin]; norm_num

theorem clampDeg_fin (lo hi x : K) : clampDeg (.fin lo : Fl R) (.fin hi) (.fin x) =
    .fin (max (lo * R.pi / 180) (min (hi * R.pi / 180) x)) := by
  unfold clampDeg
  rw [n180, Fl.pi, Fl.fin_mul_fin, Fl.fin_mul_fin, Fl.fin_div_fin _ _ (by norm_num), Fl.fin_div_fin _ _ (by norm_num), pyMin_fin, pyMax_fin]

theorem rad_fin (x : K) : (.fin x : Fl R) * Fl.pi / 180 = .fin (x * R.pi / 180) := by
  rw [n180, Fl.pi, Fl.fin_mul_fin, Fl.fin_div_fin _ _ (by norm_num)]

theorem morellif16_fin (alpha beta el ail rdr p q r vt : K) (hv : vt ≠ 0) :
    morellif16 ((.fin alpha : Fl R) * Fl.pi / 180) (.fin beta * Fl.pi / 180) (.fin el * Fl.pi / 180) (.fin ail * Fl.pi / 180)
      (.fin rdr * Fl.pi / 180) (.fin p) (.fin q) (.fin r) 11.32 30 (.fin vt) 0.35 0.35
      = Coef.toFl (morelli R.pi alpha beta el ail rdr p q r vt) := by
  have e10 : (10 : Fl R) = .fin 10 := by rw [Fl.ofNat_fin]; norm_num
  have e45 : (45 : Fl R) = .fin 45 := by rw [Fl.ofNat_fin]; norm_num
  have e30 : (30 : Fl R) = .fin 30 := by rw [Fl.ofNat_fin]; norm_num
  have e25 : (25 : Fl R) = .fin 25 := by rw [Fl.ofNat_fin]; norm_num
  have h2v : 2 * vt ≠ 0 := mul_ne_zero two_ne_zero hv
  simp only [rad_fin]
  unfold morellif16
  simp only [e10, e45, e30, e25, sci_fin, Fl.neg_fin, clampDeg_fin, Fl.two_fin, Fl.fin_mul_fin, Fl.fin_div_fin _ _ h2v,
    Fl.fin_sub_fin, sub_self, Fl.fin_div_fin _ _ (show (30 : K) ≠ 0 by norm_num)]
  generalize hA : max (-10 * R.pi / 180) (min (45 * R.pi / 180) (alpha * R.pi / 180)) = A
  generalize hB : max (-30 * R.pi / 180) (min (30 * R.pi / 180) (beta * R.pi / 180)) = B
  generalize hE : max (-25 * R.pi / 180) (min (25 * R.pi / 180) (el * R.pi / 180)) = E
  generalize hD : max (-21.5 * R.pi / 180) (min (21.5 * R.pi / 180) (ail * R.pi / 180)) = D
  generalize hQ : max (-30 * R.pi / 180) (min (30 * R.pi / 180) (rdr * R.pi / 180)) = Q
  have hCy : morelliCy0 (.fin B) (.fin D) (.fin Q) = (.fin (-1.145916 * B + 6.016057e-2 * D + 1.642479e-1 * Q) : Fl R) := by
    unfold morelliCy0
    simp only [sci_fin, Fl.neg_fin, Fl.fin_mul_fin, Fl.fin_add_fin]
  simp only [morelliCx0_fin, morelliCxq_fin A B, hCy, morelliCyp_fin A B, morelliCyr_fin A B, morelliCz0_fin, morelliCzq_fin A B,
    morelliCl0_fin, morelliClp_fin A B, morelliClr_fin A B, morelliClda_fin, morelliCldr_fin, morelliCm0_fin, morelliCmq_fin A B,
    morelliCn0_fin, morelliCnp_fin A B, morelliCnr_fin A B, morelliCnda_fin, morelliCndr_fin, Fl.fin_mul_fin, Fl.fin_add_fin,
    Fl.fin_sub_fin]
  unfold Coef.toFl morelli limitedRad
  simp only [hA, hB, hE, hD, hQ, Coefs.mk.injEq, Fl.fin.injEq]
  refine ⟨by ring, by ring, by ring, by ring, by ring, by ring⟩

/-- the coefficients before damping -/
def modelCoef (pi : K) (m : AeroModel) (alpha beta el ail rdr p q r vt : K) : Coef K :=
  match m with
    | .stevens => stevens alpha beta el ail rdr
    | .morelli => morelli pi alpha beta el ail rdr p q r vt

theorem buildUp_fin (m : AeroModel) (alpha beta el ail rdr p q r vt : K) (hv : vt ≠ 0) :
    buildUp m.name (.fin alpha : Fl R) (.fin beta) (.fin el) (.fin ail) (.fin rdr) (.fin p) (.fin q) (.fin r) (.fin vt)
      = .ok (Coef.toFl (modelCoef R.pi m alpha beta el ail rdr p q r vt)) := by
  cases m with
  | morelli =>
    unfold buildUp
    rw [if_neg (by simp [AeroModel.name]), morellif16_fin _ _ _ _ _ _ _ _ _ hv]
    rfl
  | stevens =>
    unfold buildUp
    rw [if_pos (by simp [AeroModel.name])]
    obtain ⟨h1, h2, h3, h4, h5, h6, h7, h8⟩ := C59_two_way (R := R) alpha el beta
    obtain ⟨g1, -⟩ := C59_one_way (R := R) alpha beta el
    have e20 : (20 : Fl R) = .fin 20 := by rw [Fl.ofNat_fin]; norm_num
    have e30 : (30 : Fl R) = .fin 30 := by rw [Fl.ofNat_fin]; norm_num
    have hcy : cy (.fin beta : Fl R) (.fin ail) (.fin rdr) = .fin (-0.02 * beta + 0.021 * (ail / 20) + 0.086 * (rdr / 30)) := by
      unfold cy
      simp only [e20, e30, sci_fin, Fl.neg_fin, Fl.fin_mul_fin, Fl.fin_div_fin _ _ (show (30 : K) ≠ 0 by norm_num),
        Fl.fin_div_fin _ _ (show (20 : K) ≠ 0 by norm_num), Fl.fin_add_fin]
    simp only [h1, h2, h3, h4, h5, h6, h7, h8, g1, hcy, bind, Except.bind, e20, e30, Fl.fin_div_fin _ _ (show (30 : K) ≠ 0 by norm_num),
        Fl.fin_div_fin _ _ (show (20 : K) ≠ 0 by norm_num), Fl.fin_mul_fin, Fl.fin_add_fin]
    rfl

theorem damp_get (alpha : K) (i : ℕ) (h : i < 9) :
    getIdx (damppTable.map fun row => (.fin (interp (-10) 5 (row.map (fun q : ℚ => (q : K))) alpha) : Fl R)) i = .ok (.fin (damping alpha i)) := by
  have hl : i < damppTable.length := h
  unfold getIdx
  rw [List.getElem?_map, List.getElem?_eq_getElem hl]
  simp only [Option.map_some, damping, asK, List.getD_eq_getElem?_getD, List.getElem?_eq_getElem hl, Option.getD_some]

theorem addDamping_fin (c : Coef K) (alpha p q r vt : K) (hv : vt ≠ 0) :
    addDamping (Coef.toFl c : Coefs R) (.fin alpha) (.fin p) (.fin q) (.fin r) (.fin vt) = .ok (Coef.toFl (total c alpha p q r vt)) := by
  obtain ⟨-, g2⟩ := C59_one_way (R := R) alpha 0 0
  have e30 : (30 : Fl R) = .fin 30 := by rw [Fl.ofNat_fin]; norm_num
  unfold addDamping
  simp only [g2, bind, Except.bind, damp_get _ 0 (by norm_num), damp_get _ 1 (by norm_num), damp_get _ 2 (by norm_num),
    damp_get _ 3 (by norm_num), damp_get _ 4 (by norm_num), damp_get _ 5 (by norm_num), damp_get _ 6 (by norm_num),
    damp_get _ 7 (by norm_num), damp_get _ 8 (by norm_num)]
  simp only [Coef.toFl, e30, sci_fin, Fl.neg_fin, Fl.fin_mul_fin, Fl.fin_div_fin _ _ hv, Fl.fin_div_fin _ _ (show (30 : K) ≠ 0 by norm_num),
    Fl.fin_sub_fin, sub_self, Fl.fin_add_fin, mul_zero, zero_mul, zero_div, add_zero, sub_zero, Except.ok.injEq, Coefs.mk.injEq, Fl.fin.injEq]
  have half : (0.5 : K) / vt = 1 / (2 * vt) := by field_simp; norm_num
  simp only [total, half]
  refine ⟨?_, ?_, ?_, ?_, ?_, ?_⟩ <;> ring

/-- the results of `subf16_model` as numbers -/
structure KOut (K : Type) where
  d0 : K
  d1 : K
  d2 : K
  d3 : K
  d4 : K
  d5 : K
  d6 : K
  d7 : K
  d8 : K
  d9 : K
  d10 : K
  d11 : K
  d12 : K
  nz : K
  ny : K
  az : K
  ay : K

def KOut.xd (o : KOut K) : List K := [o.d0, o.d1, o.d2, o.d3, o.d4, o.d5, o.d6, o.d7, o.d8, o.d9, o.d10, o.d11, o.d12]

def KOut.toFl (o : KOut K) : SubOut R := ⟨o.xd.map .fin, .fin o.nz, .fin o.ny, .fin o.az, .fin o.ay⟩

/-- the state equations over a field, with the sines and cosines given -/
def kEquations (vt sa ca sb cb sph cph sth cth spsi cpsi p q r qbar t pd : K) (c : Coef K) (adj : Bool) : KOut K :=
  let g : K := 32.17
  let u := vt * ca * cb
  let v := vt * sb
  let w := vt * sa * cb
  let qs := qbar * 300
  let qsb := qs * 30
  let udot := r * v - q * w - g * sth + 1.57e-3 * (qs * c.cx + t)
  let vdot := p * w - r * u + g * cth * sph + 1.57e-3 * qs * c.cy
  let wdot := q * u - p * v + g * cth * cph + 1.57e-3 * qs * c.cz
  let dum := u * u + w * w
  let d0 := (u * udot + v * vdot + w * wdot) / vt
  let d7 := (0.9604 * p - 1.792e-5 * 160) * r + 1.759e-2 * (r * r - p * p) + qs * 11.32 * 1.792e-5 * c.cm
  let d8 := (-0.7336 * p - 0.02755 * r + 1.587e-5 * 160) * q + qsb * (1.642e-6 * c.cl + 1.587e-5 * c.cn)
  let az := 1.57e-3 * qs * c.cz - 15 * d7
  let ay := if adj then 1.57e-3 * qs * c.cy + 15 * d8 else 1.57e-3 * qs * c.cy
  { d0 := d0
    d1 := (u * wdot - w * udot) / dum
    d2 := (vt * vdot - v * d0) * cb / dum
    d3 := p + sth / cth * (q * sph + r * cph)
    d4 := q * cph - r * sph
    d5 := (q * sph + r * cph) / cth
    d6 := (0.02755 * p + -0.770 * r + 1.642e-6 * 160) * q + qsb * (1.055e-4 * c.cl + 1.642e-6 * c.cn)
    d7 := d7
    d8 := d8
    d9 := u * (cth * cpsi) + v * (sph * cpsi * sth - cph * spsi) + w * (cph * sth * cpsi + sph * spsi)
    d10 := u * (cth * spsi) + v * (sph * spsi * sth + cph * cpsi) + w * (cph * sth * spsi - sph * cpsi)
    d11 := u * sth - v * (sph * cth) - w * (cph * cth)
    d12 := pd
    nz := -az / g - 1
    ny := ay / g
    az := az
    ay := ay }

theorem stateEquations_fin (vt x1 x2 phi theta psi p q r qbar t pd : K) (c : Coef K) (adj : Bool) (hv : vt ≠ 0)
    (hth : R.cos theta ≠ 0)
    (hdum : vt * R.cos x1 * R.cos x2 * (vt * R.cos x1 * R.cos x2) + vt * R.sin x1 * R.cos x2 * (vt * R.sin x1 * R.cos x2) ≠ 0) :
    stateEquations (.fin vt : Fl R) (.fin x1) (.fin x2) (.fin phi) (.fin theta) (.fin psi) (.fin p) (.fin q) (.fin r) (.fin qbar) (.fin t)
      (.fin pd) (Coef.toFl c) adj = .ok (KOut.toFl (kEquations vt (R.sin x1) (R.cos x1) (R.sin x2) (R.cos x2) (R.sin phi) (R.cos phi)
        (R.sin theta) (R.cos theta) (R.sin psi) (R.cos psi) p q r qbar t pd c adj)) := by
  have e300 : (300 : Fl R) = .fin 300 := by rw [Fl.ofNat_fin]; norm_num
  have e30 : (30 : Fl R) = .fin 30 := by rw [Fl.ofNat_fin]; norm_num
  have e160 : (160 : Fl R) = .fin 160 := by rw [Fl.ofNat_fin]; norm_num
  have e15 : (15 : Fl R) = .fin 15 := by rw [Fl.ofNat_fin]; norm_num
  have hg : (32.17 : K) ≠ 0 := by norm_num
  have hpd : pyDiv (.fin (R.sin theta) : Fl R) (.fin (R.cos theta)) = .ok (.fin (R.sin theta / R.cos theta)) := by
    unfold pyDiv
    rw [if_neg (by simp [Fl.eqb, hth]), Fl.fin_div_fin _ _ hth]
  unfold stateEquations
  simp only [mathCos, mathSin, bind, Except.bind, Coef.toFl, e300, e30, e160, e15, sci_fin, Fl.one_fin, Fl.neg_fin, Fl.fin_mul_fin,
    Fl.fin_add_fin, Fl.fin_sub_fin, Fl.fin_div_fin _ _ hv, Fl.fin_div_fin _ _ hth, Fl.fin_div_fin _ _ hdum, hpd]
  cases adj
  · simp only [Bool.false_eq_true, if_false, Fl.neg_fin, Fl.fin_div_fin _ _ hg, Fl.fin_sub_fin]
    rfl
  · simp only [if_true, Fl.neg_fin, Fl.fin_div_fin _ _ hg, Fl.fin_sub_fin]
    rfl


theorem toVec_flight (s : Flight K) : (toVec s.toList : Vec R) = [.fin s.vt, .fin s.alpha, .fin s.beta, .fin s.phi, .fin s.theta, .fin s.psi,
    .fin s.p, .fin s.q, .fin s.r, .fin s.posN, .fin s.posE, .fin s.alt, .fin s.power] := rfl
theorem toVec_controls (c : Controls K) : (toVec c.toList : Vec R) = [.fin c.thtl, .fin c.el, .fin c.ail, .fin c.rdr] := rfl

/-- the thrust spec -/
def thrustValue (power alt mach : K) : K :=
  if power < 50 then thrustAt thrustIdle alt mach + (thrustAt thrustMil alt mach - thrustAt thrustIdle alt mach) * (power / 50)
      else thrustAt thrustMil alt mach + (thrustAt thrustMax alt mach - thrustAt thrustMil alt mach) * ((power - 50) / 50)

theorem subf16_fin (m : AeroModel) (s : Flight K) (c : Controls K) (adj : Bool) (mach qbar : K)
    (hadc : adc (.fin s.vt : Fl R) (.fin s.alt) = .ok (.fin mach, .fin qbar)) (hv : s.vt ≠ 0) (hth : R.cos s.theta ≠ 0)
    (hdum : s.vt * R.cos s.alpha * R.cos s.beta * (s.vt * R.cos s.alpha * R.cos s.beta) +
      s.vt * R.sin s.alpha * R.cos s.beta * (s.vt * R.sin s.alpha * R.cos s.beta) ≠ 0) :
    ∃ pd, pdot (.fin s.power : Fl R) (tgear (.fin c.thtl)) = .fin pd ∧
    subf16 (toVec s.toList : Vec R) (toVec c.toList) m.name adj = .ok (KOut.toFl (kEquations s.vt (R.sin s.alpha) (R.cos s.alpha)
      (R.sin s.beta) (R.cos s.beta) (R.sin s.phi) (R.cos s.phi) (R.sin s.theta) (R.cos s.theta) (R.sin s.psi) (R.cos s.psi)
      s.p s.q s.r qbar (thrustValue s.power s.alt mach) pd (coefs R.pi m s c) adj)) := by
  obtain ⟨rate, target, hp, -⟩ := pdot_fin (R := R) s.power (if c.thtl ≤ 0.77 then 64.94 * c.thtl else 217.38 * c.thtl - 117.38)
  rw [← tgear_fin] at hp
  refine ⟨_, hp, ?_⟩
  have hm : m.name = "stevens" ∨ m.name = "morelli" := by cases m <;> simp [AeroModel.name]
  unfold subf16
  rw [if_pos hm, toVec_flight, toVec_controls]
  simp only [hadc, bind, Except.bind, C64_value, sci_fin, Fl.fin_mul_fin, buildUp_fin m _ _ _ _ _ _ _ _ _ hv, addDamping_fin _ _ _ _ _ _ hv,
    stateEquations_fin _ _ _ _ _ _ _ _ _ _ _ _ _ _ hv hth hdum, hp]
  rfl

end SAD.Aero
