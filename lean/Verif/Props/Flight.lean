import Verif.Lemmas.Flight
import Verif.Spec.Flight
import Mathlib.Analysis.SpecialFunctions.Trigonometric.Deriv
import Mathlib.LinearAlgebra.Matrix.NonsingularInverse
import Mathlib.Tactic.IntervalCases

/-! # C66, C67: the F-16 equations of motion -/

set_option linter.unusedSectionVars false

namespace SAD.Aero
open SAD Spec Real

theorem temperature_eq (alt : ℝ) : temperature alt = airTemperature alt := rfl

theorem adc_real (vt alt : ℝ) (h : 0.703e-5 * alt < 1) :
    adc (.fin vt : Fl realFmt) (.fin alt) = .ok (.fin (machNumber vt alt), .fin (dynamicPressure vt alt)) := by
  have ht := temperature_ge alt
  have hT : 0 < 1.4 * 1716.3 * temperature alt := by norm_num; linarith
  have ha : 0 < √(1.4 * 1716.3 * temperature alt) := Real.sqrt_pos.2 hT
  have hs : mathSqrt (.fin (1.4 * 1716.3 * temperature alt) : Fl realFmt) = .ok (.fin (√(1.4 * 1716.3 * temperature alt))) := by
    rw [mathSqrt_fin, if_neg (not_lt.2 hT.le)]; rfl
  have hp : 0 < 1 - 0.703e-5 * alt := by linarith
  have e : powFl (.fin (1 - 0.703e-5 * alt) : Fl realFmt) (.fin 4.14) = .fin ((1 - 0.703e-5 * alt) ^ (4.14 : ℝ)) := by
    rw [powFl_fin, if_neg (not_lt.2 hp.le), if_neg (ne_of_gt hp)]; rfl
  rw [adc_fin, hs, e]
  simp only [bind, Except.bind, Fl.fin_mul_fin, Fl.fin_div_fin _ _ (ne_of_gt ha)]
  unfold dynamicPressure machNumber airDensity
  rw [temperature_eq]
  congr 3
  norm_num
  ring

/-- the rates of change computed by the model -/
noncomputable def kRates (m : AeroModel) (s : Flight ℝ) (c : Controls ℝ) (adj : Bool) (pd : ℝ) : KOut ℝ :=
  kEquations s.vt (sin s.alpha) (cos s.alpha) (sin s.beta) (cos s.beta) (sin s.phi) (cos s.phi) (sin s.theta) (cos s.theta)
    (sin s.psi) (cos s.psi) s.p s.q s.r (dynamicPressure s.vt s.alt) (engineThrust s.power s.alt (machNumber s.vt s.alt)) pd
    (coefs π m s c) adj

theorem subf16_real (m : AeroModel) (s : Flight ℝ) (c : Controls ℝ) (adj : Bool) (h : Flyable s) :
    ∃ pd, pdot (.fin s.power : Fl realFmt) (tgear (.fin c.thtl)) = .fin pd ∧
      subf16 (toVec s.toList : Vec realFmt) (toVec c.toList) m.name adj = .ok (KOut.toFl (kRates m s c adj pd)) := by
  refine subf16_fin (R := realFmt) m s c adj _ _ (adc_real s.vt s.alt h.air) h.moving h.tilted ?_
  have e : s.vt * cos s.alpha * cos s.beta * (s.vt * cos s.alpha * cos s.beta) +
      s.vt * sin s.alpha * cos s.beta * (s.vt * sin s.alpha * cos s.beta) = s.vt ^ 2 * cos s.beta ^ 2 := by
    linear_combination (s.vt ^ 2 * cos s.beta ^ 2) * sin_sq_add_cos_sq s.alpha
  refine e.trans_ne (mul_ne_zero (pow_ne_zero _ h.moving) (pow_ne_zero _ h.forward))

theorem rates_unique {m : AeroModel} {s : Flight ℝ} {c : Controls ℝ} {adj : Bool} (h : Flyable s) {out : SubOut realFmt} {rates : List ℝ}
    (e : subf16 (toVec s.toList : Vec realFmt) (toVec c.toList) m.name adj = .ok out) (hr : out.xd = toVec rates) :
    ∃ pd, rates = (kRates m s c adj pd).xd := by
  obtain ⟨pd, _, e'⟩ := subf16_real m s c adj h
  rw [e'] at e
  cases e
  refine ⟨pd, ?_⟩
  have hi : Function.Injective (List.map (Fl.fin : ℝ → Fl realFmt)) := List.map_injective_iff.2 fun a b h => by cases h; rfl
  exact (hi hr).symm

/-- acceleration along the body axes: specific force plus gravity minus `ω × v` -/
noncomputable def bodyAcceleration (m : AeroModel) (s : Flight ℝ) (c : Controls ℝ) : Fin 3 → ℝ :=
  specificForce m s c + (attitude s).transpose.mulVec gravity - (bodyRates s).mulVec (bodyVelocity s)

theorem bodyAcceleration_eq (m : AeroModel) (s : Flight ℝ) (c : Controls ℝ) : bodyAcceleration m s c =
    ![s.r * (s.vt * sin s.beta) - s.q * (s.vt * sin s.alpha * cos s.beta) - 32.17 * sin s.theta + specificForce m s c 0,
      s.p * (s.vt * sin s.alpha * cos s.beta) - s.r * (s.vt * cos s.alpha * cos s.beta) + 32.17 * cos s.theta * sin s.phi + specificForce m s c 1,
      s.q * (s.vt * cos s.alpha * cos s.beta) - s.p * (s.vt * sin s.beta) + 32.17 * cos s.theta * cos s.phi + specificForce m s c 2] := by
  unfold bodyAcceleration
  funext i
  fin_cases i <;>
    simp [attitude, rotX, rotY, rotZ, gravity, bodyRates, bodyVelocity, Matrix.mulVec, Matrix.mul_apply, dotProduct, Fin.sum_univ_three] <;> ring

theorem wind_rates (m : AeroModel) (s : Flight ℝ) (c : Controls ℝ) (adj : Bool) (pd : ℝ) (h : Flyable s) (U V W : ℝ)
    (hU : U = bodyAcceleration m s c 0) (hV : V = bodyAcceleration m s c 1) (hW : W = bodyAcceleration m s c 2) :
    (kRates m s c adj pd).d0 = cos s.alpha * cos s.beta * U + sin s.beta * V + sin s.alpha * cos s.beta * W ∧
    (kRates m s c adj pd).d1 * (s.vt * cos s.beta) = cos s.alpha * W - sin s.alpha * U ∧
    (kRates m s c adj pd).d2 * s.vt = cos s.beta * V - sin s.beta * (cos s.alpha * U + sin s.alpha * W) := by
  rw [bodyAcceleration_eq] at hU hV hW
  simp only [specificForce, wingForce, Matrix.cons_val_zero, Matrix.cons_val_one, Matrix.cons_val] at hU hV hW
  have e0 : (kRates m s c adj pd).d0 = (s.vt * cos s.alpha * cos s.beta * U + s.vt * sin s.beta * V + s.vt * sin s.alpha * cos s.beta * W) / s.vt := by
    simp only [kRates, kEquations, hU, hV, hW, mul_assoc]
  have e1 : (kRates m s c adj pd).d1 = (s.vt * cos s.alpha * cos s.beta * W - s.vt * sin s.alpha * cos s.beta * U) /
      (s.vt * cos s.alpha * cos s.beta * (s.vt * cos s.alpha * cos s.beta) + s.vt * sin s.alpha * cos s.beta * (s.vt * sin s.alpha * cos s.beta)) := by
    simp only [kRates, kEquations, hU, hV, hW, mul_assoc]
  have e2 : (kRates m s c adj pd).d2 = (s.vt * V - s.vt * sin s.beta * (kRates m s c adj pd).d0) * cos s.beta /
      (s.vt * cos s.alpha * cos s.beta * (s.vt * cos s.alpha * cos s.beta) + s.vt * sin s.alpha * cos s.beta * (s.vt * sin s.alpha * cos s.beta)) := by
    simp only [kRates, kEquations, hV, mul_assoc]
  have hd : s.vt * cos s.alpha * cos s.beta * (s.vt * cos s.alpha * cos s.beta) +
      s.vt * sin s.alpha * cos s.beta * (s.vt * sin s.alpha * cos s.beta) = s.vt ^ 2 * cos s.beta ^ 2 := by
    linear_combination (s.vt ^ 2 * cos s.beta ^ 2) * sin_sq_add_cos_sq s.alpha
  have hv := h.moving
  have hb := h.forward
  have e0' : (kRates m s c adj pd).d0 = cos s.alpha * cos s.beta * U + sin s.beta * V + sin s.alpha * cos s.beta * W := by
    rw [e0]; field_simp
  refine ⟨e0', ?_, ?_⟩
  · rw [e1, hd]; field_simp
  · rw [e2, e0', hd]
    field_simp
    linear_combination -V * sin_sq_add_cos_sq s.beta

section
variable {m : AeroModel} {s : ℝ → Flight ℝ} {c : Controls ℝ} {adj : Bool} {t : ℝ} {out : SubOut realFmt} {rates : List ℝ}

/-- For every state (moving, not sideways, not vertical, in the atmosphere), every control and both models, `subf16_model` returns finite
numbers. -/
theorem C66_defined (m : AeroModel) (s : Flight ℝ) (c : Controls ℝ) (adj : Bool) (h : Flyable s) :
    ∃ (rates : List ℝ) (nz ny az ay : ℝ), rates.length = 13 ∧ subf16 (toVec s.toList : Vec realFmt) (toVec c.toList) m.name adj =
      .ok ⟨toVec rates, .fin nz, .fin ny, .fin az, .fin ay⟩ := by
  obtain ⟨pd, _, e⟩ := subf16_real m s c adj h
  exact ⟨(kRates m s c adj pd).xd, _, _, _, _, rfl, e⟩

/-- A motion whose derivative at some time is what `subf16_model` returns: its body velocity accelerates by the specific force plus gravity
minus `ω × v`. -/
theorem C66_body_acceleration (h : Flyable (s t))
    (e : subf16 (toVec (s t).toList : Vec realFmt) (toVec c.toList) m.name adj = .ok out) (hr : out.xd = toVec rates) (hs : HasRates s rates t) (i : Fin 3) :
    HasDerivAt (fun τ => bodyVelocity (s τ) i)
      ((specificForce m (s t) c + (attitude (s t)).transpose.mulVec gravity - (bodyRates (s t)).mulVec (bodyVelocity (s t))) i) t := by
  obtain ⟨pd, rfl⟩ := rates_unique h e hr
  obtain ⟨w0, w1, w2⟩ := wind_rates m (s t) c adj pd h _ _ _ rfl rfl rfl
  have hv : HasDerivAt (fun τ => (s τ).vt) (kRates m (s t) c adj pd).d0 t := hs.2 0
  have ha : HasDerivAt (fun τ => (s τ).alpha) (kRates m (s t) c adj pd).d1 t := hs.2 1
  have hb : HasDerivAt (fun τ => (s τ).beta) (kRates m (s t) c adj pd).d2 t := hs.2 2
  change HasDerivAt _ (bodyAcceleration m (s t) c i) t
  generalize bodyAcceleration m (s t) c = A at *
  generalize kRates m (s t) c adj pd = o at *
  have pa := sin_sq_add_cos_sq (s t).alpha
  have pb := sin_sq_add_cos_sq (s t).beta
  fin_cases i
  · refine ((hv.mul ha.cos).mul hb.cos).congr_deriv ?_
    simp only [Fin.zero_eta, Pi.mul_apply]
    linear_combination (cos (s t).alpha * cos (s t).beta) * w0 - sin (s t).alpha * w1 - cos (s t).alpha * sin (s t).beta * w2
      + (A 0) * pa + (cos (s t).alpha * (cos (s t).alpha * A 0 + sin (s t).alpha * A 2)) * pb
  · refine (hv.mul hb.sin).congr_deriv ?_
    simp only [Fin.mk_one]
    linear_combination (sin (s t).beta) * w0 + cos (s t).beta * w2 + A 1 * pb
  · refine ((hv.mul ha.sin).mul hb.cos).congr_deriv ?_
    simp only [Fin.reduceFinMk, Pi.mul_apply]
    linear_combination (sin (s t).alpha * cos (s t).beta) * w0 + cos (s t).alpha * w1 - sin (s t).alpha * sin (s t).beta * w2
      + (A 2) * pa + (sin (s t).alpha * (cos (s t).alpha * A 0 + sin (s t).alpha * A 2)) * pb

/-- The Euler-angle rates invert exactly to the body rates. -/
theorem C67_body_rates (h : Flyable (s t))
    (e : subf16 (toVec (s t).toList : Vec realFmt) (toVec c.toList) m.name adj = .ok out) (hr : out.xd = toVec rates) :
    (s t).p = rates.getD 3 0 - sin (s t).theta * rates.getD 5 0 ∧
    (s t).q = cos (s t).phi * rates.getD 4 0 + sin (s t).phi * cos (s t).theta * rates.getD 5 0 ∧
    (s t).r = -sin (s t).phi * rates.getD 4 0 + cos (s t).phi * cos (s t).theta * rates.getD 5 0 := by
  obtain ⟨pd, rfl⟩ := rates_unique h e hr
  have ht := h.tilted
  have e3 : (kRates m (s t) c adj pd).xd.getD 3 0 = (s t).p + sin (s t).theta / cos (s t).theta * ((s t).q * sin (s t).phi + (s t).r * cos (s t).phi) := rfl
  have e4 : (kRates m (s t) c adj pd).xd.getD 4 0 = (s t).q * cos (s t).phi - (s t).r * sin (s t).phi := rfl
  have e5 : (kRates m (s t) c adj pd).xd.getD 5 0 = ((s t).q * sin (s t).phi + (s t).r * cos (s t).phi) / cos (s t).theta := rfl
  have pf := sin_sq_add_cos_sq (s t).phi
  rw [e3, e4, e5]
  refine ⟨by ring, ?_, ?_⟩
  · field_simp
    linear_combination -(s t).q * pf
  · field_simp
    linear_combination -(s t).r * pf

theorem attitude_eq (s : Flight ℝ) : attitude s =
    !![cos s.theta * cos s.psi, sin s.phi * sin s.theta * cos s.psi - cos s.phi * sin s.psi, cos s.phi * sin s.theta * cos s.psi + sin s.phi * sin s.psi;
       cos s.theta * sin s.psi, sin s.phi * sin s.theta * sin s.psi + cos s.phi * cos s.psi, cos s.phi * sin s.theta * sin s.psi - sin s.phi * cos s.psi;
       -sin s.theta, sin s.phi * cos s.theta, cos s.phi * cos s.theta] := by
  ext i j
  fin_cases i <;> fin_cases j <;> simp [attitude, rotX, rotY, rotZ, Matrix.mul_apply, Fin.sum_univ_three] <;> ring

/-- Euler-angle rates of the model turn the attitude with the body rates: `d/dt R = R [ω ×]`. -/
theorem C67_attitude (h : Flyable (s t))
    (e : subf16 (toVec (s t).toList : Vec realFmt) (toVec c.toList) m.name adj = .ok out) (hr : out.xd = toVec rates) (hs : HasRates s rates t)
    (i j : Fin 3) : HasDerivAt (fun τ => attitude (s τ) i j) ((attitude (s t) * bodyRates (s t)) i j) t := by
  obtain ⟨hp, hq, hr'⟩ := C67_body_rates h e hr
  have h3 : HasDerivAt (fun τ => (s τ).phi) (rates.getD 3 0) t := hs.2 3
  have h4 : HasDerivAt (fun τ => (s τ).theta) (rates.getD 4 0) t := hs.2 4
  have h5 : HasDerivAt (fun τ => (s τ).psi) (rates.getD 5 0) t := hs.2 5
  generalize rates.getD 3 0 = d3 at *
  generalize rates.getD 4 0 = d4 at *
  generalize rates.getD 5 0 = d5 at *
  have pf := sin_sq_add_cos_sq (s t).phi
  have pt := sin_sq_add_cos_sq (s t).theta
  simp only [attitude_eq, bodyRates, hp, hq, hr']
  fin_cases i <;> fin_cases j
  · refine (h4.cos.mul h5.cos).congr_deriv ?_
    simp [Matrix.mul_apply, Fin.sum_univ_three]
    linear_combination (sin (s t).theta * cos (s t).psi * d4 + cos (s t).theta * sin (s t).psi * d5) * pf
  · refine (((h3.sin.mul h4.sin).mul h5.cos).sub (h3.cos.mul h5.sin)).congr_deriv ?_
    simp [Matrix.mul_apply, Fin.sum_univ_three]
    linear_combination (cos (s t).phi * cos (s t).psi * d5) * pt
  · refine (((h3.cos.mul h4.sin).mul h5.cos).add (h3.sin.mul h5.sin)).congr_deriv ?_
    simp [Matrix.mul_apply, Fin.sum_univ_three]
    linear_combination (-sin (s t).phi * cos (s t).psi * d5) * pt
  · refine (h4.cos.mul h5.sin).congr_deriv ?_
    simp [Matrix.mul_apply, Fin.sum_univ_three]
    linear_combination (sin (s t).theta * sin (s t).psi * d4 - cos (s t).theta * cos (s t).psi * d5) * pf
  · refine (((h3.sin.mul h4.sin).mul h5.sin).add (h3.cos.mul h5.cos)).congr_deriv ?_
    simp [Matrix.mul_apply, Fin.sum_univ_three]
    linear_combination (cos (s t).phi * sin (s t).psi * d5) * pt
  · refine (((h3.cos.mul h4.sin).mul h5.sin).sub (h3.sin.mul h5.cos)).congr_deriv ?_
    simp [Matrix.mul_apply, Fin.sum_univ_three]
    linear_combination (-sin (s t).phi * sin (s t).psi * d5) * pt
  · refine h4.sin.neg.congr_deriv ?_
    simp [Matrix.mul_apply, Fin.sum_univ_three]
    linear_combination (cos (s t).theta * d4) * pf
  · refine (h3.sin.mul h4.cos).congr_deriv ?_
    simp [Matrix.mul_apply, Fin.sum_univ_three]
    ring
  · refine (h3.cos.mul h4.cos).congr_deriv ?_
    simp [Matrix.mul_apply, Fin.sum_univ_three]
    ring

/-- The position moves with the body velocity turned into the frame of the ground. -/
theorem C67_position (h : Flyable (s t))
    (e : subf16 (toVec (s t).toList : Vec realFmt) (toVec c.toList) m.name adj = .ok out) (hr : out.xd = toVec rates) (hs : HasRates s rates t)
    (i : Fin 3) : HasDerivAt (fun τ => position (s τ) i) ((attitude (s t)).mulVec (bodyVelocity (s t)) i) t := by
  obtain ⟨pd, rfl⟩ := rates_unique h e hr
  have h9 : HasDerivAt (fun τ => (s τ).posN) (kRates m (s t) c adj pd).d9 t := hs.2 9
  have h10 : HasDerivAt (fun τ => (s τ).posE) (kRates m (s t) c adj pd).d10 t := hs.2 10
  have h11 : HasDerivAt (fun τ => (s τ).alt) (kRates m (s t) c adj pd).d11 t := hs.2 11
  rw [attitude_eq]
  fin_cases i
  · refine h9.congr_deriv ?_
    simp [kRates, kEquations, bodyVelocity, Matrix.mulVec, dotProduct, Fin.sum_univ_three]
    ring
  · refine h10.congr_deriv ?_
    simp [kRates, kEquations, bodyVelocity, Matrix.mulVec, dotProduct, Fin.sum_univ_three]
    ring
  · refine h11.neg.congr_deriv ?_
    simp [kRates, kEquations, bodyVelocity, Matrix.mulVec, dotProduct, Fin.sum_univ_three]
    ring

theorem rotX_orth (a : ℝ) : rotX a * (rotX a).transpose = 1 := by
  have := sin_sq_add_cos_sq a
  ext i j
  fin_cases i <;> fin_cases j <;> simp [rotX, Matrix.mul_apply, Fin.sum_univ_three] <;> first | linear_combination this | ring
theorem rotY_orth (a : ℝ) : rotY a * (rotY a).transpose = 1 := by
  have := sin_sq_add_cos_sq a
  ext i j
  fin_cases i <;> fin_cases j <;> simp [rotY, Matrix.mul_apply, Fin.sum_univ_three] <;> first | linear_combination this | ring
theorem rotZ_orth (a : ℝ) : rotZ a * (rotZ a).transpose = 1 := by
  have := sin_sq_add_cos_sq a
  ext i j
  fin_cases i <;> fin_cases j <;> simp [rotZ, Matrix.mul_apply, Fin.sum_univ_three] <;> first | linear_combination this | ring

theorem attitude_orth (s : Flight ℝ) : attitude s * (attitude s).transpose = 1 := by
  unfold attitude
  rw [Matrix.transpose_mul, Matrix.transpose_mul,
    show rotZ s.psi * rotY s.theta * rotX s.phi * ((rotX s.phi).transpose * ((rotY s.theta).transpose * (rotZ s.psi).transpose)) =
      rotZ s.psi * (rotY s.theta * (rotX s.phi * (rotX s.phi).transpose) * (rotY s.theta).transpose) * (rotZ s.psi).transpose by
      simp only [Matrix.mul_assoc], rotX_orth, Matrix.mul_one, rotY_orth, Matrix.mul_one, rotZ_orth]

theorem attitude_orth' (s : Flight ℝ) : (attitude s).transpose * attitude s = 1 := by
  rw [mul_eq_one_comm]; exact attitude_orth s

/-- North, east and vertical speed together have the magnitude of the airspeed. -/
theorem C67_speed (h : Flyable (s t))
    (e : subf16 (toVec (s t).toList : Vec realFmt) (toVec c.toList) m.name adj = .ok out) (hr : out.xd = toVec rates) :
    √(rates.getD 9 0 ^ 2 + rates.getD 10 0 ^ 2 + rates.getD 11 0 ^ 2) = |(s t).vt| := by
  obtain ⟨pd, rfl⟩ := rates_unique h e hr
  have e9 : (kRates m (s t) c adj pd).xd.getD 9 0 = (attitude (s t)).mulVec (bodyVelocity (s t)) 0 := by
    rw [attitude_eq]
    simp [KOut.xd, kRates, kEquations, bodyVelocity, Matrix.mulVec, dotProduct, Fin.sum_univ_three]
    ring
  have e10 : (kRates m (s t) c adj pd).xd.getD 10 0 = (attitude (s t)).mulVec (bodyVelocity (s t)) 1 := by
    rw [attitude_eq]
    simp [KOut.xd, kRates, kEquations, bodyVelocity, Matrix.mulVec, dotProduct, Fin.sum_univ_three]
    ring
  have e11 : (kRates m (s t) c adj pd).xd.getD 11 0 = -(attitude (s t)).mulVec (bodyVelocity (s t)) 2 := by
    rw [attitude_eq]
    simp [KOut.xd, kRates, kEquations, bodyVelocity, Matrix.mulVec, dotProduct, Fin.sum_univ_three]
    ring
  rw [e9, e10, e11]
  have hd : dotProduct ((attitude (s t)).mulVec (bodyVelocity (s t))) ((attitude (s t)).mulVec (bodyVelocity (s t))) =
      dotProduct (bodyVelocity (s t)) (bodyVelocity (s t)) := by
    rw [Matrix.dotProduct_mulVec, ← Matrix.mulVec_transpose, Matrix.mulVec_mulVec, attitude_orth', Matrix.one_mulVec]
  have hb : dotProduct (bodyVelocity (s t)) (bodyVelocity (s t)) = (s t).vt ^ 2 := by
    simp [bodyVelocity, dotProduct, Fin.sum_univ_three]
    linear_combination ((s t).vt ^ 2) * sin_sq_add_cos_sq (s t).beta +
      ((s t).vt ^ 2 * cos (s t).beta ^ 2) * sin_sq_add_cos_sq (s t).alpha
  rw [hb] at hd
  generalize (attitude (s t)).mulVec (bodyVelocity (s t)) = G at hd ⊢
  rw [← Real.sqrt_sq_eq_abs, ← hd]
  congr 1
  simp only [dotProduct, Fin.sum_univ_three]
  ring

/-- Newton's second law in the frame of the ground: the velocity over ground changes by the specific force plus gravity. -/
theorem C66_newton (h : Flyable (s t))
    (e : subf16 (toVec (s t).toList : Vec realFmt) (toVec c.toList) m.name adj = .ok out) (hr : out.xd = toVec rates) (hs : HasRates s rates t)
    (i : Fin 3) : HasDerivAt (fun τ => (attitude (s τ)).mulVec (bodyVelocity (s τ)) i)
      (((attitude (s t)).mulVec (specificForce m (s t) c) + gravity) i) t := by
  have hv := C66_body_acceleration h e hr hs
  have hR := C67_attitude h e hr hs
  have hsum : HasDerivAt (fun τ => ∑ j, attitude (s τ) i j * bodyVelocity (s τ) j)
      (∑ j, ((attitude (s t) * bodyRates (s t)) i j * bodyVelocity (s t) j + attitude (s t) i j *
        (specificForce m (s t) c + (attitude (s t)).transpose.mulVec gravity - (bodyRates (s t)).mulVec (bodyVelocity (s t))) j)) t :=
    HasDerivAt.fun_sum fun j _ => (hR i j).mul (hv j)
  refine hsum.congr_deriv ?_
  rw [Finset.sum_add_distrib]
  change (attitude (s t) * bodyRates (s t)).mulVec (bodyVelocity (s t)) i + (attitude (s t)).mulVec (_ + _ - _) i = _
  rw [Matrix.mulVec_sub, Matrix.mulVec_add, Matrix.mulVec_mulVec, Matrix.mulVec_mulVec, attitude_orth, Matrix.one_mulVec]
  simp only [Pi.add_apply, Pi.sub_apply]
  ring

/-- The accelerometer outputs: the specific force at the pilot's station, 15 ft ahead of the centre of gravity, and in units of `g`
(normal load factor counted upwards and without the 1 g of level flight). -/
theorem C66_outputs (m : AeroModel) (s : Flight ℝ) (c : Controls ℝ) (adj : Bool) (h : Flyable s) {out : SubOut realFmt} {rates : List ℝ}
    (e : subf16 (toVec s.toList : Vec realFmt) (toVec c.toList) m.name adj = .ok out) (hr : out.xd = toVec rates) :
    out.az = .fin (specificForce m s c 2 - 15 * rates.getD 7 0) ∧
    out.ay = .fin (if adj then specificForce m s c 1 + 15 * rates.getD 8 0 else specificForce m s c 1) ∧
    out.nz = .fin (-(specificForce m s c 2 - 15 * rates.getD 7 0) / 32.17 - 1) ∧
    out.ny = .fin ((if adj then specificForce m s c 1 + 15 * rates.getD 8 0 else specificForce m s c 1) / 32.17) := by
  obtain ⟨pd, rfl⟩ := rates_unique h e hr
  obtain ⟨pd', _, e'⟩ := subf16_real m s c adj h
  rw [e'] at e
  cases e
  have e7 : (kRates m s c adj pd).xd.getD 7 0 = (kRates m s c adj pd').d7 := rfl
  have e8 : (kRates m s c adj pd).xd.getD 8 0 = (kRates m s c adj pd').d8 := rfl
  rw [e7, e8]
  generalize h7 : (kRates m s c adj pd').d7 = d7
  generalize h8 : (kRates m s c adj pd').d8 = d8
  have F1 : specificForce m s c 1 = 1.57e-3 * (dynamicPressure s.vt s.alt * 300) * (coefs π m s c).cy := by
    change 1.57e-3 * (dynamicPressure s.vt s.alt * 300 * (coefs π m s c).cy) = _
    ring
  have F2 : specificForce m s c 2 = 1.57e-3 * (dynamicPressure s.vt s.alt * 300) * (coefs π m s c).cz := by
    change 1.57e-3 * (dynamicPressure s.vt s.alt * 300 * (coefs π m s c).cz) = _
    ring
  rw [F1, F2]
  have haz : (kRates m s c adj pd').az = 1.57e-3 * (dynamicPressure s.vt s.alt * 300) * (coefs π m s c).cz - 15 * d7 := by rw [← h7]; rfl
  have hay : (kRates m s c adj pd').ay = if adj then 1.57e-3 * (dynamicPressure s.vt s.alt * 300) * (coefs π m s c).cy + 15 * d8
      else 1.57e-3 * (dynamicPressure s.vt s.alt * 300) * (coefs π m s c).cy := by rw [← h8]; rfl
  refine ⟨?_, ?_, ?_, ?_⟩
  · rw [← haz]; rfl
  · rw [← hay]; rfl
  · rw [← haz]; rfl
  · rw [← hay]; rfl

/-- Pointing straight up or down, `subf16_model` raises ZeroDivisionError. -/
theorem C67_vertical (m : AeroModel) (s : Flight ℝ) (c : Controls ℝ) (adj : Bool) (hv : s.vt ≠ 0) (ht : cos s.theta = 0) :
    subf16 (toVec s.toList : Vec realFmt) (toVec c.toList) m.name adj = .error .zeroDivisionError := by
  obtain ⟨_, a, _, _, _, _, hq⟩ := C63_air_data s.alt
  obtain ⟨q, hq⟩ := hq s.vt
  have hm : m.name = "stevens" ∨ m.name = "morelli" := by cases m <;> simp [AeroModel.name]
  unfold subf16
  rw [if_pos hm, toVec_flight, toVec_controls]
  simp only [hq, bind, Except.bind, C64_value, sci_fin, Fl.fin_mul_fin, buildUp_fin m _ _ _ _ _ _ _ _ _ hv, addDamping_fin _ _ _ _ _ _ hv]
  have hpd : pyDiv (.fin (realFmt.sin s.theta) : Fl realFmt) (.fin (realFmt.cos s.theta)) = .error .zeroDivisionError := by
    have : realFmt.cos s.theta = 0 := ht
    rw [this]
    unfold pyDiv
    rw [if_pos (by simp [Fl.eqb, Fl.zero_fin])]
  unfold stateEquations
  simp only [mathCos, mathSin, bind, Except.bind, hpd]

end

/-- level flight at 502 ft/s, 1000 ft -/
noncomputable def cruise : Flight ℝ := ⟨502, 0.0389, 0, 0, 0.0389, 0, 0, 0, 0, 0, 0, 1000, 9.0567⟩
/-- a banked turn with sideslip -/
noncomputable def turning : Flight ℝ := ⟨600, 0.1, 0.05, 0.5, 0.1, 1, 0.1, 0.2, 0.3, 10, 20, 5000, 60⟩

theorem cos_pos_of_small {x : ℝ} (h0 : 0 ≤ x) (h1 : x ≤ 1) : 0 < cos x :=
  Real.cos_pos_of_mem_Ioo ⟨by linarith [Real.pi_pos], by linarith [Real.pi_gt_three]⟩

theorem turning_flyable : Flyable turning where
  moving := by norm_num [turning]
  forward := (cos_pos_of_small (by norm_num [turning]) (by norm_num [turning])).ne'
  tilted := (cos_pos_of_small (by norm_num [turning]) (by norm_num [turning])).ne'
  air := by norm_num [turning]

theorem cruise_flyable : Flyable cruise where
  moving := by norm_num [cruise]
  forward := (cos_pos_of_small (by norm_num [cruise]) (by norm_num [cruise])).ne'
  tilted := (cos_pos_of_small (by norm_num [cruise]) (by norm_num [cruise])).ne'
  air := by norm_num [cruise]

/-- the straight line in state space through a state with the given rates -/
noncomputable def straight (s₀ : Flight ℝ) (o : KOut ℝ) (τ : ℝ) : Flight ℝ :=
  ⟨s₀.vt + τ * o.d0, s₀.alpha + τ * o.d1, s₀.beta + τ * o.d2, s₀.phi + τ * o.d3, s₀.theta + τ * o.d4,
    s₀.psi + τ * o.d5, s₀.p + τ * o.d6, s₀.q + τ * o.d7, s₀.r + τ * o.d8, s₀.posN + τ * o.d9, s₀.posE + τ * o.d10, s₀.alt + τ * o.d11,
    s₀.power + τ * o.d12⟩

theorem straight_zero (s₀ : Flight ℝ) (o : KOut ℝ) : straight s₀ o 0 = s₀ := by simp [straight]

theorem straight_rates (s₀ : Flight ℝ) (o : KOut ℝ) : HasRates (straight s₀ o) o.xd 0 := by
  have line : ∀ a b : ℝ, HasDerivAt (fun τ : ℝ => a + τ * b) b 0 := fun a b =>
    (((hasDerivAt_id (0 : ℝ)).mul_const b).const_add a).congr_deriv (by simp)
  refine ⟨rfl, fun i => ?_⟩
  by_cases hi : i < 13
  · interval_cases i
    · exact line _ o.d0
    · exact line _ o.d1
    · exact line _ o.d2
    · exact line _ o.d3
    · exact line _ o.d4
    · exact line _ o.d5
    · exact line _ o.d6
    · exact line _ o.d7
    · exact line _ o.d8
    · exact line _ o.d9
    · exact line _ o.d10
    · exact line _ o.d11
    · exact line _ o.d12
  · have e1 : ∀ f : Flight ℝ, f.toList.getD i 0 = 0 := fun f => by
      rw [List.getD_eq_getElem?_getD, List.getElem?_eq_none (by simpa [Flight.toList] using not_lt.1 hi)]; rfl
    have e2 : o.xd.getD i 0 = 0 := by
      rw [List.getD_eq_getElem?_getD, List.getElem?_eq_none (by simpa [KOut.xd] using not_lt.1 hi)]; rfl
    rw [e2]
    simp only [e1]
    exact hasDerivAt_const _ _

/-- Every flyable state lies on a motion with the rates computed there (a straight line in state space), so the theorems about motions
speak about every flyable state. -/
theorem motion_exists (m : AeroModel) (s₀ : Flight ℝ) (c : Controls ℝ) (adj : Bool) (h : Flyable s₀) :
    ∃ (s : ℝ → Flight ℝ) (out : SubOut realFmt) (rates : List ℝ), s 0 = s₀ ∧
      subf16 (toVec (s 0).toList : Vec realFmt) (toVec c.toList) m.name adj = .ok out ∧ out.xd = toVec rates ∧ HasRates s rates 0 := by
  obtain ⟨pd, _, e⟩ := subf16_real m s₀ c adj h
  refine ⟨straight s₀ (kRates m s₀ c adj pd), KOut.toFl (kRates m s₀ c adj pd), (kRates m s₀ c adj pd).xd, straight_zero _ _, ?_, rfl,
    straight_rates _ _⟩
  rw [straight_zero]
  exact e

example : ∃ (s : ℝ → Flight ℝ) (out : SubOut realFmt) (rates : List ℝ), Flyable (s 0) ∧
    subf16 (toVec (s 0).toList : Vec realFmt) (toVec (Controls.mk 0.5 (-1) 2 3).toList) "morelli" = .ok out ∧ out.xd = toVec rates ∧
    HasRates s rates 0 := by
  obtain ⟨s, out, rates, h0, e, hr, hs⟩ := motion_exists .morelli turning ⟨0.5, -1, 2, 3⟩ true turning_flyable
  exact ⟨s, out, rates, h0 ▸ turning_flyable, e, hr, hs⟩

example : cos ({ cruise with theta := π / 2 } : Flight ℝ).theta = 0 := Real.cos_pi_div_two

end SAD.Aero
