import Verif.Props.Flight

/-! # C75-C78: energy, rotational dynamics, engine and invariances of the F-16 model -/

set_option linter.unusedSectionVars false

namespace SAD.Spec
open SAD SAD.Aero Real

/-- moments of inertia of the aircraft (slug ft²), Stevens & Lewis, table of mass properties -/
def inertia : Matrix (Fin 3) (Fin 3) ℝ := !![9496, 0, -982; 0, 55814, 0; -982, 0, 63100]

/-- angular momentum of the engine along the first body axis (slug ft²/s) -/
def engineMomentum : Fin 3 → ℝ := ![160, 0, 0]

/-- aerodynamic moments about the body axes (ft lb): wing span 30 ft, mean chord 11.32 ft -/
noncomputable def moments (m : AeroModel) (s : Flight ℝ) (c : Controls ℝ) : Fin 3 → ℝ :=
  ![wingForce s * 30 * (coefs π m s c).cl, wingForce s * 11.32 * (coefs π m s c).cm, wingForce s * 30 * (coefs π m s c).cn]

/-- the body rates as a vector -/
def rateVec (s : Flight ℝ) : Fin 3 → ℝ := ![s.p, s.q, s.r]

/-- Euler's equation of a rigid body with a spinning engine: the angular momentum `I ω + h` changes by the moments. -/
def RigidBody (m : AeroModel) (s : Flight ℝ) (c : Controls ℝ) (acc : Fin 3 → ℝ) : Prop :=
  inertia.mulVec acc + (bodyRates s).mulVec (inertia.mulVec (rateVec s) + engineMomentum) = moments m s c

end SAD.Spec

namespace SAD.Aero
open SAD Spec Real

section
variable {m : AeroModel} {s : ℝ → Flight ℝ} {c : Controls ℝ} {adj : Bool} {t : ℝ} {out : SubOut realFmt} {rates : List ℝ}

/-- C75: the energy of the aircraft changes by the power of the aerodynamic and propulsive force. -/
theorem C75_energy_rate (h : Flyable (s t))
    (e : subf16 (toVec (s t).toList : Vec realFmt) (toVec c.toList) m.name adj = .ok out) (hr : out.xd = toVec rates) (hs : HasRates s rates t) :
    HasDerivAt (fun τ => specificEnergy (s τ)) (dotProduct (specificForce m (s t) c) (bodyVelocity (s t))) t := by
  obtain ⟨pd, rfl⟩ := rates_unique h e hr
  obtain ⟨w0, -, -⟩ := wind_rates m (s t) c adj pd h _ _ _ rfl rfl rfl
  have hv : HasDerivAt (fun τ => (s τ).vt) (kRates m (s t) c adj pd).d0 t := hs.2 0
  have ha : HasDerivAt (fun τ => (s τ).alt) (kRates m (s t) c adj pd).d11 t := hs.2 11
  have e11 : (kRates m (s t) c adj pd).d11 = (s t).vt * cos (s t).alpha * cos (s t).beta * sin (s t).theta -
      (s t).vt * sin (s t).beta * (sin (s t).phi * cos (s t).theta) - (s t).vt * sin (s t).alpha * cos (s t).beta * (cos (s t).phi * cos (s t).theta) := rfl
  unfold specificEnergy
  refine (((hv.pow 2).const_mul (1 / 2 : ℝ)).add (ha.const_mul (32.17 : ℝ))).congr_deriv ?_
  rw [bodyAcceleration_eq] at w0
  simp only [Matrix.cons_val_zero, Matrix.cons_val_one, Matrix.cons_val] at w0
  rw [w0, e11]
  simp only [bodyVelocity, dotProduct, Fin.sum_univ_three, Matrix.cons_val_zero, Matrix.cons_val_one, Matrix.cons_val]
  push_cast
  ring

end

/-- the aircraft loses energy exactly when the force opposes the motion -/
theorem C75_loses_energy {m : AeroModel} {s : ℝ → Flight ℝ} {c : Controls ℝ} {adj : Bool} {t : ℝ} {out : SubOut realFmt} {rates : List ℝ}
    (h : Flyable (s t)) (e : subf16 (toVec (s t).toList : Vec realFmt) (toVec c.toList) m.name adj = .ok out) (hr : out.xd = toVec rates)
    (hs : HasRates s rates t) :
    deriv (fun τ => specificEnergy (s τ)) t < 0 ↔ dotProduct (specificForce m (s t) c) (bodyVelocity (s t)) < 0 := by
  rw [(C75_energy_rate h e hr hs).deriv]

section
variable (m : AeroModel) (s : Flight ℝ) (c : Controls ℝ) (adj : Bool)

theorem rigidBody_iff (acc : Fin 3 → ℝ) : RigidBody m s c acc ↔
    (9496 * acc 0 - 982 * acc 2 + (s.q * (-982 * s.p + 63100 * s.r) - s.r * (55814 * s.q)) = moments m s c 0 ∧
     55814 * acc 1 + (s.r * (9496 * s.p - 982 * s.r + 160) - s.p * (-982 * s.p + 63100 * s.r)) = moments m s c 1 ∧
     -982 * acc 0 + 63100 * acc 2 + (s.p * (55814 * s.q) - s.q * (9496 * s.p - 982 * s.r + 160)) = moments m s c 2) := by
  unfold RigidBody
  rw [funext_iff, Fin.forall_fin_succ, Fin.forall_fin_succ, Fin.forall_fin_one]
  simp only [inertia, bodyRates, rateVec, engineMomentum, Matrix.mulVec, dotProduct, Fin.sum_univ_three, Pi.add_apply, Matrix.of_apply,
    Matrix.cons_val', Matrix.cons_val_zero, Matrix.cons_val_one, Matrix.cons_val, Matrix.cons_val_fin_one, Fin.isValue, Fin.succ_zero_eq_one,
    Fin.succ_one_eq_two]
  refine and_congr ?_ (and_congr ?_ ?_) <;> constructor <;> intro h <;> linear_combination h

/-- Euler's equation has exactly one solution. -/
theorem C76_solvable : ∃! acc, RigidBody m s c acc := by
  generalize hL : moments m s c 0 = L
  generalize hM : moments m s c 1 = M
  generalize hN : moments m s c 2 = N
  refine ⟨![(63100 * (L - (s.q * (-982 * s.p + 63100 * s.r) - s.r * (55814 * s.q))) +
      982 * (N - (s.p * (55814 * s.q) - s.q * (9496 * s.p - 982 * s.r + 160)))) / 598233276,
    (M - (s.r * (9496 * s.p - 982 * s.r + 160) - s.p * (-982 * s.p + 63100 * s.r))) / 55814,
    (982 * (L - (s.q * (-982 * s.p + 63100 * s.r) - s.r * (55814 * s.q))) +
      9496 * (N - (s.p * (55814 * s.q) - s.q * (9496 * s.p - 982 * s.r + 160)))) / 598233276], ?_, ?_⟩
  · refine (rigidBody_iff m s c _).2 ?_
    rw [hL, hM, hN]
    simp only [Matrix.cons_val_zero, Matrix.cons_val_one, Matrix.cons_val]
    refine ⟨by ring, by ring, by ring⟩
  · intro acc h
    rw [rigidBody_iff, hL, hM, hN] at h
    obtain ⟨h0, h1, h2⟩ := h
    funext i
    fin_cases i
    · simp only [Fin.zero_eta, Matrix.cons_val_zero]; linear_combination (63100 / 598233276 : ℝ) * h0 + (982 / 598233276 : ℝ) * h2
    · simp only [Fin.mk_one, Matrix.cons_val_one, Matrix.cons_val_zero]; linear_combination (1 / 55814 : ℝ) * h1
    · simp only [Fin.reduceFinMk, Matrix.cons_val]; linear_combination (982 / 598233276 : ℝ) * h0 + (9496 / 598233276 : ℝ) * h2

theorem abs_mul_le {k ε x : ℝ} (h : |k| ≤ ε) : |k * x| ≤ ε * |x| := by
  rw [abs_mul]; exact mul_le_mul_of_nonneg_right h (abs_nonneg _)

/-- C76: the angular accelerations `subf16_model` returns solve Euler's equation of the rigid body, up to the rounding of the nine
coefficients to about four digits: each contribution is off by at most 0.04 %. -/
theorem C76_rotation (h : Flyable s) {out : SubOut realFmt} {rates : List ℝ}
    (e : subf16 (toVec s.toList : Vec realFmt) (toVec c.toList) m.name adj = .ok out) (hr : out.xd = toVec rates) (acc : Fin 3 → ℝ)
    (hacc : RigidBody m s c acc) :
    |rates.getD 6 0 - acc 0| ≤ 4e-4 * (0.028 * |s.p * s.q| + 0.78 * |s.q * s.r| + 1.65e-6 * |160 * s.q| +
      1.06e-4 * |moments m s c 0| + 1.65e-6 * |moments m s c 2|) ∧
    |rates.getD 7 0 - acc 1| ≤ 4e-4 * (0.97 * |s.p * s.r| + 0.018 * |s.r ^ 2 - s.p ^ 2| + 1.8e-5 * |160 * s.r| +
      1.8e-5 * |moments m s c 1|) ∧
    |rates.getD 8 0 - acc 2| ≤ 4e-4 * (0.74 * |s.p * s.q| + 0.028 * |s.q * s.r| + 1.6e-5 * |160 * s.q| +
      1.65e-6 * |moments m s c 0| + 1.6e-5 * |moments m s c 2|) := by
  obtain ⟨pd, rfl⟩ := rates_unique (s := s) h e hr
  rw [rigidBody_iff] at hacc
  obtain ⟨h0, h1, h2⟩ := hacc
  have e6 : (kRates m s c adj pd).xd.getD 6 0 = (0.02755 * s.p + -0.770 * s.r + 1.642e-6 * 160) * s.q +
      (1.055e-4 * moments m s c 0 + 1.642e-6 * moments m s c 2) := by
    change (kRates m s c adj pd).d6 = _
    simp only [kRates, kEquations, moments, wingForce, Matrix.cons_val_zero, Matrix.cons_val]
    ring
  have e7 : (kRates m s c adj pd).xd.getD 7 0 = (0.9604 * s.p - 1.792e-5 * 160) * s.r + 1.759e-2 * (s.r ^ 2 - s.p ^ 2) +
      1.792e-5 * moments m s c 1 := by
    change (kRates m s c adj pd).d7 = _
    simp only [kRates, kEquations, moments, wingForce, Matrix.cons_val_zero, Matrix.cons_val_one]
    ring
  have e8 : (kRates m s c adj pd).xd.getD 8 0 = (-0.7336 * s.p - 0.02755 * s.r + 1.587e-5 * 160) * s.q +
      (1.642e-6 * moments m s c 0 + 1.587e-5 * moments m s c 2) := by
    change (kRates m s c adj pd).d8 = _
    simp only [kRates, kEquations, moments, wingForce, Matrix.cons_val_zero, Matrix.cons_val]
    ring
  rw [e6, e7, e8]
  generalize moments m s c 0 = L at *
  generalize moments m s c 1 = M at *
  generalize moments m s c 2 = N at *
  refine ⟨?_, ?_, ?_⟩
  · have a0 : acc 0 = 16479924 / 598233276 * (s.p * s.q) + -460710924 / 598233276 * (s.q * s.r) + 982 / 598233276 * (160 * s.q) +
        63100 / 598233276 * L + 982 / 598233276 * N := by
      linear_combination (63100 / 598233276 : ℝ) * h0 + (982 / 598233276 : ℝ) * h2
    rw [a0]
    have k1 := abs_mul_le (x := s.p * s.q) (show |(0.02755 - 16479924 / 598233276 : ℝ)| ≤ 4e-4 * 0.028 by rw [abs_le]; norm_num)
    have k2 := abs_mul_le (x := s.q * s.r) (show |(-0.770 - -460710924 / 598233276 : ℝ)| ≤ 4e-4 * 0.78 by rw [abs_le]; norm_num)
    have k3 := abs_mul_le (x := 160 * s.q) (show |(1.642e-6 - 982 / 598233276 : ℝ)| ≤ 4e-4 * 1.65e-6 by rw [abs_le]; norm_num)
    have k4 := abs_mul_le (x := L) (show |(1.055e-4 - 63100 / 598233276 : ℝ)| ≤ 4e-4 * 1.06e-4 by rw [abs_le]; norm_num)
    have k5 := abs_mul_le (x := N) (show |(1.642e-6 - 982 / 598233276 : ℝ)| ≤ 4e-4 * 1.65e-6 by rw [abs_le]; norm_num)
    refine le_trans (le_of_eq ?_) ((abs_add_le _ _).trans (add_le_add ((abs_add_le _ _).trans (add_le_add ((abs_add_le _ _).trans
      (add_le_add ((abs_add_le _ _).trans (add_le_add k1 k2)) k3)) k4)) k5) |>.trans (le_of_eq ?_))
    · congr 1; ring
    · ring
  · have a1 : acc 1 = 53604 / 55814 * (s.p * s.r) + 982 / 55814 * (s.r ^ 2 - s.p ^ 2) + -(1 / 55814) * (160 * s.r) + 1 / 55814 * M := by
      linear_combination (1 / 55814 : ℝ) * h1
    rw [a1]
    have k1 := abs_mul_le (x := s.p * s.r) (show |(0.9604 - 53604 / 55814 : ℝ)| ≤ 4e-4 * 0.97 by rw [abs_le]; norm_num)
    have k2 := abs_mul_le (x := s.r ^ 2 - s.p ^ 2) (show |(1.759e-2 - 982 / 55814 : ℝ)| ≤ 4e-4 * 0.018 by rw [abs_le]; norm_num)
    have k3 := abs_mul_le (x := 160 * s.r) (show |(-1.792e-5 - -(1 / 55814) : ℝ)| ≤ 4e-4 * 1.8e-5 by rw [abs_le]; norm_num)
    have k4 := abs_mul_le (x := M) (show |(1.792e-5 - 1 / 55814 : ℝ)| ≤ 4e-4 * 1.8e-5 by rw [abs_le]; norm_num)
    refine le_trans (le_of_eq ?_) ((abs_add_le _ _).trans (add_le_add ((abs_add_le _ _).trans
      (add_le_add ((abs_add_le _ _).trans (add_le_add k1 k2)) k3)) k4) |>.trans (le_of_eq ?_))
    · congr 1; ring
    · ring
  · have a2 : acc 2 = -438871404 / 598233276 * (s.p * s.q) + -(16479924 / 598233276) * (s.q * s.r) + 9496 / 598233276 * (160 * s.q) +
        982 / 598233276 * L + 9496 / 598233276 * N := by
      linear_combination (982 / 598233276 : ℝ) * h0 + (9496 / 598233276 : ℝ) * h2
    rw [a2]
    have k1 := abs_mul_le (x := s.p * s.q) (show |(-0.7336 - -438871404 / 598233276 : ℝ)| ≤ 4e-4 * 0.74 by rw [abs_le]; norm_num)
    have k2 := abs_mul_le (x := s.q * s.r) (show |(-0.02755 - -(16479924 / 598233276) : ℝ)| ≤ 4e-4 * 0.028 by rw [abs_le]; norm_num)
    have k3 := abs_mul_le (x := 160 * s.q) (show |(1.587e-5 - 9496 / 598233276 : ℝ)| ≤ 4e-4 * 1.6e-5 by rw [abs_le]; norm_num)
    have k4 := abs_mul_le (x := L) (show |(1.642e-6 - 982 / 598233276 : ℝ)| ≤ 4e-4 * 1.65e-6 by rw [abs_le]; norm_num)
    have k5 := abs_mul_le (x := N) (show |(1.587e-5 - 9496 / 598233276 : ℝ)| ≤ 4e-4 * 1.6e-5 by rw [abs_le]; norm_num)
    refine le_trans (le_of_eq ?_) ((abs_add_le _ _).trans (add_le_add ((abs_add_le _ _).trans (add_le_add ((abs_add_le _ _).trans
      (add_le_add ((abs_add_le _ _).trans (add_le_add k1 k2)) k3)) k4)) k5) |>.trans (le_of_eq ?_))
    · congr 1; ring
    · ring

/-- C76: at rest relative to its own axes and without moments the aircraft does not start to turn. -/
theorem C76_no_moment (h : Flyable s) {out : SubOut realFmt} {rates : List ℝ}
    (e : subf16 (toVec s.toList : Vec realFmt) (toVec c.toList) m.name adj = .ok out) (hr : out.xd = toVec rates)
    (hp : s.p = 0) (hq : s.q = 0) (hrr : s.r = 0) (h0 : moments m s c = 0) :
    rates.getD 6 0 = 0 ∧ rates.getD 7 0 = 0 ∧ rates.getD 8 0 = 0 := by
  have ha : RigidBody m s c 0 := by
    rw [rigidBody_iff, h0]; simp [hp, hq, hrr]
  obtain ⟨k1, k2, k3⟩ := C76_rotation m s c adj h e hr 0 ha
  simp only [h0, hp, hq, hrr, Pi.zero_apply, mul_zero, abs_zero, add_zero, zero_mul, sub_zero, ne_eq, OfNat.ofNat_ne_zero, not_false_eq_true, zero_pow] at k1 k2 k3
  exact ⟨abs_nonpos_iff.1 k1, abs_nonpos_iff.1 k2, abs_nonpos_iff.1 k3⟩

end

/-- a banked, rolling turn with deflected surfaces meets the hypotheses of C75 and C76 -/
example : ∃ (s : ℝ → Flight ℝ) (out : SubOut realFmt) (rates : List ℝ) (acc : Fin 3 → ℝ), Flyable (s 0) ∧ (s 0).p ≠ 0 ∧
    subf16 (toVec (s 0).toList : Vec realFmt) (toVec (Controls.mk 0.5 (-1) 2 3).toList) AeroModel.stevens.name true = .ok out ∧
    out.xd = toVec rates ∧ HasRates s rates 0 ∧ RigidBody .stevens (s 0) ⟨0.5, -1, 2, 3⟩ acc := by
  obtain ⟨s, out, rates, h0, e, hr, hs⟩ := motion_exists .stevens turning ⟨0.5, -1, 2, 3⟩ true turning_flyable
  obtain ⟨acc, ha, -⟩ := C76_solvable .stevens (s 0) ⟨0.5, -1, 2, 3⟩
  exact ⟨s, out, rates, acc, h0 ▸ turning_flyable, by rw [h0]; norm_num [turning], e, hr, hs, ha⟩

end SAD.Aero
