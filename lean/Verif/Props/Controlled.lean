import Verif.Props.Controller
import Verif.Props.Flight
import Verif.Lemmas.Base

/-! # C72: the controlled aircraft -/

set_option linter.unusedSectionVars false

namespace SAD.Aero
open SAD Spec Real

/-! ## Every arithmetic -/

section
variable {K : Type} {R : Fmt K} [Field K] [LinearOrder K] [FloorRing K]

/-- An unknown model, or a reference that does not have four elements, raises AssertionError. -/
theorem C72_asserts (x uRef : Vec R) (l : Llc R) (model : String) (v2 : Bool)
    (h : uRef.length ≠ 4 ∨ (model ≠ "stevens" ∧ model ≠ "morelli")) : controlledF16 x uRef l model v2 = .error .assertionError := by
  unfold controlledF16
  split_ifs with h1 h2 <;> first | rfl | (exfalso; tauto)

theorem stateEquations_length {vt x1 x2 phi theta psi p q r qbar t pd : Fl R} {c : Coefs R} {adj : Bool} {o : SubOut R}
    (h : stateEquations vt x1 x2 phi theta psi p q r qbar t pd c adj = .ok o) : o.xd.length = 13 := by
  unfold stateEquations at h
  simp only [bind, Except.bind] at h
  repeat' (split at h <;> try contradiction)
  all_goals
    cases h
    rfl

theorem subf16_length {x u : Vec R} {model : String} {adj : Bool} {o : SubOut R} (h : subf16 x u model adj = .ok o) :
    o.xd.length = 13 ∧ x.length = 13 ∧ u.length = 4 := by
  unfold subf16 at h
  simp only [bind, Except.bind] at h
  repeat' (split at h <;> try contradiction)
  exact ⟨stateEquations_length h, rfl, rfl⟩

theorem getIdx_lt {α : Type} {xs : List α} {i : ℕ} {v : α} (h : getIdx xs i = .ok v) : i < xs.length ∧ xs[i]? = some v := by
  unfold getIdx at h
  split at h
  · next y hy => cases h; exact ⟨(List.getElem?_eq_some_iff.1 hy).1, hy⟩
  · contradiction

theorem getUDeg_length {l : Llc R} {uRef x xCtrl uDeg : Vec R} (h : l.getUDeg uRef x = .ok (xCtrl, uDeg)) :
    16 ≤ x.length ∧ xCtrl.length = 8 ∧ uDeg.length = 4 := by
  unfold Llc.getUDeg at h
  simp only at h
  split_ifs at h with hn
  swap
  · exact absurd h (by simp [bind, Except.bind])
  obtain ⟨head, hhead, h⟩ := Except.bind_ok.1 h
  have hlen : (head ++ x.drop l.xequil.length).length = x.length := by
    unfold vsub at hhead
    rw [bcast2_same (by rw [List.length_take]; omega)] at hhead
    cases hhead
    simp
    omega
  generalize head ++ x.drop l.xequil.length = xd at h hlen
  simp only [Except.bind_ok] at h
  obtain ⟨v1, _, v7, _, v13, _, v2, _, v6, _, v8, _, v14, _, v15, h15, fb, _, u0, _, ud, _, h⟩ := h
  split at h
  · cases h
    exact ⟨by rw [← hlen]; exact (getIdx_lt h15).1, rfl, rfl⟩
  · contradiction

/-- Whatever the arithmetic: the derivative has the length of the state, the actuator vector has 7 elements, starts with the commanded
throttle and ends with the three references. -/
theorem C72_lengths (x uRef : Vec R) (l : Llc R) (model : String) (v2 : Bool) (o : ControlledOut R)
    (h : controlledF16 x uRef l model v2 = .ok o) :
    16 ≤ x.length ∧ o.xd.length = x.length ∧ o.uRad.length = 7 ∧ o.uRad.drop 4 = uRef.take 3 ∧
      ∃ xCtrl uDeg, l.getUDeg uRef x = .ok (xCtrl, uDeg) ∧ o.uRad[0]? = uDeg[0]? := by
  unfold controlledF16 at h
  rw [ite_eq_iff] at h
  rcases h with ⟨_, h⟩ | ⟨h1, h⟩
  · contradiction
  rw [ite_eq_iff] at h
  rcases h with ⟨_, h⟩ | ⟨_, h⟩
  · contradiction
  push Not at h1
  simp only [Except.bind_ok] at h
  obtain ⟨⟨xCtrl, uDeg⟩, hu, out, hsub, ⟨ps, nyR⟩, -, d, hd, u0, g0, u1, g1, u2, g2, u3, g3, h⟩ := h
  obtain ⟨hx, _, _⟩ := getUDeg_length hu
  obtain ⟨ho, _, _⟩ := subf16_length hsub
  have hd3 : d.length = 3 := by
    unfold integratorDerivatives at hd
    simp only [Except.bind_ok] at hd
    obtain ⟨r0, _, r1, _, r2, _, hd⟩ := hd
    cases hd
    rfl
  cases h
  refine ⟨hx, ?_, ?_, rfl, xCtrl, uDeg, hu, ?_⟩
  · simp only [List.length_append, List.length_replicate, ho, hd3, numIntegrators]; omega
  · simp only [List.length_append, List.length_cons, List.length_nil, List.length_take, h1]; rfl
  · rw [(getIdx_lt g0).2]; rfl

/-- A call without a model and without a choice of integrators: the derivative begins with that of the Morelli model under the controller's
commands, and the outputs are its normal acceleration, and roll rate and side acceleration in the older convention. -/
theorem C72_default (x uRef : Vec R) (l : Llc R) (o : ControlledOut R) (h : controlledF16 x uRef l = .ok o) :
    ∃ (xCtrl uDeg : Vec R) (out : SubOut R) (da p r c s : Fl R), l.getUDeg uRef x = .ok (xCtrl, uDeg) ∧ subf16 (x.take 13) uDeg "morelli" = .ok out ∧
      o.xd.take 13 = out.xd ∧ o.nz = out.nz ∧ xCtrl[0]? = some da ∧ xCtrl[4]? = some p ∧ xCtrl[5]? = some r ∧ mathCos da = .ok c ∧ mathSin da = .ok s ∧
      o.ps = p * c + r * s ∧ o.nyR = out.ny + r := by
  unfold controlledF16 at h
  rw [ite_eq_iff] at h
  rcases h with ⟨_, h⟩ | ⟨h1, h⟩
  · contradiction
  rw [ite_eq_iff] at h
  rcases h with ⟨_, h⟩ | ⟨_, h⟩
  · contradiction
  simp only [Except.bind_ok, Bool.false_eq_true, if_false] at h
  obtain ⟨⟨xCtrl, uDeg⟩, hu, out, hsub, ⟨ps, nyR⟩, ⟨c0, i0, c4, i4, c5, i5, c, hc, s, hs, hp⟩, d, hd, u0, g0, u1, g1, u2, g2, u3, g3, h⟩ := h
  obtain ⟨ho, _, _⟩ := subf16_length hsub
  cases hp
  cases h
  refine ⟨xCtrl, uDeg, out, c0, c4, c5, c, s, hu, hsub, ?_, rfl, (getIdx_lt i0).2, (getIdx_lt i4).2, (getIdx_lt i5).2, hc, hs, rfl, rfl⟩
  rw [List.append_assoc, ← ho, List.take_left]

end

/-! ## Exact arithmetic -/

/-- the surface commands of the controller -/
noncomputable def commands (s : Flight ℝ) (intNz intPs intNy throttle : ℝ) : Controls ℝ where
  thtl := limited 0 1 ((feedback s intNz intPs intNy throttle).getD 0 0)
  el := limited (-25) 25 ((feedback s intNz intPs intNy throttle).getD 1 0)
  ail := limited (-21.5) 21.5 ((feedback s intNz intPs intNy throttle).getD 2 0)
  rdr := limited (-30) 30 ((feedback s intNz intPs intNy throttle).getD 3 0)

/-- For every flyable state, integrator values, references and further state elements: the derivative is that of `subf16_model` under the
controller's commands, then the three differences between outputs and references, then zeros; the outputs are the normal acceleration, the
stability-axis roll rate and side acceleration plus yaw rate, which the older convention takes at the angle of attack measured from trim
(not from zero) and the newer one (`v2_integrators`) from the derivatives; the actuator vector holds the surfaces in radians and the
references. -/
theorem C72_controlled (m : AeroModel) (s : Flight ℝ) (h : Flyable s) (intNz intPs intNy nzRef psRef nyRef throttle : ℝ) (extra : List ℝ)
    (v2 : Bool) : ∃ (l : Llc realFmt) (rates : List ℝ) (nz ny az ay : ℝ), Llc.new = .ok l ∧
      subf16 (toVec s.toList : Vec realFmt) (toVec (commands s intNz intPs intNy throttle).toList) m.name =
        .ok ⟨toVec rates, .fin nz, .fin ny, .fin az, .fin ay⟩ ∧
      ∃ ps nyR : ℝ,
        ps = (if v2 then rates.getD 6 0 * cos (rates.getD 1 0) + rates.getD 8 0 * sin (rates.getD 1 0)
          else s.p * cos (s.alpha - 0.0389) + s.r * sin (s.alpha - 0.0389)) ∧
        nyR = (if v2 then ny + rates.getD 8 0 else ny + s.r) ∧
        controlledF16 (toVec (s.toList ++ [intNz, intPs, intNy] ++ extra)) (toVec [nzRef, psRef, nyRef, throttle]) l m.name v2 =
          .ok { xd := toVec (rates ++ [nz - nzRef, ps - psRef, nyR - nyRef] ++ List.replicate extra.length 0)
                uRad := toVec [(commands s intNz intPs intNy throttle).thtl, (commands s intNz intPs intNy throttle).el * (π / 180),
                  (commands s intNz intPs intNy throttle).ail * (π / 180), (commands s intNz intPs intNy throttle).rdr * (π / 180),
                  nzRef, psRef, nyRef]
                nz := .fin nz
                ps := .fin ps
                nyR := .fin nyR } := by
  obtain ⟨l, hl, e⟩ := C65_law (R := realFmt) s intNz intPs intNy nzRef psRef nyRef throttle extra []
  obtain ⟨pd, _, e'⟩ := subf16_real m s (commands s intNz intPs intNy throttle) true h
  generalize kRates m s (commands s intNz intPs intNy throttle) true pd = o at e'
  refine ⟨l, o.xd, o.nz, o.ny, o.az, o.ay, hl, e', _, _, rfl, rfl, ?_⟩
  have hm : m.name = "stevens" ∨ m.name = "morelli" := by cases m <;> simp [AeroModel.name]
  have e13 : List.take 13 (toVec (s.toList ++ [intNz, intPs, intNy] ++ extra) : Vec realFmt) = toVec s.toList := rfl
  have e'' : subf16 (toVec s.toList : Vec realFmt) (toVec [limited 0 1 ((feedback s intNz intPs intNy throttle).getD 0 0),
          limited (-25) 25 ((feedback s intNz intPs intNy throttle).getD 1 0),
          limited (-21.5) 21.5 ((feedback s intNz intPs intNy throttle).getD 2 0),
          limited (-30) 30 ((feedback s intNz intPs intNy throttle).getD 3 0)]) m.name = .ok o.toFl := e'
  rw [List.append_nil] at e
  unfold controlledF16
  rw [if_neg (by simp [toVec]), if_neg (not_not_intro hm)]
  simp only [e, bind, Except.bind, e13, e'']
  have d2r : ∀ x : ℝ, (.fin x : Fl realFmt) * (Fl.pi / 180) = .fin (x * (π / 180)) := fun x => by
    rw [n180, Fl.pi, Fl.fin_div_fin _ _ (by norm_num), Fl.fin_mul_fin]; rfl
  cases v2
  · simp [toVec, KOut.toFl, KOut.xd, getIdx, mathCos, mathSin, integratorDerivatives, bind, Except.bind, numIntegrators, deg2rad, commands]
    exact ⟨⟨rfl, by simp [Flight.toList]; omega⟩, ⟨d2r _, d2r _, d2r _⟩, rfl⟩
  · simp [toVec, KOut.toFl, KOut.xd, getIdx, mathCos, mathSin, integratorDerivatives, bind, Except.bind, numIntegrators, deg2rad, commands]
    exact ⟨⟨rfl, by simp [Flight.toList]; omega⟩, ⟨d2r _, d2r _, d2r _⟩, rfl⟩

example : ∃ (l : Llc realFmt) (o : ControlledOut realFmt), Llc.new = .ok l ∧
    controlledF16 (toVec (turning.toList ++ [1, 2, 3] ++ [4])) (toVec [0, 0.5, 0, 0.2]) l "stevens" true = .ok o ∧ o.xd.length = 17 := by
  obtain ⟨l, rates, nz, ny, az, ay, hl, -, ps, nyR, -, -, e⟩ := C72_controlled .stevens turning turning_flyable 1 2 3 0 0.5 0 0.2 [4] true
  refine ⟨l, _, hl, e, ?_⟩
  rw [(C72_lengths _ _ _ _ _ _ e).2.1]
  rfl

example : ∃ (l : Llc realFmt) (o : ControlledOut realFmt), Llc.new = .ok l ∧
    controlledF16 (toVec (turning.toList ++ [1, 2, 3] ++ [4])) (toVec [0, 0.5, 0, 0.2]) l = .ok o := by
  obtain ⟨l, rates, nz, ny, az, ay, hl, -, ps, nyR, -, -, e⟩ := C72_controlled .morelli turning turning_flyable 1 2 3 0 0.5 0 0.2 [4] false
  exact ⟨l, _, hl, e⟩

end SAD.Aero
