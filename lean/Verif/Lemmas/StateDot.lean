import Verif.Lemmas.Base

/-! # Lemmas about `compute_state_dot` -/

set_option linter.unusedSectionVars false

namespace SAD
open Spec

variable {K : Type} {R : Fmt K} [Field K] [LinearOrder K]

/-- elements of `compute_state_dot` -/
theorem computeStateDot_elem {d : Dyn R} {t : Fl R} {s u v : Vec R} (h : d.computeStateDot t s u = .ok v)
    {i : Nat} {y : Fl R} (hy : bget v i = some y) :
    ∃ raw r l b x lo hi, d.rhs t s u = .ok raw ∧ bget raw i = some r ∧ d.stateDotMin.at i = some l ∧
      d.stateDotMax.at i = some b ∧ bget s i = some x ∧ d.stateMin.at i = some lo ∧ d.stateMax.at i = some hi ∧
      y = if hi ≤ x then Fl.clip (Fl.clip r l b) .ninf 0
          else if x ≤ lo then Fl.clip (Fl.clip r l b) 0 .pinf else Fl.clip r l b := by
  unfold Dyn.computeStateDot at h
  obtain ⟨raw, hraw, h⟩ := Except.bind_ok.1 h
  obtain ⟨c, hc, h⟩ := Except.bind_ok.1 h
  unfold Dyn.clipStateDotByStateLimits at h
  obtain ⟨lb, hlb, h⟩ := Except.bind_ok.1 h
  obtain ⟨ub, hub, h⟩ := Except.bind_ok.1 h
  obtain ⟨w, hw, h⟩ := Except.bind_ok.1 h
  obtain ⟨p, up, wv, hp, hup, hwv, rfl⟩ := npWhere_bget h hy
  obtain ⟨q, lp, cv, hq, hlp, hcv, rfl⟩ := npWhere_bget hw hwv
  obtain ⟨r, l, b, g1, g2, g3, rfl⟩ := npClip_bget hc hcv
  obtain ⟨x, hi, g4, g5, rfl⟩ := bcast2_bget hub hp
  obtain ⟨x', lo, g6, g7, rfl⟩ := bcast2_bget hlb hq
  rw [g4] at g6; cases g6
  rw [bget_map, hcv] at hup hlp
  simp only [Option.map_some, Option.some.injEq] at hup hlp
  refine ⟨raw, r, l, b, x, lo, hi, hraw, g1, g2, g3, g4, by rw [Arr.at_eq]; exact g7,
    by rw [Arr.at_eq]; exact g5, ?_⟩
  subst hup hlp
  simp [decide_eq_true_eq]

end SAD
