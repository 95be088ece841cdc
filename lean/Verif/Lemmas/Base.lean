import Verif.Lemmas.Flt
import Verif.Spec.Base

/-! # Lemmas about entities and dynamics -/

set_option linter.unusedSectionVars false

namespace SAD
open Spec

variable {K : Type} {R : Fmt K} [Field K] [LinearOrder K]

theorem Except.bind_ok {ε α β : Type} {x : Except ε α} {f : α → Except ε β} {b : β} :
    (x >>= f) = .ok b ↔ ∃ a, x = .ok a ∧ f a = .ok b := by
  cases x <;> simp [bind, Except.bind]

/-- `_step` changes nothing of the dynamics object but the stored trajectory -/
theorem odeStep_config (env : Env R) (d : Dyn R) (dt : Fl R) (s u : Vec R) :
    { (d.odeStep env dt s u).1 with trajectory := d.trajectory, trajectoryT := d.trajectoryT } = d := by
  unfold Dyn.odeStep
  split
  · split <;> rfl
  · split
    · split
      · rfl
      · split <;> rfl
    · split
      · split <;> rfl
      · rfl

theorem rawStep_config (env : Env R) (d : Dyn R) (dt : Fl R) (s u : Vec R) :
    { (d.rawStep env dt s u).1 with trajectory := d.trajectory, trajectoryT := d.trajectoryT } = d := by
  unfold Dyn.rawStep
  split
  · rfl
  · exact odeStep_config env d dt s u

variable [FloorRing K]

theorem dynStep_fst (env : Env R) (d : Dyn R) (dt : Fl R) (s u : Vec R) :
    (d.step env dt s u).1 = (d.rawStep env dt s u).1 := rfl

theorem dynStep_config (env : Env R) (d : Dyn R) (dt : Fl R) (s u : Vec R) :
    { (d.step env dt s u).1 with trajectory := d.trajectory, trajectoryT := d.trajectoryT } = d :=
  rawStep_config env d dt s u

/-- Elements of the state returned by `BaseDynamics.step`. -/
theorem dynStep_ok {env : Env R} {d : Dyn R} {dt : Fl R} {s u s' sd : Vec R}
    (h : (d.step env dt s u).2 = .ok (s', sd)) :
    ∃ next, (d.rawStep env dt s u).2 = .ok (next, sd) ∧
      ∀ i x', bget s' i = some x' → ∃ x lo hi, bget next i = some x ∧ d.stateMin.at i = some lo ∧
        d.stateMax.at i = some hi ∧ (NotWrapped d i → x' = Fl.clip x lo hi) ∧
        (∀ c, WrappedAt d i c → x' = wrapElem (Fl.clip x lo hi) c) := by
  unfold Dyn.step at h
  simp only at h
  obtain ⟨⟨next, sd0⟩, h1, h2⟩ := Except.bind_ok.1 h
  obtain ⟨nc, h3, h4⟩ := Except.bind_ok.1 h2
  obtain ⟨nw, h5, h6⟩ := Except.bind_ok.1 h4
  cases h6
  refine ⟨next, h1, ?_⟩
  intro i x' hx'
  unfold Dyn.wrapAngles at h5
  cases hc : d.angleWrapCenters with
  | none =>
    rw [hc] at h5
    cases h5
    obtain ⟨x, lo, hi, a1, a2, a3, a4⟩ := npClip_bget h3 hx'
    refine ⟨x, lo, hi, a1, a2, a3, fun _ => a4, ?_⟩
    rintro c ⟨cs, h, _⟩
    simp [hc] at h
  | some cs =>
    rw [hc] at h5
    obtain ⟨y, c, b1, b2, b3⟩ := bcast2_bget h5 hx'
    obtain ⟨x, lo, hi, a1, a2, a3, a4⟩ := npClip_bget h3 b1
    refine ⟨x, lo, hi, a1, a2, a3, ?_, ?_⟩
    · intro hn
      have := hn cs hc
      rw [b2] at this
      simp at this
      rw [this] at b3
      simpa [a4] using b3
    · rintro c' ⟨cs', h, hc', hn⟩
      rw [hc] at h
      cases h
      rw [b2] at hc'
      cases hc'
      have : c.isNan = false := by rw [Fl.isNan_false_iff]; exact hn
      simp [this] at b3
      rw [b3, a4]

theorem step_sameConfig (env : Env R) (e : Entity R) (dt : Fl R) (a : Action R) :
    SameConfig e (e.step env dt a).entity := by
  unfold Entity.step
  split
  · exact ⟨rfl, rfl, rfl, rfl, rfl, rfl⟩
  · simp only
    split
    · exact ⟨rfl, rfl, rfl, rfl, rfl, rfl⟩
    · split
      · exact ⟨rfl, rfl, rfl, rfl, rfl, rfl⟩
      · rename_i v _
        have hc := dynStep_config env e.dynamics dt e.state v
        split
        · rename_i d x hd
          rw [hd] at hc
          exact ⟨rfl, rfl, rfl, rfl, rfl, hc⟩
        · rename_i d s sd hd
          rw [hd] at hc
          exact ⟨rfl, rfl, rfl, rfl, rfl, hc⟩

theorem SameConfig.refl (e : Entity R) : SameConfig e e := ⟨rfl, rfl, rfl, rfl, rfl, rfl⟩

theorem SameConfig.trans {a b c : Entity R} (h1 : SameConfig a b) (h2 : SameConfig b c) : SameConfig a c := by
  obtain ⟨a1, a2, a3, a4, a5, a6⟩ := h1
  obtain ⟨b1, b2, b3, b4, b5, b6⟩ := h2
  refine ⟨b1.trans a1, b2.trans a2, b3.trans a3, b4.trans a4, b5.trans a5, ?_⟩
  rw [← a6, ← b6]

theorem op_sameConfig (env : Env R) (e : Entity R) (o : Op R) : SameConfig e (e.op env o) := by
  cases o with
  | step dt a => exact step_sameConfig env e dt a
  | setState v => exact SameConfig.refl e
  | setElem i v => exact SameConfig.refl e

theorem run_sameConfig (env : Env R) (ops : List (Op R)) (e : Entity R) : SameConfig e (e.run env ops) := by
  induction ops generalizing e with
  | nil => exact SameConfig.refl e
  | cons o ops ih => exact SameConfig.trans (op_sameConfig env e o) (ih (e.op env o))

/-- a configuration-preserving change of entity keeps the limits and the wrap centres -/
theorem SameConfig.limits {e e' : Entity R} (h : SameConfig e e') :
    e'.dynamics.stateMin = e.dynamics.stateMin ∧ e'.dynamics.stateMax = e.dynamics.stateMax ∧
    e'.dynamics.angleWrapCenters = e.dynamics.angleWrapCenters := by
  have := h.2.2.2.2.2
  refine ⟨?_, ?_, ?_⟩ <;> rw [← this]

/-- anatomy of a successful step -/
theorem step_ok {env : Env R} {e : Entity R} {dt : Fl R} {a : Action R} (h : (e.step env dt a).outcome = .ok ()) :
    ∃ ty u v d s sd, e.resolve env a = .ok (ty, u) ∧
      npClip u (e.controlMin.forDType ty) (e.controlMax.forDType ty) = .ok v ∧
      e.dynamics.step env dt e.state v = (d, .ok (s, sd)) ∧
      (e.step env dt a).entity = { e with dynamics := d, state := s, stateDot := sd } := by
  unfold Entity.step at h ⊢
  split at h
  · cases h
  · rename_i ty u hr
    simp only at h ⊢
    split at h
    · cases h
    · rename_i w hw
      split at h
      · cases h
      · rename_i v hv
        split at h
        · cases h
        · rename_i d s sd hd
          exact ⟨ty, u, v, d, s, sd, hr, hv, hd, by simp [hr, hw, hv, hd]⟩

theorem step_error {env : Env R} {e : Entity R} {dt : Fl R} {a : Action R} {x : PyErr}
    (h : (e.step env dt a).outcome = .error x) :
    (e.step env dt a).entity.state = e.state ∧ (e.step env dt a).entity.stateDot = e.stateDot := by
  unfold Entity.step at h ⊢
  split at h
  · exact ⟨rfl, rfl⟩
  · rename_i ty u hr
    simp only at h ⊢
    split at h
    · exact ⟨rfl, rfl⟩
    · rename_i w hw
      split at h
      · exact ⟨rfl, rfl⟩
      · rename_i v hv
        split at h
        · rename_i d x hd
          simp [hd]
        · cases h

/-- `step` depends on the action only through the requested control -/
theorem step_congr {env : Env R} {e : Entity R} {dt : Fl R} {a a' : Action R}
    (h : e.resolve env a = e.resolve env a') : e.step env dt a = e.step env dt a' := by
  unfold Entity.step; rw [h]

end SAD
