import Verif.Lemmas.Config
import Verif.Model.Units
import Verif.Spec.Classes
import Verif.Model.Formats
import Verif.Model.Binary
import Verif.Props.Demo

/-! # C54, C55: units and configuration -/

set_option linter.unusedSectionVars false

namespace SAD
open Spec

section
variable {K : Type} {R : Fmt K} [Field K] [LinearOrder K]

/-- the unit of a keyword; a keyword without unit takes dimensionless quantities -/
def Spec.unitOf (u : Option (PUnit K)) : PUnit K := u.getD ⟨{}, 1⟩

/-- The number stored for a keyword in `unit` with the given default: the default if the keyword is missing, a bare number or a
string that spells one as it is, a quantity converted to `unit`. -/
def Spec.initialValue (unit : PUnit K) (default : Fl R) : Option (CfgVal R) → Fl R
  | none => default
  | some (.num x) => x
  | some (.numeral _ x) => x
  | some (.quantity mag u) => if u = unit then mag else mag * .fin (u.scale / unit.scale)
  | _ => .nan

def toField (k : String × Option (PUnit K) × Fl R) : CfgField R :=
  ⟨k.1, match k.2.1 with | none => .plain | some u => .inUnit u, k.2.2⟩

theorem ms_eq : (PUnit.meters.div .seconds : PUnit K) = metrePerSecond := by
  simp [PUnit.div, PUnit.meters, PUnit.seconds, metrePerSecond]
theorem fs_eq : (PUnit.feet.div .seconds : PUnit K) = footPerSecond := by
  simp [PUnit.div, PUnit.feet, PUnit.seconds, footPerSecond]
theorem rs_eq : (PUnit.radians.div .seconds : PUnit K) = radianPerSecond := by
  simp [PUnit.div, PUnit.radians, PUnit.seconds, radianPerSecond]

theorem instantiate_concrete {α : Type} {mro : List PyClass} (h : abstractMethods mro = []) (init : Py α) : instantiate mro init = init := by
  simp [instantiate, h]

/-- every constructor prepares its dynamics and limits without looking at the keywords, then validates them -/
theorem new_eq (c : EntityClass R) (env : Env R) :
    ∃ pre : Py (Dyn R × Vec R × Arr R × Arr R × Option (List (String × Nat))), ∀ kw,
      c.new env kw = pre >>= fun p => baseInit (c.keywords.map toField) c.stateOrder p.1 p.2.1 p.2.2.1 p.2.2.2.1 p.2.2.2.2 kw := by
  cases c with
  | integrator1d a =>
    refine ⟨(mkIntegratorDynamics env a.m a.damping "1d" a.dyn) >>= fun d => pure (d, [0], .scalar (-1), .scalar 1, some [("thrust_x", 0)]), ?_⟩
    intro kw
    simp only [EntityClass.new, initIntegrator1d, bind_assoc, pure_bind]
    rfl
  | integrator2d a =>
    refine ⟨(mkIntegratorDynamics env a.m a.damping "2d" a.dyn) >>= fun d => pure (d, [0, 0], .scalar (-1), .scalar 1, some [("thrust_x", 0), ("thrust_y", 0)]), ?_⟩
    intro kw
    simp only [EntityClass.new, initIntegrator2d, bind_assoc, pure_bind]
    rfl
  | integrator3d a =>
    refine ⟨(mkIntegratorDynamics env a.m a.damping "3d" a.dyn) >>= fun d => pure (d, [0, 0, 0], .scalar (-1), .scalar 1, some [("thrust_x", 0), ("thrust_y", 0), ("thrust_z", 0)]), ?_⟩
    intro kw
    simp only [EntityClass.new, initIntegrator3d, bind_assoc, pure_bind]
    rfl
  | cwh a =>
    refine ⟨(mkCwhDynamics env a.m a.n { trajectorySamples := a.trajectorySamples, integrationMethod := a.integrationMethod }) >>= fun d =>
      pure (d, [0, 0, 0], .scalar (-1), .scalar 1, some [("thrust_x", 0), ("thrust_y", 1), ("thrust_z", 2)]), ?_⟩
    intro kw
    simp only [EntityClass.new, newCwhSpacecraft, initCwhSpacecraft, bind_assoc, pure_bind]
    rw [instantiate_concrete (by decide)]
    simp only [cwhFields, ms_eq]
    rfl
  | sun a =>
    refine ⟨(mkSunDynamics env a.n { integrationMethod := a.integrationMethod, useJax := a.useJax }) >>= fun d =>
      pure (d, [], .scalar .ninf, .scalar .pinf, none), ?_⟩
    intro kw
    simp only [EntityClass.new, newSun, initSun, bind_assoc, pure_bind]
    rw [instantiate_concrete (by decide)]
    rfl
  | rot2d a =>
    refine ⟨(rot2dLimits a) >>= fun p => (mkRot2dDynamics env {
      m := a.m, inertia := a.inertia, angAccLimit := p.1, angVelLimit := p.2, n := a.n
      dyn := { trajectorySamples := a.trajectorySamples, integrationMethod := a.integrationMethod, useJax := a.useJax } }) >>= fun d =>
      pure (d, [0, 0, 0], .vec [-1, -1, -p.1 * a.inertia], .vec [1, 1, p.1 * a.inertia], some [("thrust_x", 0), ("thrust_y", 1), ("moment_z", 2)]), ?_⟩
    intro kw
    simp only [EntityClass.new, newRot2d, initRot2d, bind_assoc, pure_bind]
    rw [instantiate_concrete (by decide)]
    simp only [rot2dFields, ms_eq, rs_eq]
    rfl
  | sixDof uninit a =>
    refine ⟨(do
      let acc ← numberListToNp uninit a.angAccLimit [3]
      let vel ← numberListToNp uninit a.angVelLimit [3]
      let (a0, v0, c0) ← sixDofAxis a acc.data vel.data 0
      let (a1, v1, c1) ← sixDofAxis a acc.data vel.data 1
      let (a2, v2, c2) ← sixDofAxis a acc.data vel.data 2
      let controlLimit := [a.thrustControlLimit, a.thrustControlLimit, a.thrustControlLimit, c0, c1, c2]
      let d ← mkSixDofDynamics env uninit {
        m := a.m, inertiaMatrix := a.inertiaMatrix
        angAccLimit := .array ⟨[3], "float64", [a0, a1, a2]⟩, angVelLimit := .array ⟨[3], "float64", [v0, v1, v2]⟩
        n := a.n, bodyFrameThrust := a.bodyFrameThrust
        dyn := { trajectorySamples := a.trajectorySamples, integrationMethod := a.integrationMethod } }
      pure (d, [0, 0, 0, 0, 0, 0], .vec (controlLimit.map (fun x => -1 * x)), .vec controlLimit,
        some [("thrust_x", 0), ("thrust_y", 1), ("thrust_z", 2), ("moment_x", 3), ("moment_y", 4), ("moment_z", 5)])), ?_⟩
    intro kw
    simp only [EntityClass.new, newSixDof, initSixDof, bind_assoc, pure_bind]
    rw [instantiate_concrete (by decide)]
    simp only [sixDofFields, ms_eq, rs_eq]
    rfl
  | dubins2d a =>
    refine ⟨(mkOdeDyn env {
      trajectorySamples := a.trajectorySamples, integrationMethod := a.integrationMethod
      stateMin := .vec [.ninf, .ninf, .ninf, a.vMin.cast32], stateMax := .vec [.pinf, .pinf, .pinf, a.vMax.cast32]
      angleWrapCenters := some [.nan, .nan, Fl.cast32 0, .nan] } (affineRhs dubins2dF dubins2dG)) >>= fun d =>
      pure (d, [0, 0], .vec [a.headingRateMin, a.accMin], .vec [a.headingRateMax, a.accMax], some [("heading_rate", 0), ("acceleration", 1)]), ?_⟩
    intro kw
    simp only [EntityClass.new, newDubins2d, initDubins2d, bind_assoc, pure_bind]
    rw [instantiate_concrete (by decide)]
    simp only [dubins2dFields, fs_eq]
    rfl
  | dubins3d a =>
    refine ⟨(mkOdeDyn env {
      trajectorySamples := a.trajectorySamples, integrationMethod := a.integrationMethod
      stateMin := .vec [.ninf, .ninf, .ninf, .ninf, a.gammaMin.cast32, a.rollMin.cast32, a.vMin.cast32]
      stateMax := .vec [.pinf, .pinf, .pinf, .pinf, a.gammaMax.cast32, a.rollMax.cast32, a.vMax.cast32]
      angleWrapCenters := some [.nan, .nan, .nan, Fl.cast32 0, Fl.cast32 0, Fl.cast32 0, .nan] } (affineRhs (dubins3dF dubinsGravity) dubins3dG)) >>= fun d =>
      pure (d, [0, 0, 0], .vec [a.gammaRateMin, a.rollRateMin, a.accMin], .vec [a.gammaRateMax, a.rollRateMax, a.accMax],
        some [("gamma_rate", 0), ("roll_rate", 1), ("acceleration", 2)]), ?_⟩
    intro kw
    simp only [EntityClass.new, newDubins3d, initDubins3d, bind_assoc, pure_bind]
    rw [instantiate_concrete (by decide)]
    simp only [dubins3dFields, dubins2dFields, fs_eq]
    rfl

/-- what a well-formed set of keywords is: a `name` that is a string, no keyword outside the table, and acceptable values -/
structure Spec.WellFormed (keywords : List (String × Option (PUnit K) × Fl R)) (kw : List (String × CfgVal R)) : Prop where
  name : ∃ nm, Named kw nm
  known : ∀ kv ∈ kw, kv.1 = "name" ∨ ∃ k ∈ keywords, k.1 = kv.1
  values : ∀ k ∈ keywords, ∀ v, lookup kw k.1 = some v → Acceptable k.2.1 v

theorem convertField_toField (k : String × Option (PUnit K) × Fl R) (v : CfgVal R) :
    (Acceptable k.2.1 v → convertField (toField k) v = .ok (initialValue (unitOf k.2.1) k.2.2 (some v))) ∧
    (¬ Acceptable k.2.1 v → convertField (toField k) v = .error .valueError) := by
  obtain ⟨nm, u, d⟩ := k
  cases u with
  | none =>
    cases v with
    | num x => simp [Acceptable, convertField, toField, convertPlain, initialValue]
    | quantity mag u =>
      simp only [Acceptable, convertField, toField, convertPlain, initialValue, unitOf, Option.getD_none, div_one]
      by_cases h1 : u = ⟨{}, 1⟩
      · subst h1; simp
      · by_cases h2 : u.dim = {} <;> simp [h1, h2]
    | str s => simp [Acceptable, convertField, toField, convertPlain]
    | numeral s x => simp [Acceptable, convertField, toField, convertPlain, initialValue]
    | other => simp [Acceptable, convertField, toField, convertPlain]
  | some w =>
    cases v with
    | num x => simp [Acceptable, convertField, toField, convertUnit, initialValue]
    | quantity mag u =>
      simp only [Acceptable, convertField, toField, convertUnit, initialValue, unitOf, Option.getD_some]
      by_cases h1 : u = w
      · subst h1; simp
      · by_cases h2 : u.dim = w.dim <;> simp [h1, h2]
    | str s => simp [Acceptable, convertField, toField, convertUnit]
    | numeral s x => simp [Acceptable, convertField, toField, convertUnit, initialValue]
    | other => simp [Acceptable, convertField, toField, convertUnit]

theorem fieldValues_map (kw : List (String × CfgVal R)) (ks : List (String × Option (PUnit K) × Fl R)) :
    ((∀ k ∈ ks, ∀ v, lookup kw k.1 = some v → Acceptable k.2.1 v) →
      fieldValues kw (ks.map toField) = .ok (ks.map fun k => (k.1, initialValue (unitOf k.2.1) k.2.2 (lookup kw k.1)))) ∧
    (¬ (∀ k ∈ ks, ∀ v, lookup kw k.1 = some v → Acceptable k.2.1 v) → fieldValues kw (ks.map toField) = .error .valueError) := by
  classical
  induction ks with
  | nil => simp [fieldValues]
  | cons k ks ih =>
    have hname : (toField k).name = k.1 := rfl
    have hdef : (toField k).default = k.2.2 := rfl
    constructor
    · intro h
      have h2 := ih.1 (fun k' hk' => h k' (by simp [hk']))
      simp only [List.map_cons, fieldValues, hname, hdef]
      cases hl : lookup kw k.1 with
      | none => simp only [h2]; rfl
      | some v => simp only [(convertField_toField k v).1 (h k (by simp) v hl), h2]; rfl
    · intro h
      simp only [List.map_cons, fieldValues, hname, hdef]
      by_cases hk : ∀ v, lookup kw k.1 = some v → Acceptable k.2.1 v
      · have h2 := ih.2 (fun hall => h (by
          intro k' hk' v hv
          rcases List.mem_cons.1 hk' with rfl | hk'
          · exact hk v hv
          · exact hall k' hk' v hv))
        cases hl : lookup kw k.1 with
        | none => simp only [h2]; rfl
        | some v => simp only [(convertField_toField k v).1 (hk v hl), h2]; rfl
      · push Not at hk
        obtain ⟨v, hl, hv⟩ := hk
        simp only [hl, (convertField_toField k v).2 hv]
        rfl

theorem validate_map (kw : List (String × CfgVal R)) (ks : List (String × Option (PUnit K) × Fl R)) :
    (∀ nm, Named kw nm → WellFormed ks kw →
      validate (ks.map toField) kw = .ok ⟨nm, ks.map fun k => (k.1, initialValue (unitOf k.2.1) k.2.2 (lookup kw k.1))⟩) ∧
    (¬ WellFormed ks kw → validate (ks.map toField) kw = .error .valueError) := by
  classical
  have hnames : (ks.map toField).map CfgField.name = ks.map Prod.fst := by
    rw [List.map_map]; rfl
  have hany : (kw.any (fun kv => kv.1 ≠ "name" && !((ks.map toField).map CfgField.name).contains kv.1) = true) ↔
      ¬ (∀ kv ∈ kw, kv.1 = "name" ∨ ∃ k ∈ ks, k.1 = kv.1) := by
    rw [hnames, List.any_eq_true]
    push Not
    constructor
    · rintro ⟨kv, hkv, h⟩
      refine ⟨kv, hkv, ?_⟩
      simp only [Bool.and_eq_true, decide_eq_true_eq, Bool.not_eq_true', List.contains_eq_mem, decide_eq_false_iff_not] at h
      refine ⟨h.1, ?_⟩
      intro k hk hkn
      exact h.2 (List.mem_map.2 ⟨k, hk, hkn⟩)
    · rintro ⟨kv, hkv, h⟩
      refine ⟨kv, hkv, ?_⟩
      simp only [Bool.and_eq_true, decide_eq_true_eq, Bool.not_eq_true', List.contains_eq_mem, decide_eq_false_iff_not]
      refine ⟨h.1, ?_⟩
      intro hm
      obtain ⟨k, hk, hkn⟩ := List.mem_map.1 hm
      exact h.2 k hk hkn
  constructor
  · intro nm hnm hwf
    unfold validate
    rw [if_neg (fun h => hany.1 h hwf.known)]
    rcases hnm with hnm | ⟨x, hnm⟩
    · simp only [hnm, (fieldValues_map kw ks).1 hwf.values]
      rfl
    · simp only [hnm, (fieldValues_map kw ks).1 hwf.values]
      rfl
  · intro hwf
    unfold validate
    by_cases hk : ∀ kv ∈ kw, kv.1 = "name" ∨ ∃ k ∈ ks, k.1 = kv.1
    · rw [if_neg (fun h => hany.1 h hk)]
      cases hl : lookup kw "name" with
      | none => rfl
      | some v =>
        cases v with
        | str nm =>
          have hv : ¬ (∀ k ∈ ks, ∀ v, lookup kw k.1 = some v → Acceptable k.2.1 v) := fun hv => hwf ⟨⟨nm, .inl hl⟩, hk, hv⟩
          simp only [(fieldValues_map kw ks).2 hv]
          rfl
        | numeral nm x =>
          have hv : ¬ (∀ k ∈ ks, ∀ v, lookup kw k.1 = some v → Acceptable k.2.1 v) := fun hv => hwf ⟨⟨nm, .inr ⟨x, hl⟩⟩, hk, hv⟩
          simp only [(fieldValues_map kw ks).2 hv]
          rfl
        | num x => rfl
        | quantity mag u => rfl
        | other => rfl
    · rw [if_pos (hany.2 hk)]

theorem lookup_map_of_mem {ks : List (String × Option (PUnit K) × Fl R)} (hn : (ks.map Prod.fst).Nodup) (f : String × Option (PUnit K) × Fl R → Fl R)
    {k : String × Option (PUnit K) × Fl R} (hk : k ∈ ks) : lookup (ks.map fun k => (k.1, f k)) k.1 = some (f k) := by
  induction ks with
  | nil => cases hk
  | cons a ks ih =>
    simp only [List.map_cons, List.nodup_cons] at hn
    simp only [List.map_cons, lookup]
    rcases List.mem_cons.1 hk with rfl | hk
    · simp
    · have : a.1 ≠ k.1 := fun h => hn.1 (h ▸ List.mem_map.2 ⟨k, hk, rfl⟩)
      rw [if_neg this]
      exact ih hn.2 hk

theorem buildState_map {ks : List (String × Option (PUnit K) × Fl R)} (hn : (ks.map Prod.fst).Nodup) (f : String × Option (PUnit K) × Fl R → Fl R) (nm : String)
    {layout : List String} (hl : ∀ s ∈ layout, ∃ k ∈ ks, k.1 = s) :
    ∃ st, buildState ⟨nm, ks.map fun k => (k.1, f k)⟩ layout = .ok st ∧
      List.Forall₂ (fun s x => ∃ k ∈ ks, k.1 = s ∧ x = (f k).cast32) layout st := by
  induction layout with
  | nil => exact ⟨[], rfl, .nil⟩
  | cons s layout ih =>
    obtain ⟨k, hk, rfl⟩ := hl s (by simp)
    obtain ⟨st, h1, h2⟩ := ih (fun s hs => hl s (by simp [hs]))
    refine ⟨(f k).cast32 :: st, ?_, .cons ⟨k, hk, rfl, rfl⟩ h2⟩
    simp only [buildState, Config.get, lookup_map_of_mem hn f hk, h1]
    rfl

theorem keywords_nodup (c : EntityClass R) : (c.keywords.map Prod.fst).Nodup := by
  cases c <;> simp [EntityClass.keywords]

theorem stateOrder_known (c : EntityClass R) : ∀ s ∈ c.stateOrder, ∃ k ∈ c.keywords, k.1 = s := by
  cases c <;> simp [EntityClass.keywords, EntityClass.stateOrder]

/-- The constructor accepts exactly the well-formed keywords: the class being constructible at all with its parameters, it
returns an entity iff `name` is a string, every keyword is documented, and every value is a number, a string that spells one, or a quantity of the
documented dimension; otherwise it raises `ValueError`. -/
theorem C55_accepted_keywords (c : EntityClass R) (env : Env R) (kw0 : List (String × CfgVal R)) (e0 : Entity R)
    (h0 : c.new env kw0 = .ok e0) (kw : List (String × CfgVal R)) :
    (WellFormed c.keywords kw → ∃ e, c.new env kw = .ok e) ∧ (¬ WellFormed c.keywords kw → c.new env kw = .error .valueError) := by
  obtain ⟨pre, hpre⟩ := new_eq c env
  rw [hpre] at h0
  obtain ⟨p, hp, -⟩ := Except.bind_ok.1 h0
  rw [hpre, hp]
  constructor
  · intro hwf
    obtain ⟨nm, hnm⟩ := hwf.name
    obtain ⟨st, hst, -⟩ := buildState_map (keywords_nodup c) (fun k => initialValue (unitOf k.2.1) k.2.2 (lookup kw k.1)) nm (stateOrder_known c)
    have : ∃ e, baseInit (c.keywords.map toField) c.stateOrder p.1 p.2.1 p.2.2.1 p.2.2.2.1 p.2.2.2.2 kw = .ok e := by
      unfold baseInit
      rw [(validate_map kw c.keywords).1 nm hnm hwf]
      show ∃ e, (buildState _ _ >>= _) = _
      rw [hst]
      exact ⟨_, rfl⟩
    exact this
  · intro hwf
    show baseInit _ _ _ _ _ _ _ _ = _
    unfold baseInit
    rw [(validate_map kw c.keywords).2 hwf]
    rfl

/-- The initial state: the name is the given one, the state lists the documented fields in the documented order, each being the
keyword's value in the documented unit (or the default) rounded to float32, and the derivative is zero. Malformed keywords never
give an entity. -/
theorem C55_initial_state (c : EntityClass R) (env : Env R) (kw : List (String × CfgVal R)) (e : Entity R) (h : c.new env kw = .ok e) :
    WellFormed c.keywords kw ∧ Named kw e.name ∧
    List.Forall₂ (fun s x => ∃ k ∈ c.keywords, k.1 = s ∧ x = (initialValue (unitOf k.2.1) k.2.2 (lookup kw s)).cast32) c.stateOrder e.state ∧
    e.stateDot = e.state.map (fun _ => 0) := by
  classical
  have hwf : WellFormed c.keywords kw := by
    by_contra hwf
    rw [(C55_accepted_keywords c env kw e h kw).2 hwf] at h
    cases h
  obtain ⟨pre, hpre⟩ := new_eq c env
  rw [hpre] at h
  obtain ⟨p, hp, h⟩ := Except.bind_ok.1 h
  obtain ⟨nm, hnm⟩ := hwf.name
  unfold baseInit at h
  rw [(validate_map kw c.keywords).1 nm hnm hwf] at h
  obtain ⟨st, hst, hst2⟩ := buildState_map (keywords_nodup c) (fun k => initialValue (unitOf k.2.1) k.2.2 (lookup kw k.1)) nm (stateOrder_known c)
  obtain ⟨_, hc, h⟩ := Except.bind_ok.1 h
  cases hc
  obtain ⟨_, hs, h⟩ := Except.bind_ok.1 h
  rw [hst] at hs
  cases hs
  cases h
  refine ⟨hwf, hnm, hst2.imp ?_, rfl⟩
  rintro s x ⟨k, hk, rfl, hx⟩
  exact ⟨k, hk, rfl, hx⟩

/-- A quantity of the wrong dimension never gives an entity. -/
theorem C54_wrong_dimension (c : EntityClass R) (env : Env R) (kw : List (String × CfgVal R)) (s : String) (u : Option (PUnit K)) (d : Fl R)
    (hs : (s, u, d) ∈ c.keywords) (mag : Fl R) (u' : PUnit K) (hl : lookup kw s = some (.quantity mag u')) (hdim : u'.dim ≠ (unitOf u).dim) :
    (∀ e, c.new env kw ≠ .ok e) ∧ ∀ kw0 e0, c.new env kw0 = .ok e0 → c.new env kw = .error .valueError := by
  have hwf : ¬ WellFormed c.keywords kw := fun hwf => hdim (hwf.values _ hs _ hl)
  refine ⟨fun e h => hwf (C55_initial_state c env kw e h).1, ?_⟩
  intro kw0 e0 h0
  exact (C55_accepted_keywords c env kw0 e0 h0 kw).2 hwf

theorem lookup_pointwise {P : String → CfgVal R → CfgVal R → Prop} {kw kw' : List (String × CfgVal R)}
    (h : List.Forall₂ (fun a b => a.1 = b.1 ∧ P a.1 a.2 b.2) kw kw') (s : String) :
    (lookup kw s = none ∧ lookup kw' s = none) ∨ ∃ v v', lookup kw s = some v ∧ lookup kw' s = some v' ∧ P s v v' := by
  induction h with
  | nil => exact .inl ⟨rfl, rfl⟩
  | @cons a b l l' hab _ ih =>
    obtain ⟨ka, va⟩ := a
    obtain ⟨kb, vb⟩ := b
    obtain ⟨rfl, hP⟩ := hab
    by_cases hs : ka = s
    · subst hs
      exact .inr ⟨va, vb, by simp [lookup], by simp [lookup], hP⟩
    · simp only [lookup, hs, if_false]
      exact ih

section exact
variable [IsStrictOrderedRing K] [Exact R]

/-- the units in use have non-zero factors -/
theorem unit_scale (c : EntityClass R) : ∀ k ∈ c.keywords, (unitOf k.2.1).scale ≠ 0 := by
  have : (3048 / 10000 : K) ≠ 0 := by positivity
  cases c <;> simp [EntityClass.keywords, unitOf, metre, foot, radian, metrePerSecond, footPerSecond, radianPerSecond]

theorem initialValue_of_magnitude {u : Option (PUnit K)} (hu : (unitOf u).scale ≠ 0) (d : Fl R) {v : CfgVal R} {m : K} (h : magnitudeSI u v = some m) :
    Acceptable u v ∧ initialValue (unitOf u) d (some v) = .fin (m / (unitOf u).scale) := by
  cases v with
  | num x =>
    cases x with
    | fin x =>
      simp only [magnitudeSI, Option.some.injEq] at h
      subst h
      refine ⟨trivial, ?_⟩
      simp only [initialValue]
      rw [mul_div_assoc, show (u.getD ⟨{}, 1⟩).scale / (unitOf u).scale = 1 from div_self hu, mul_one]
    | _ => simp [magnitudeSI] at h
  | quantity x w =>
    cases x with
    | fin x =>
      simp only [magnitudeSI] at h
      split at h
      · rename_i hd
        cases h
        refine ⟨hd, ?_⟩
        simp only [initialValue]
        split
        · rename_i he
          subst he
          rw [mul_div_assoc, div_self hu, mul_one]
        · simp [mul_div_assoc]
      · cases h
    | _ => simp [magnitudeSI] at h
  | str s => simp [magnitudeSI] at h
  | numeral s x =>
    cases x with
    | fin x =>
      simp only [magnitudeSI, Option.some.injEq] at h
      subst h
      refine ⟨trivial, ?_⟩
      simp only [initialValue]
      rw [mul_div_assoc, show (u.getD ⟨{}, 1⟩).scale / (unitOf u).scale = 1 from div_self hu, mul_one]
    | _ => simp [magnitudeSI] at h
  | other => simp [magnitudeSI] at h

/-- Two sets of keywords that spell the same physical magnitudes (`1 km` and `1000 m` and the bare `1000`, for a keyword in
metres) give the same entity, in exact arithmetic. -/
theorem C54_same_magnitude (c : EntityClass R) (env : Env R) (kw kw' : List (String × CfgVal R))
    (h : List.Forall₂ (fun a b => a.1 = b.1 ∧ (a.2 = b.2 ∨
      (a.1 ≠ "name" ∧ ∀ k ∈ c.keywords, k.1 = a.1 → ∃ m, magnitudeSI k.2.1 a.2 = some m ∧ magnitudeSI k.2.1 b.2 = some m))) kw kw') :
    c.new env kw = c.new env kw' := by
  classical
  have hlook := lookup_pointwise (P := fun s v v' => v = v' ∨
    (s ≠ "name" ∧ ∀ k ∈ c.keywords, k.1 = s → ∃ m, magnitudeSI k.2.1 v = some m ∧ magnitudeSI k.2.1 v' = some m)) h
  have hname : lookup kw "name" = lookup kw' "name" := by
    rcases hlook "name" with ⟨h1, h2⟩ | ⟨v, v', h1, h2, rfl | h3⟩
    · rw [h1, h2]
    · rw [h1, h2]
    · exact absurd rfl h3.1
  have hval : ∀ k ∈ c.keywords, ((∀ v, lookup kw k.1 = some v → Acceptable k.2.1 v) ↔ (∀ v, lookup kw' k.1 = some v → Acceptable k.2.1 v)) ∧
      initialValue (unitOf k.2.1) k.2.2 (lookup kw k.1) = initialValue (unitOf k.2.1) k.2.2 (lookup kw' k.1) := by
    intro k hk
    rcases hlook k.1 with ⟨h1, h2⟩ | ⟨v, v', h1, h2, rfl | h3⟩
    · rw [h1, h2]; simp
    · rw [h1, h2]; simp
    · obtain ⟨m, hm1, hm2⟩ := h3.2 k hk rfl
      have r1 := initialValue_of_magnitude (unit_scale c k hk) k.2.2 hm1
      have r2 := initialValue_of_magnitude (unit_scale c k hk) k.2.2 hm2
      rw [h1, h2, r1.2, r2.2]
      refine ⟨?_, rfl⟩
      simp only [Option.some.injEq, forall_eq']
      exact ⟨fun _ => r2.1, fun _ => r1.1⟩
  have hknown : (∀ kv ∈ kw, kv.1 = "name" ∨ ∃ k ∈ c.keywords, k.1 = kv.1) ↔ (∀ kv ∈ kw', kv.1 = "name" ∨ ∃ k ∈ c.keywords, k.1 = kv.1) := by
    clear hlook hval hname
    induction h with
    | nil => simp
    | cons hab _ ih => simp only [List.forall_mem_cons, ih, hab.1]
  have hnamed : ∀ nm, Named kw nm ↔ Named kw' nm := fun nm => by unfold Named; rw [hname]
  have hwf : WellFormed c.keywords kw ↔ WellFormed c.keywords kw' := by
    constructor
    · rintro ⟨a1, a2, a3⟩
      exact ⟨a1.imp fun nm => (hnamed nm).1, hknown.1 a2, fun k hk => (hval k hk).1.1 (a3 k hk)⟩
    · rintro ⟨a1, a2, a3⟩
      exact ⟨a1.imp fun nm => (hnamed nm).2, hknown.2 a2, fun k hk => (hval k hk).1.2 (a3 k hk)⟩
  have hvalid : validate (c.keywords.map toField) kw = validate (c.keywords.map toField) kw' := by
    by_cases hw : WellFormed c.keywords kw
    · obtain ⟨nm, hnm⟩ := hw.name
      rw [(validate_map kw c.keywords).1 nm hnm hw, (validate_map kw' c.keywords).1 nm ((hnamed nm).1 hnm) (hwf.1 hw)]
      congr 2
      apply List.map_congr_left
      intro k hk
      rw [(hval k hk).2]
    · rw [(validate_map kw c.keywords).2 hw, (validate_map kw' c.keywords).2 (fun h => hw (hwf.2 h))]
  obtain ⟨pre, hpre⟩ := new_eq c env
  rw [hpre, hpre]
  unfold baseInit
  rw [hvalid]

end exact

/-- the values exported with units by an entity of each class, under the keywords of the class -/
def Spec.exported : EntityClass R → Entity R → Py (List (String × CfgVal R))
  | .integrator1d _, e | .integrator2d _, e | .integrator3d _, e => integratorXWithUnits e
  | .cwh _, e => cwhWithUnits e
  | .sun _, e => do pure [("theta", .num (← getIdx e.state 0))]
  | .rot2d _, e => rot2dWithUnits e
  | .sixDof _ _, e => sixDofWithUnits e
  | .dubins2d _, e => dubins2dWithUnits e
  | .dubins3d _, e => dubins3dWithUnits e

/-- is the class one of the integrators, whose keywords take no units? -/
def Spec.EntityClass.isIntegrator : EntityClass R → Bool
  | .integrator1d _ | .integrator2d _ | .integrator3d _ => true
  | _ => false

theorem si_velocity : (siBaseUnits (K := K)).velocity = metrePerSecond := ms_eq
theorem si_length : (siBaseUnits (K := K)).length = metre := rfl
theorem si_angularVelocity : (siBaseUnits (K := K)).angularVelocity = radianPerSecond := rs_eq
theorem dubins_length : (dubinsBaseUnits (K := K)).length = foot := rfl
theorem dubins_velocity : (dubinsBaseUnits (K := K)).velocity = footPerSecond := fs_eq
theorem dubins_angle : (dubinsBaseUnits (K := K)).angle = radian := rfl

theorem exists_list {n : Nat} {l : Vec R} (h : l.length = n) : ∃ f : Fin n → Fl R, l = List.ofFn f := by
  subst h
  exact ⟨l.get, (List.ofFn_get l).symm⟩

/-- the number stored for the state component `s` -/
def stateValue (c : EntityClass R) (kw : List (String × CfgVal R)) (s : String) : Fl R :=
  match lookup c.keywords s with
  | some k => initialValue (unitOf k.1) k.2 (lookup kw s)
  | none => .nan

theorem lookup_keyword {α : Type} {ks : List (String × α)} (hn : (ks.map Prod.fst).Nodup) {k : String × α} (hk : k ∈ ks) : lookup ks k.1 = some k.2 := by
  induction ks with
  | nil => cases hk
  | cons a ks ih =>
    simp only [List.map_cons, List.nodup_cons] at hn
    simp only [lookup]
    rcases List.mem_cons.1 hk with rfl | hk
    · simp
    · have : a.1 ≠ k.1 := fun h => hn.1 (h ▸ List.mem_map.2 ⟨k, hk, rfl⟩)
      rw [if_neg this]
      exact ih hn.2 hk

theorem initial_state_eq {c : EntityClass R} {env : Env R} {kw : List (String × CfgVal R)} {e : Entity R} (h : c.new env kw = .ok e) :
    e.state = c.stateOrder.map (fun s => (stateValue c kw s).cast32) := by
  have h3 := (C55_initial_state c env kw e h).2.2.1
  have h4 : List.Forall₂ (fun s x => x = (stateValue c kw s).cast32) c.stateOrder e.state := by
    refine h3.imp ?_
    rintro s x ⟨k, hk, rfl, rfl⟩
    simp only [stateValue, lookup_keyword (keywords_nodup c) hk]
  clear h3 h
  generalize c.stateOrder = l at h4
  generalize e.state = st at h4
  induction h4 with
  | nil => rfl
  | cons h _ ih => rw [List.map_cons, h, ih]

/-- Exporting an entity's attributes with their units and constructing an entity of the same class from them is accepted (by a
constructible class) and gives the same state (rounded to float32), in every arithmetic. -/
theorem C54_export_import (c : EntityClass R) (hc : c.isIntegrator = false) (env : Env R) (e : Entity R)
    (hlen : e.state.length = c.stateOrder.length) (nm : String) :
    ∃ kw, exported c e = .ok kw ∧ (∀ e', c.new env (("name", .str nm) :: kw) = .ok e' → e'.state = e.state.map Fl.cast32) ∧
      WellFormed c.keywords (("name", .str nm) :: kw) := by
  obtain ⟨f, hf⟩ := exists_list hlen
  cases c with
  | integrator1d a => cases hc
  | integrator2d a => cases hc
  | integrator3d a => cases hc
  | cwh a =>
    simp only [EntityClass.stateOrder, List.length_cons, List.length_nil] at f hf
    simp [List.ofFn_succ] at hf
    have hx : exported (.cwh a) e = .ok [("x", .quantity (f 0) metre), ("y", .quantity (f 1) metre), ("z", .quantity (f 2) metre), ("x_dot", .quantity (f 3) metrePerSecond), ("y_dot", .quantity (f 4) metrePerSecond), ("z_dot", .quantity (f 5) metrePerSecond)] := by
      simp only [exported, cwhWithUnits, rot2dWithUnits, sixDofWithUnits, dubins2dWithUnits, dubins3dWithUnits, quantityAt, hf, si_length,
        si_velocity, si_angularVelocity, dubins_length, dubins_velocity, dubins_angle]
      rfl
    refine ⟨_, hx, ?_, ⟨⟨nm, .inl rfl⟩, by simp [EntityClass.keywords], by
      simp [EntityClass.keywords, lookup, Acceptable, metre, metrePerSecond, foot, footPerSecond, radian, radianPerSecond]⟩⟩
    intro e' h
    rw [initial_state_eq h, hf]
    simp [EntityClass.stateOrder, EntityClass.keywords, stateValue, lookup, initialValue, unitOf]
  | sun a =>
    simp only [EntityClass.stateOrder, List.length_cons, List.length_nil] at f hf
    simp [List.ofFn_succ] at hf
    have hx : exported (.sun a) e = .ok [("theta", .num (f 0))] := by
      simp only [exported, cwhWithUnits, rot2dWithUnits, sixDofWithUnits, dubins2dWithUnits, dubins3dWithUnits, quantityAt, hf, si_length,
        si_velocity, si_angularVelocity, dubins_length, dubins_velocity, dubins_angle]
      rfl
    refine ⟨_, hx, ?_, ⟨⟨nm, .inl rfl⟩, by simp [EntityClass.keywords], by
      simp [EntityClass.keywords, lookup, Acceptable, metre, metrePerSecond, foot, footPerSecond, radian, radianPerSecond]⟩⟩
    intro e' h
    rw [initial_state_eq h, hf]
    simp [EntityClass.stateOrder, EntityClass.keywords, stateValue, lookup, initialValue, unitOf]
  | rot2d a =>
    simp only [EntityClass.stateOrder, List.length_cons, List.length_nil] at f hf
    simp [List.ofFn_succ] at hf
    have hx : exported (.rot2d a) e = .ok [("x", .quantity (f 0) metre), ("y", .quantity (f 1) metre), ("theta", .num (f 2)), ("x_dot", .quantity (f 3) metrePerSecond), ("y_dot", .quantity (f 4) metrePerSecond), ("wz", .quantity (f 5) radianPerSecond)] := by
      simp only [exported, cwhWithUnits, rot2dWithUnits, sixDofWithUnits, dubins2dWithUnits, dubins3dWithUnits, quantityAt, hf, si_length,
        si_velocity, si_angularVelocity, dubins_length, dubins_velocity, dubins_angle]
      rfl
    refine ⟨_, hx, ?_, ⟨⟨nm, .inl rfl⟩, by simp [EntityClass.keywords], by
      simp [EntityClass.keywords, lookup, Acceptable, metre, metrePerSecond, foot, footPerSecond, radian, radianPerSecond]⟩⟩
    intro e' h
    rw [initial_state_eq h, hf]
    simp [EntityClass.stateOrder, EntityClass.keywords, stateValue, lookup, initialValue, unitOf]
  | sixDof uninit a =>
    simp only [EntityClass.stateOrder, List.length_cons, List.length_nil] at f hf
    simp [List.ofFn_succ] at hf
    have hx : exported (.sixDof uninit a) e = .ok [("x", .quantity (f 0) metre), ("y", .quantity (f 1) metre), ("z", .quantity (f 2) metre), ("q1", .num (f 3)), ("q2", .num (f 4)), ("q3", .num (f 5)), ("q4", .num (f 6)), ("x_dot", .quantity (f 7) metrePerSecond), ("y_dot", .quantity (f 8) metrePerSecond), ("z_dot", .quantity (f 9) metrePerSecond), ("wx", .quantity (f 10) radianPerSecond), ("wy", .quantity (f 11) radianPerSecond), ("wz", .quantity (f 12) radianPerSecond)] := by
      simp only [exported, cwhWithUnits, rot2dWithUnits, sixDofWithUnits, dubins2dWithUnits, dubins3dWithUnits, quantityAt, hf, si_length,
        si_velocity, si_angularVelocity, dubins_length, dubins_velocity, dubins_angle]
      rfl
    refine ⟨_, hx, ?_, ⟨⟨nm, .inl rfl⟩, by simp [EntityClass.keywords], by
      simp [EntityClass.keywords, lookup, Acceptable, metre, metrePerSecond, foot, footPerSecond, radian, radianPerSecond]⟩⟩
    intro e' h
    rw [initial_state_eq h, hf]
    simp [EntityClass.stateOrder, EntityClass.keywords, stateValue, lookup, initialValue, unitOf]
  | dubins2d a =>
    simp only [EntityClass.stateOrder, List.length_cons, List.length_nil] at f hf
    simp [List.ofFn_succ] at hf
    have hx : exported (.dubins2d a) e = .ok [("x", .quantity (f 0) foot), ("y", .quantity (f 1) foot), ("z", .quantity 0 foot), ("heading", .quantity (f 2) radian), ("v", .quantity (f 3) footPerSecond)] := by
      simp only [exported, cwhWithUnits, rot2dWithUnits, sixDofWithUnits, dubins2dWithUnits, dubins3dWithUnits, quantityAt, hf, si_length,
        si_velocity, si_angularVelocity, dubins_length, dubins_velocity, dubins_angle]
      rfl
    refine ⟨_, hx, ?_, ⟨⟨nm, .inl rfl⟩, by simp [EntityClass.keywords], by
      simp [EntityClass.keywords, lookup, Acceptable, metre, metrePerSecond, foot, footPerSecond, radian, radianPerSecond]⟩⟩
    intro e' h
    rw [initial_state_eq h, hf]
    simp [EntityClass.stateOrder, EntityClass.keywords, stateValue, lookup, initialValue, unitOf]
  | dubins3d a =>
    simp only [EntityClass.stateOrder, List.length_cons, List.length_nil] at f hf
    simp [List.ofFn_succ] at hf
    have hx : exported (.dubins3d a) e = .ok [("x", .quantity (f 0) foot), ("y", .quantity (f 1) foot), ("z", .quantity (f 2) foot), ("heading", .quantity (f 3) radian), ("gamma", .quantity (f 4) radian), ("roll", .quantity (f 5) radian), ("v", .quantity (f 6) footPerSecond)] := by
      simp only [exported, cwhWithUnits, rot2dWithUnits, sixDofWithUnits, dubins2dWithUnits, dubins3dWithUnits, quantityAt, hf, si_length,
        si_velocity, si_angularVelocity, dubins_length, dubins_velocity, dubins_angle]
      rfl
    refine ⟨_, hx, ?_, ⟨⟨nm, .inl rfl⟩, by simp [EntityClass.keywords], by
      simp [EntityClass.keywords, lookup, Acceptable, metre, metrePerSecond, foot, footPerSecond, radian, radianPerSecond]⟩⟩
    intro e' h
    rw [initial_state_eq h, hf]
    simp [EntityClass.stateOrder, EntityClass.keywords, stateValue, lookup, initialValue, unitOf]

/-- An integrator does not accept its own exported position: the keywords of the integrators take bare numbers, and the exported
quantity is in metres. -/
theorem C54_integrator_rejects_export (c : EntityClass R) (hc : c.isIntegrator = true) (env : Env R) (e : Entity R)
    (hlen : e.state ≠ []) (nm : String) :
    ∃ kw, exported c e = .ok kw ∧ ∀ e', c.new env (("name", .str nm) :: kw) ≠ .ok e' := by
  obtain ⟨x, l, hl⟩ := List.exists_cons_of_ne_nil hlen
  have hx : exported c e = .ok [("x", .quantity x metre)] := by
    cases c <;> first
      | (simp [EntityClass.isIntegrator] at hc; done)
      | (simp only [exported, integratorXWithUnits, quantityAt, hl, si_length]; rfl)
  refine ⟨_, hx, ?_⟩
  refine (C54_wrong_dimension c env _ "x" none 0 ?_ x metre (by simp [lookup]) (by simp [metre, unitOf])).1
  cases c <;> first
    | (simp [EntityClass.isIntegrator] at hc; done)
    | simp [EntityClass.keywords]

end

/-! ### concrete cases -/

/-- a kilometre, a foot and a degree per second -/
def Spec.kilometre {K : Type} [Field K] : PUnit K := ⟨{ length := 1 }, 1000⟩
def Spec.hour {K : Type} [Field K] : PUnit K := ⟨{ time := 1 }, 3600⟩

/-- a spacecraft one kilometre along x and one foot along y, of a constructible class, in binary64 -/
example : ∃ e, (EntityClass.cwh (R := b64) { kwargs := [] }).new Demo.env
      [("name", .str "deputy"), ("x", .quantity 1 kilometre), ("y", .quantity 1000 foot), ("z_dot", .num 2)] = .ok e ∧
    decide (e.name = "deputy" ∧ e.state = [1000, Fl.cast32 304.8, 0, 0, 0, 2]) = true :=
  Demo.of_okAnd (by decide +kernel)
/-- a time is not a position; neither is a keyword that does not exist accepted -/
example : (EntityClass.cwh (R := b64) { kwargs := [] }).new Demo.env [("name", .str "deputy"), ("x", .quantity 1 hour)] = .error .valueError := by
  obtain ⟨e, he, -⟩ : ∃ e, (EntityClass.cwh (R := b64) { kwargs := [] }).new Demo.env [("name", .str "deputy")] = .ok e ∧ true = true :=
    Demo.of_okAnd (by decide +kernel)
  exact (C54_wrong_dimension _ _ _ "x" (some metre) 0 (by simp [EntityClass.keywords]) 1 hour rfl (by simp [hour, unitOf, metre])).2 _ _ he
example : (EntityClass.dubins2d (R := b64) { kwargs := [] }).new Demo.env [("name", .str "wing"), ("gamma", .num 0)] = .error .valueError := by
  obtain ⟨e, he, -⟩ : ∃ e, (EntityClass.dubins2d (R := b64) { kwargs := [] }).new Demo.env [("name", .str "wing")] = .ok e ∧ true = true :=
    Demo.of_okAnd (by decide +kernel)
  refine (C55_accepted_keywords _ _ _ _ he _).2 ?_
  intro h
  have := h.known ("gamma", .num 0) (by simp)
  simp [EntityClass.keywords] at this
/-- the same kilometre written in two ways -/
example : (EntityClass.cwh (R := ratFmt) { kwargs := [] }).new Demo.env [("name", .str "deputy"), ("x", .quantity (.fin 1) kilometre)] =
    (EntityClass.cwh (R := ratFmt) { kwargs := [] }).new Demo.env [("name", .str "deputy"), ("x", .num (.fin 1000))] := by
  apply C54_same_magnitude
  refine .cons ⟨rfl, .inl rfl⟩ (.cons ⟨rfl, .inr ⟨by decide, ?_⟩⟩ .nil)
  simp [EntityClass.keywords, magnitudeSI, kilometre, metre]

/-- a number may be given as a string that spells it, and a name may spell a number -/
example : ∃ e, (EntityClass.cwh (R := ratFmt) { kwargs := [] }).new Demo.env [("name", .numeral "7" 7), ("x", .numeral "1e3" (.fin 1000))] = .ok e ∧
    (e.name == "7" && e.state == [.fin 1000, 0, 0, 0, 0, 0]) = true :=
  Demo.of_okAnd (by decide +kernel)

end SAD
