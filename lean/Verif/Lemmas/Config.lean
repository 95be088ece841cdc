import Verif.Lemmas.Point
import Verif.Model.SixDof
import Verif.Spec.Classes
import Verif.Model.Rotational

/-! # Configuration validation and the initial state -/

set_option linter.unusedSectionVars false

namespace SAD
open Spec

section
variable {K : Type} {R : Fmt K} [Field K] [LinearOrder K]

/-- the value a keyword denotes for a field: a number is taken as it is, a string that spells one as that number, a quantity is converted to the field's unit -/
def Spec.Denotes : FieldKind K → CfgVal R → Fl R → Prop
  | _, .num y, x => x = y
  | _, .numeral _ y, x => x = y
  | .inUnit u, .quantity mag u', x => (u' = u ∧ x = mag) ∨ (u' ≠ u ∧ u'.dim = u.dim ∧ x = mag * .fin (u'.scale / u.scale))
  | .plain, .quantity mag u', x => (u' = ⟨{}, 1⟩ ∧ x = mag) ∨ (u' ≠ ⟨{}, 1⟩ ∧ u'.dim = {} ∧ x = mag * .fin u'.scale)
  | _, _, _ => False

/-- the configured value of the field `nm`: the keyword's, or the default if there is none -/
def Spec.FieldValue (fields : List (CfgField R)) (kwargs : List (String × CfgVal R)) (nm : String) (x : Fl R) : Prop :=
  ∃ f ∈ fields, f.name = nm ∧
    ((lookup kwargs nm = none ∧ x = f.default) ∨ ∃ v, lookup kwargs nm = some v ∧ Denotes f.kind v x)

theorem convertField_ok {f : CfgField R} {v : CfgVal R} {x : Fl R} (h : convertField f v = .ok x) : Denotes f.kind v x := by
  unfold convertField at h
  cases hk : f.kind with
  | plain =>
    rw [hk] at h
    cases v with
    | num y => cases h; rfl
    | quantity mag u =>
      simp only [convertPlain] at h
      split at h
      · cases h; exact .inl ⟨by assumption, rfl⟩
      · split at h
        · cases h; exact .inr ⟨by assumption, by assumption, rfl⟩
        · cases h
    | str s => cases h
    | numeral s y => cases h; rfl
    | other => cases h
  | inUnit u =>
    rw [hk] at h
    cases v with
    | num y => cases h; rfl
    | quantity mag u =>
      simp only [convertUnit] at h
      split at h
      · cases h; exact .inl ⟨by assumption, rfl⟩
      · split at h
        · cases h; exact .inr ⟨by assumption, by assumption, rfl⟩
        · cases h
    | str s => cases h
    | numeral s y => cases h; rfl
    | other => cases h

theorem fieldValues_lookup {kwargs : List (String × CfgVal R)} {fields : List (CfgField R)} {vs : List (String × Fl R)}
    (h : fieldValues kwargs fields = .ok vs) {nm : String} {x : Fl R} (hx : lookup vs nm = some x) : FieldValue fields kwargs nm x := by
  induction fields generalizing vs with
  | nil => cases h; simp [lookup] at hx
  | cons f fs ih =>
    have h' : ∃ v rest, (match lookup kwargs f.name with
        | none => .ok f.default
        | some v => convertField f v) = Except.ok v ∧ fieldValues kwargs fs = .ok rest ∧ vs = (f.name, v) :: rest := by
      unfold fieldValues at h
      cases hl : lookup kwargs f.name with
      | none =>
        simp only [hl] at h
        obtain ⟨v, hv, h⟩ := Except.bind_ok.1 h
        obtain ⟨rest, hrest, h⟩ := Except.bind_ok.1 h
        cases h
        exact ⟨v, rest, hv, hrest, rfl⟩
      | some w =>
        simp only [hl] at h
        obtain ⟨v, hv, h⟩ := Except.bind_ok.1 h
        obtain ⟨rest, hrest, h⟩ := Except.bind_ok.1 h
        cases h
        exact ⟨v, rest, hv, hrest, rfl⟩
    obtain ⟨v, rest, hv, hrest, rfl⟩ := h'
    simp only [lookup] at hx
    split at hx
    · rename_i hn
      subst hn
      cases hx
      refine ⟨f, by simp, rfl, ?_⟩
      cases hl : lookup kwargs f.name with
      | none => rw [hl] at hv; cases hv; exact .inl ⟨rfl, rfl⟩
      | some w => rw [hl] at hv; exact .inr ⟨w, rfl, convertField_ok hv⟩
    · obtain ⟨g, hg, h1, h2⟩ := ih hrest hx
      exact ⟨g, by simp [hg], h1, h2⟩

theorem validate_ok {fields : List (CfgField R)} {kwargs : List (String × CfgVal R)} {c : Config R} (h : validate fields kwargs = .ok c) :
    Named kwargs c.name ∧ (∀ kv ∈ kwargs, kv.1 = "name" ∨ ∃ f ∈ fields, f.name = kv.1) ∧
    fieldValues kwargs fields = .ok c.values := by
  unfold validate at h
  split at h
  · cases h
  rename_i hany
  have known : ∀ kv ∈ kwargs, kv.1 = "name" ∨ ∃ f ∈ fields, f.name = kv.1 := by
    intro kv hkv
    by_contra hcon
    push Not at hcon
    apply hany
    rw [List.any_eq_true]
    refine ⟨kv, hkv, ?_⟩
    have h2 : (fields.map CfgField.name).contains kv.1 = false := by
      rw [List.contains_eq_mem, decide_eq_false_iff_not]
      intro hm
      obtain ⟨f, hf, hn⟩ := List.mem_map.1 hm
      exact hcon.2 f hf hn
    rw [h2]
    simpa using hcon.1
  split at h
  · rename_i name hname
    obtain ⟨vs, hvs, h⟩ := Except.bind_ok.1 h
    cases h
    exact ⟨.inl hname, known, hvs⟩
  · rename_i name x hname
    obtain ⟨vs, hvs, h⟩ := Except.bind_ok.1 h
    cases h
    exact ⟨.inr ⟨x, hname⟩, known, hvs⟩
  · cases h

theorem buildState_ok {c : Config R} {layout : List String} {s : Vec R} (h : buildState c layout = .ok s) :
    List.Forall₂ (fun nm x => ∃ v, lookup c.values nm = some v ∧ x = v.cast32) layout s := by
  induction layout generalizing s with
  | nil => cases h; exact .nil
  | cons f fs ih =>
    unfold buildState at h
    obtain ⟨x, hx, h⟩ := Except.bind_ok.1 h
    obtain ⟨rest, hrest, h⟩ := Except.bind_ok.1 h
    cases h
    refine .cons ?_ (ih hrest)
    unfold Config.get at hx
    split at hx
    · rename_i v hv; cases hx; exact ⟨_, hv, rfl⟩
    · cases hx

/-- The keywords are accepted and the entity starts in the configured state: `name` is given, every keyword is the name or a
field, the state lists the fields of `layout` in that order, each rounded to float32, the derivative is zero. -/
structure Spec.Configured (fields : List (CfgField R)) (layout : List String) (kwargs : List (String × CfgVal R)) (e : Entity R) : Prop where
  name : Named kwargs e.name
  known : ∀ kv ∈ kwargs, kv.1 = "name" ∨ ∃ f ∈ fields, f.name = kv.1
  state : List.Forall₂ (fun nm x => ∃ v, FieldValue fields kwargs nm v ∧ x = v.cast32) layout e.state
  stateDot : e.stateDot = e.state.map (fun _ => 0)

theorem baseInit_configured {fields : List (CfgField R)} {layout : List String} {d : Dyn R} {cd : Vec R} {lo hi : Arr R}
    {cm : Option (List (String × Nat))} {kwargs : List (String × CfgVal R)} {e : Entity R}
    (h : baseInit fields layout d cd lo hi cm kwargs = .ok e) : Configured fields layout kwargs e := by
  unfold baseInit at h
  obtain ⟨c, hc, h⟩ := Except.bind_ok.1 h
  obtain ⟨s, hs, h⟩ := Except.bind_ok.1 h
  cases h
  obtain ⟨h1, h2, h3⟩ := validate_ok hc
  refine ⟨h1, h2, ?_, rfl⟩
  refine (buildState_ok hs).imp ?_
  rintro nm x ⟨v, hv, rfl⟩
  exact ⟨v, fieldValues_lookup h3 hv, rfl⟩

/-- every number is accepted as it is, a missing keyword gives the default -/
theorem FieldValue.unique {fields : List (CfgField R)} (hn : (fields.map CfgField.name).Nodup) {kwargs : List (String × CfgVal R)}
    {f : CfgField R} (hf : f ∈ fields) {x : Fl R} (h : FieldValue fields kwargs f.name x) :
    (lookup kwargs f.name = none ∧ x = f.default) ∨ ∃ v, lookup kwargs f.name = some v ∧ Denotes f.kind v x := by
  obtain ⟨g, hg, hgn, h⟩ := h
  have : g = f := List.inj_on_of_nodup_map hn hg hf hgn
  subst this
  exact h

theorem newSixDof_configured {env : Env R} {uninit : List Nat → Vec R} {a : SixDofArgs R} {e : Entity R} (h : newSixDof env uninit a = .ok e) :
    Configured sixDofFields ["x", "y", "z", "q1", "q2", "q3", "q4", "x_dot", "y_dot", "z_dot", "wx", "wy", "wz"] a.kwargs e := by
  have h := instantiate_ok h
  unfold initSixDof at h
  obtain ⟨_, -, h⟩ := Except.bind_ok.1 h
  obtain ⟨_, -, h⟩ := Except.bind_ok.1 h
  obtain ⟨⟨_, _, _⟩, -, h⟩ := Except.bind_ok.1 h
  obtain ⟨⟨_, _, _⟩, -, h⟩ := Except.bind_ok.1 h
  obtain ⟨⟨_, _, _⟩, -, h⟩ := Except.bind_ok.1 h
  obtain ⟨d, -, h⟩ := Except.bind_ok.1 h
  exact baseInit_configured h

end
end SAD
