import Verif.Model.AeroUtil

/-! # C68: frozen objects -/

namespace SAD.Aero.Obj

variable {V : Type}

/-! ## Lookup after a store -/

theorem lookup_store (key : String) (v : V) (d : List (String × V)) (k : String) :
    (store key v d).lookup k = if k = key then some v else d.lookup k := by
  induction d with
  | nil => simp only [store, List.lookup]; split <;> simp_all
  | cons kw rest ih =>
    obtain ⟨k', w⟩ := kw
    unfold store
    split_ifs with h1 h2 h2
    · subst h1; subst h2; simp
    · subst h1; simp [List.lookup, h2, beq_eq_false_iff_ne.2 h2]
    · subst h2; simp [List.lookup, beq_eq_false_iff_ne.2 (Ne.symm h1), ih]
    · simp only [List.lookup, ih, if_neg h2]

theorem getattr_store (o : Obj V) (key : String) (v : V) (k : String) :
    getattr { o with dict := store key v o.dict } k = if k = key then some v else o.getattr k := by
  unfold getattr
  simp only [lookup_store]
  split_ifs <;> rfl

/-- one event in the life of an object: an assignment or a deletion by the program -/
inductive Event (V : Type)
  | set (key : String) (v : V)
  | del (key : String)

/-- the object after an event; exceptions are caught by the program -/
def Event.run (truthy : V → Bool) (o : Obj V) : Event V → Obj V
  | .set key v => (setattr truthy o key v).2
  | .del key => (delattr o key).2

/-- the name an event assigns or deletes -/
def Event.key : Event V → String
  | .set key _ => key
  | .del key => key

/-- frozen: the lock is closed -/
def Frozen (truthy : V → Bool) (o : Obj V) : Prop := ∃ f, o.getattr "_frozen" = some f ∧ truthy f = true

variable {truthy : V → Bool} {o : Obj V} {key : String} {v : V}

/-- `freeze_attrs` never fails on an object whose class has the lock, and closes it. -/
theorem C68_freeze (tt : V) (ht : truthy tt = true) (hc : (o.cls.lookup "_frozen").isSome) :
    (freezeAttrs truthy tt o).1 = none ∧ Frozen truthy (freezeAttrs truthy tt o).2 ∧
      ∀ k, k ≠ "_frozen" → (freezeAttrs truthy tt o).2.getattr k = o.getattr k := by
  have hh : o.hasattr "_frozen" = true := by
    unfold hasattr getattr
    cases o.dict.lookup "_frozen" <;> simp_all
  have e : freezeAttrs truthy tt o = (none, { o with dict := store "_frozen" tt o.dict }) := by
    unfold freezeAttrs setattr
    simp [hh]
  rw [e]
  refine ⟨rfl, ⟨tt, by rw [getattr_store, if_pos rfl], ht⟩, fun k hk => by rw [getattr_store, if_neg hk]⟩

/-- On a frozen object an assignment to a name it does not have raises TypeError and changes nothing. -/
theorem C68_rejected (hf : Frozen truthy o) (hk : o.getattr key = none) : setattr truthy o key v = (some .typeError, o) := by
  obtain ⟨f, h1, h2⟩ := hf
  unfold setattr hasattr locked
  rw [h1, hk]
  simp [h2]

open Classical in
/-- An assignment succeeds, giving the attribute its value and leaving the others alone, exactly when the object is not frozen or has the
attribute; otherwise it raises TypeError. -/
theorem C68_assign : (setattr truthy o key v).1 = (if Frozen truthy o ∧ o.getattr key = none then some .typeError else none) ∧
    ∀ k, (setattr truthy o key v).2.getattr k =
      if k = key ∧ ¬ (Frozen truthy o ∧ o.getattr key = none) then some v else o.getattr k := by
  by_cases h : Frozen truthy o ∧ o.getattr key = none
  · rw [C68_rejected h.1 h.2]
    simp [h]
  · have hcond : (o.locked truthy && !o.hasattr key) = false := by
      rw [Bool.and_eq_false_iff]
      unfold locked
      by_cases hk : o.getattr key = none
      · left
        cases hf : o.getattr "_frozen" with
        | none => rfl
        | some f =>
          by_contra ht
          exact h ⟨⟨f, hf, by simpa using ht⟩, hk⟩
      · right
        unfold hasattr
        cases hh : o.getattr key <;> simp_all
    have e : setattr truthy o key v = (none, { o with dict := store key v o.dict }) := by
      unfold setattr
      rw [hcond]; rfl
    rw [e, if_neg h]
    refine ⟨rfl, fun k => ?_⟩
    rw [getattr_store]
    simp [h]

theorem lookup_filter (d : List (String × V)) (key k : String) :
    (d.filter (fun kv => kv.1 ≠ key)).lookup k = if k = key then none else d.lookup k := by
  induction d with
  | nil => simp
  | cons kw rest ih =>
    obtain ⟨k', w⟩ := kw
    by_cases h : k' = key
    · subst h
      rw [List.filter_cons_of_neg (by simp), ih]
      split_ifs with h2
      · rfl
      · simp [List.lookup, beq_eq_false_iff_ne.2 h2]
    · rw [List.filter_cons_of_pos (by simpa using h)]
      simp only [List.lookup, ih]
      split_ifs with h2
      · subst h2; simp [beq_eq_false_iff_ne.2 (Ne.symm h)]
      · rfl

theorem delattr_getattr (k : String) :
    (delattr o key).2.getattr k = if k = key then (delattr o key).2.getattr key else o.getattr k := by
  by_cases hk : k = key
  · rw [if_pos hk, hk]
  · rw [if_neg hk]
    unfold delattr
    split_ifs
    · unfold getattr
      simp only
      rw [lookup_filter, if_neg hk]
    · rfl

/-- After `freeze_attrs`, whatever the program assigns or deletes (other than the lock itself), in any order and catching every
exception, it never has an attribute it did not have when it was frozen; the lock stays closed. -/
theorem C68_no_new_attributes (hf : Frozen truthy o) (hist : List (Event V)) (hl : ∀ e ∈ hist, e.key ≠ "_frozen") :
    Frozen truthy (hist.foldl (Event.run truthy) o) ∧
      ∀ k, (hist.foldl (Event.run truthy) o).hasattr k = true → o.hasattr k = true := by
  induction hist generalizing o with
  | nil => exact ⟨hf, fun k h => h⟩
  | cons e rest ih =>
    have hk : e.key ≠ "_frozen" := hl e (by simp)
    have step : Frozen truthy (e.run truthy o) ∧ ∀ k, (e.run truthy o).hasattr k = true → o.hasattr k = true := by
      obtain ⟨f, h1, h2⟩ := hf
      cases e with
      | set key v =>
        have ha := (C68_assign (truthy := truthy) (o := o) (key := key) (v := v)).2
        refine ⟨⟨f, ?_, h2⟩, fun k h => ?_⟩
        · change (setattr truthy o key v).2.getattr "_frozen" = _
          rw [ha, if_neg (fun h => hk h.1.symm), h1]
        · change ((setattr truthy o key v).2.getattr k).isSome = true at h
          rw [ha] at h
          split_ifs at h with hc
          · have hne : o.getattr key ≠ none := fun hn => hc.2 ⟨⟨f, h1, h2⟩, hn⟩
            rw [hc.1]
            exact Option.isSome_iff_ne_none.2 hne
          · exact h
      | del key =>
        refine ⟨⟨f, ?_, h2⟩, fun k h => ?_⟩
        · change (delattr o key).2.getattr "_frozen" = _
          rw [delattr_getattr, if_neg (fun h => hk h.symm), h1]
        · change ((delattr o key).2.getattr k).isSome = true at h
          unfold delattr at h
          split_ifs at h with hc
          · unfold hasattr getattr
            unfold getattr at h
            simp only at h
            rw [lookup_filter] at h
            split_ifs at h with hkk
            · subst hkk
              simp only at h
              cases hd : o.dict.lookup k <;> simp_all
            · exact h
          · exact h
    obtain ⟨s1, s2⟩ := step
    obtain ⟨r1, r2⟩ := ih s1 (fun e' he' => hl e' (by simp [he']))
    exact ⟨r1, fun k h => s2 k (r2 k h)⟩

/-- With assignments alone the attributes stay exactly those of the moment of freezing. -/
theorem C68_same_attributes (hf : Frozen truthy o) (hist : List (String × V)) (hl : ∀ kv ∈ hist, kv.1 ≠ "_frozen") (k : String) :
    (hist.foldl (fun o kv => (setattr truthy o kv.1 kv.2).2) o).hasattr k = o.hasattr k := by
  induction hist generalizing o with
  | nil => rfl
  | cons kv rest ih =>
    have ha := (C68_assign (truthy := truthy) (o := o) (key := kv.1) (v := kv.2)).2
    have hk := hl kv (by simp)
    have hf' : Frozen truthy (setattr truthy o kv.1 kv.2).2 := by
      obtain ⟨f, h1, h2⟩ := hf
      exact ⟨f, by rw [ha, if_neg (fun h => hk h.1.symm), h1], h2⟩
    rw [List.foldl_cons, ih hf' (fun e he => hl e (by simp [he]))]
    unfold hasattr
    rw [ha]
    split_ifs with hc
    · have hne : o.getattr kv.1 ≠ none := fun hn => hc.2 ⟨hf, hn⟩
      rw [hc.1]
      exact (Option.isSome_iff_ne_none.2 hne).symm
    · rfl

/-- The lock is an attribute like the others: assigning a false value to it thaws the object, and then any attribute can be created. -/
theorem C68_thaw (ff : V) (hff : truthy ff = false) (hf : Frozen truthy o) (hk : o.getattr key = none) :
    (setattr truthy (setattr truthy o "_frozen" ff).2 key v).1 = none ∧
    (setattr truthy (setattr truthy o "_frozen" ff).2 key v).2.getattr key = some v := by
  have hne : o.getattr "_frozen" ≠ none := by obtain ⟨f, h, _⟩ := hf; rw [h]; simp
  have ha := (C68_assign (truthy := truthy) (o := o) (key := "_frozen") (v := ff)).2
  have hnf : ¬ Frozen truthy (setattr truthy o "_frozen" ff).2 := by
    rintro ⟨f, h1, h2⟩
    rw [ha, if_pos ⟨rfl, fun h => hne h.2⟩] at h1
    cases h1
    rw [hff] at h2
    cases h2
  obtain ⟨b1, b2⟩ := C68_assign (truthy := truthy) (o := (setattr truthy o "_frozen" ff).2) (key := key) (v := v)
  exact ⟨by rw [b1, if_neg (fun h => hnf h.1)], by rw [b2, if_pos ⟨rfl, fun h => hnf h.1⟩]⟩

/-- the object of the examples: the class has the lock and a method, the instance one attribute -/
def demo : Obj Bool := ⟨[("altitude", true)], [("_frozen", false), ("freeze_attrs", true)]⟩

example : ¬ Frozen id demo ∧ Frozen id (freezeAttrs id true demo).2 ∧ (freezeAttrs id true demo).2.getattr "altitud" = none := by
  refine ⟨?_, ⟨true, rfl, rfl⟩, rfl⟩
  rintro ⟨f, h1, h2⟩
  cases h1
  cases h2

end SAD.Aero.Obj
