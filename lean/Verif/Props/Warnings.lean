import Verif.Spec.Warnings
import Verif.Props.Demo

/-!
# C110: how the limit warning is seen
-/

namespace SAD
open Spec

theorem mem_firsts {t : String} {l : List String} : t ∈ firsts l ↔ t ∈ l := by
  induction l with
  | nil => simp [firsts]
  | cons x l ih =>
    simp only [firsts, List.mem_cons, List.mem_filter, ih, decide_eq_true_eq]
    by_cases h : t = x <;> simp [h]

theorem firsts_append (l : List String) (t : String) : firsts (l ++ [t]) = if t ∈ l then firsts l else firsts l ++ [t] := by
  induction l with
  | nil => simp [firsts]
  | cons x l ih =>
    simp only [List.cons_append, firsts, ih, List.mem_cons]
    by_cases h : t = x
    · subst h
      by_cases h' : t ∈ l <;> simp [h', List.filter_append]
    · by_cases h' : t ∈ l <;> simp [h, h', List.filter_append]

theorem nodup_firsts (l : List String) : (firsts l).Nodup := by
  induction l with
  | nil => simp [firsts]
  | cons x l ih =>
    simp only [firsts, List.nodup_cons, List.mem_filter]
    exact ⟨by simp, ih.filter _⟩

theorem shownUnder_append (a : WAction) (before ts : List String) (t : String) :
    shownUnder a before (ts ++ [t]) = shownUnder a before ts ++
      match a with
      | .default => if t ∈ ts then [] else [t]
      | .module => if t ∈ ts then [] else [t]
      | .once => if t ∈ ts ∨ t ∈ before then [] else [t]
      | .always => [t]
      | .ignore => []
      | .error => [] := by
  cases a <;> simp only [shownUnder, firsts_append]
  · split <;> simp
  · split <;> simp
  · by_cases h : t ∈ ts
    · simp [h]
    · by_cases h' : t ∈ before <;> simp [h, h', List.filter_append]
  · simp
  · simp

theorem shownUnder_congr (a : WAction) {b b' : List String} (ts : List String) (h : ∀ t, t ∈ b ↔ t ∈ b') : shownUnder a b ts = shownUnder a b' ts := by
  cases a <;> simp [shownUnder, h]

/-- whether the filters mark a text as seen -/
def WAction.marks : WAction → Bool
  | .default => true
  | .module => true
  | .once => true
  | _ => false

/-- the registry as the next warning will find it -/
def Warn.fresh (w : Warn) : Warn := if w.regVersion = w.version then w else { w with regVersion := w.version, seen := [], seenModule := [] }

/-- the state of `warnings` after the texts `ts` since the filters were set to `a` in the state `w0` -/
structure Since (a : WAction) (w0 : Warn) (ts : List String) (w : Warn) : Prop where
  action : w.action = a
  shown : w.shown = w0.shown ++ shownUnder a w0.onceSeen ts
  seen : ∀ t, t ∈ w.fresh.seen ↔ a.marks = true ∧ t ∈ ts
  seenModule : a = .module → ∀ t, t ∈ w.fresh.seenModule ↔ t ∈ ts
  once : ∀ t, t ∈ w.onceSeen ↔ t ∈ w0.onceSeen ∨ (a = .once ∧ t ∈ ts)
  version : w.regVersion ≤ w.version

theorem fresh_idem (w : Warn) : w.fresh.fresh = w.fresh := by
  unfold Warn.fresh
  by_cases h : w.regVersion = w.version <;> simp [h]

theorem Since.warn {a : WAction} {w0 w : Warn} {ts : List String} (h : Since a w0 ts w) (t : String) :
    Since a w0 (ts ++ [t]) (w.warn t).1 ∧ ((w.warn t).2 = true ↔ a = .error) := by
  obtain ⟨h1, h2, h3, h4, h5, h6⟩ := h
  have e1 : w.fresh.action = a := by unfold Warn.fresh; split <;> exact h1
  have e2 : w.fresh.shown = w.shown := by unfold Warn.fresh; split <;> rfl
  have e3 : w.fresh.onceSeen = w.onceSeen := by unfold Warn.fresh; split <;> rfl
  have e4 : w.fresh.regVersion = w.fresh.version := by unfold Warn.fresh; split <;> simp_all
  have key : w.warn t = w.fresh.warn t := by
    unfold Warn.warn
    rw [show (if w.fresh.regVersion = w.fresh.version then w.fresh else _) = w.fresh from if_pos e4]
    rfl
  rw [key]
  rw [← e2] at h2
  rw [← e3] at h5
  have h6' : w.fresh.regVersion ≤ w.fresh.version := e4.le
  generalize w.fresh = v at *
  have fr : ∀ x : Warn, x.regVersion = x.version → x.fresh = x := fun x hx => if_pos hx
  unfold Warn.warn
  rw [if_pos e4]
  by_cases hs : t ∈ v.seen
  · obtain ⟨hm, ht⟩ := (h3 t).1 hs
    simp only [hs, if_true]
    refine ⟨⟨e1, ?_, ?_, ?_, ?_, h6'⟩, ?_⟩
    · rw [h2, shownUnder_append]
      cases a <;> simp_all [WAction.marks]
    · intro t'
      rw [fr v e4, h3, List.mem_append, List.mem_singleton]
      constructor
      · rintro ⟨p, q⟩; exact ⟨p, Or.inl q⟩
      · rintro ⟨p, q | rfl⟩
        · exact ⟨p, q⟩
        · exact ⟨p, ht⟩
    · intro ha t'
      rw [fr v e4, h4 ha, List.mem_append, List.mem_singleton]
      exact ⟨Or.inl, fun q => q.elim id (fun e => e ▸ ht)⟩
    · intro t'
      rw [h5, List.mem_append, List.mem_singleton]
      constructor
      · rintro (p | ⟨p, q⟩)
        · exact Or.inl p
        · exact Or.inr ⟨p, Or.inl q⟩
      · rintro (p | ⟨p, q | rfl⟩)
        · exact Or.inl p
        · exact Or.inr ⟨p, q⟩
        · exact Or.inr ⟨p, ht⟩
    · cases a <;> simp_all [WAction.marks]
  · have hn : a.marks = true → t ∉ ts := fun p q => hs ((h3 t).2 ⟨p, q⟩)
    have h2' := h2
    rcases v with ⟨va, ver, vr, vs, vm, vo, vsh⟩
    simp only at e1 e4 h5 h2 hs
    subst e1 e4
    simp only [hs, if_false] at h3 h4 ⊢
    have e4 : vr = vr := rfl
    have h6'' : vr ≤ vr := le_rfl
    cases va with
    | ignore =>
      refine ⟨⟨rfl, by rw [h2, shownUnder_append]; simp, ?_, by simp, ?_, h6''⟩, by simp⟩
      · intro t'; rw [fr _ rfl, h3]; simp [WAction.marks]
      · intro t'; rw [h5]; simp
    | error =>
      refine ⟨⟨rfl, by rw [h2, shownUnder_append]; simp, ?_, by simp, ?_, h6''⟩, by simp⟩
      · intro t'; rw [fr _ rfl, h3]; simp [WAction.marks]
      · intro t'; rw [h5]; simp
    | always =>
      refine ⟨⟨rfl, by simp [h2, shownUnder_append], ?_, by simp, ?_, h6''⟩, by simp⟩
      · intro t'; rw [fr _ rfl]; simpa [WAction.marks] using h3 t'
      · intro t'; simpa using h5 t'
    | default =>
      refine ⟨⟨rfl, by simp [h2, shownUnder_append, hn rfl], ?_, by simp, ?_, h6''⟩, by simp⟩
      · intro t'
        rw [fr _ rfl]
        have := h3 t'
        simp [WAction.marks] at this ⊢
        rw [this]; tauto
      · intro t'; simpa using h5 t'
    | module =>
      have hm : t ∉ vm := by have := h4 rfl t; exact fun p => hn rfl (this.1 p)
      simp only [hm, if_false]
      refine ⟨⟨rfl, by simp [h2, shownUnder_append, hn rfl], ?_, ?_, ?_, h6''⟩, by simp⟩
      · intro t'
        rw [fr _ rfl]
        have := h3 t'
        simp [WAction.marks] at this ⊢
        rw [this]; tauto
      · intro _ t'
        rw [fr _ rfl]
        have := h4 rfl t'
        simp [this]; tauto
      · intro t'; simpa using h5 t'
    | once =>
      have hseen : ∀ t', t' ∈ t :: vs ↔ t' ∈ ts ++ [t] := by
        intro t'
        have := h3 t'
        simp [WAction.marks] at this ⊢
        rw [this]; tauto
      by_cases ho : t ∈ vo
      · have hb : t ∈ w0.onceSeen := by
          rcases (h5 t).1 ho with p | ⟨-, p⟩
          · exact p
          · exact absurd p (hn rfl)
        simp only [ho, if_true]
        refine ⟨⟨rfl, by simp [h2, shownUnder_append, hb], ?_, by simp, ?_, h6''⟩, by simp⟩
        · intro t'
          rw [fr _ rfl]
          simpa [WAction.marks] using hseen t'
        · intro t'
          rw [h5]
          simp
          constructor
          · tauto
          · rintro (p | p | rfl)
            · exact Or.inl p
            · exact Or.inr p
            · exact Or.inl hb
      · have hb : t ∉ w0.onceSeen := fun p => ho ((h5 t).2 (Or.inl p))
        simp only [ho, if_false]
        refine ⟨⟨rfl, by simp [h2, shownUnder_append, hb, hn rfl], ?_, by simp, ?_, h6''⟩, by simp⟩
        · intro t'
          rw [fr _ rfl]
          simpa [WAction.marks] using hseen t'
        · intro t'
          have := h5 t'
          simp at this ⊢
          rw [this]; tauto

theorem warn_version (w : Warn) (t : String) : (w.warn t).1.regVersion ≤ (w.warn t).1.version := by
  obtain ⟨a, v, r, s, m, o, sh⟩ := w
  by_cases h : r = v
  · subst h
    cases a <;> simp only [Warn.warn, if_true] <;> repeat' (split <;> try exact le_rfl)
  · cases a <;> simp only [Warn.warn, h, if_false] <;> repeat' (split <;> try exact le_rfl)

theorem Since.filter (w : Warn) (h : w.regVersion ≤ w.version) (a : WAction) : Since a (w.filter a) [] (w.filter a) := by
  have hf : (w.filter a).fresh = { w.filter a with regVersion := (w.filter a).version, seen := [], seenModule := [] } := by
    unfold Warn.fresh
    rw [if_neg (by simp only [Warn.filter]; omega)]
  refine ⟨rfl, ?_, ?_, ?_, by simp, by simp only [Warn.filter]; omega⟩
  · cases a <;> simp [shownUnder, firsts]
  · intro t; rw [hf]; simp
  · intro _ t; rw [hf]

theorem Since.start (a : WAction) : Since a (Warn.start a) [] (Warn.start a) := by
  refine ⟨rfl, ?_, ?_, ?_, by simp, le_rfl⟩
  · cases a <;> simp [shownUnder, firsts]
  · intro t; simp [Warn.fresh, Warn.start]
  · intro _ t; simp [Warn.fresh, Warn.start]

section
variable {K : Type} {R : Fmt K} [Field K] [LinearOrder K] [FloorRing K]

/-- a step with filters, from the step without -/
theorem warnStep_eq (env : Env R) (text : Arr R → Arr R → String) (w : Warn) (e : Entity R) (dt : Fl R) (a : Action R) :
    e.warnStep env text w dt a =
      if (e.step env dt a).warned then
        let r := w.warn (text e.controlMin e.controlMax)
        if r.2 then (r.1, ⟨e, true, .error .userWarning⟩) else (r.1, e.step env dt a)
      else (w, e.step env dt a) := by
  unfold Entity.warnStep Entity.step
  cases e.resolve env a with
  | error x => simp
  | ok p =>
    obtain ⟨ty, u⟩ := p
    simp only
    cases exceeds u (e.controlMin.forDType ty) (e.controlMax.forDType ty) with
    | error x => simp
    | ok b =>
      simp only
      cases hc : npClip u (e.controlMin.forDType ty) (e.controlMax.forDType ty) with
      | error x =>
        cases b with
        | false => simp
        | true =>
          rcases w.warn (text e.controlMin e.controlMax) with ⟨w', b⟩
          cases b <;> simp
      | ok v =>
        simp only
        rcases e.dynamics.step env dt e.state v with ⟨d, r⟩
        cases b with
        | false => cases r <;> simp
        | true =>
          rcases w.warn (text e.controlMin e.controlMax) with ⟨w', b⟩
          cases b <;> cases r <;> simp

theorem emittedBy_eq_nil (env : Env R) (text text' : Arr R → Arr R → String) (es : List (Entity R)) (i : Nat) (o : Op R) :
    emittedBy env text es i o = [] ↔ emittedBy env text' es i o = [] := by
  cases o <;> simp only [emittedBy]
  cases es[i]? with
  | none => simp
  | some e => simp only; split <;> simp

theorem Since.op (env : Env R) (text : Arr R → Arr R → String) {a : WAction} {w0 w : Warn} {ts : List String} (h : Since a w0 ts w) (es : List (Entity R))
    (i : Nat) (o : Op R) :
    Since a w0 (ts ++ emittedBy env text es i o) (warnOp env text (w, es) (.on i o)).1 ∧
      (warnOp env text (w, es) (.on i o)).2 = entitiesAfter (a = .error) env es i o := by
  have hset : ∀ {e : Entity R}, es[i]? = some e → es.set i e = es := by
    intro e he
    obtain ⟨hi, rfl⟩ := List.getElem?_eq_some_iff.1 he
    exact List.set_getElem_self hi
  unfold entitiesAfter warnOp
  cases he : es[i]? with
  | none =>
    have hem : ∀ text, emittedBy env text es i o = [] := by intro text; cases o <;> simp [emittedBy, he]
    simp [hem, h, he]
  | some e =>
    cases o with
    | setState v => simp [emittedBy, h, he]
    | setElem j v => simp [emittedBy, h, he]
    | step dt act =>
      simp only [emittedBy, he, warnStep_eq]
      by_cases hw : (e.step env dt act).warned = true
      · simp only [hw, if_true]
        obtain ⟨h1, h2⟩ := h.warn (text e.controlMin e.controlMax)
        by_cases ha : a = .error
        · have := h2.2 ha
          simp only [this, if_true]
          refine ⟨h1, ?_⟩
          simp [ha, hset he]
        · have : (w.warn (text e.controlMin e.controlMax)).2 = false := by
            cases hc : (w.warn (text e.controlMin e.controlMax)).2 with
            | true => exact absurd (h2.1 hc) ha
            | false => rfl
          simp only [this, Bool.false_eq_true, if_false]
          exact ⟨h1, by simp [ha, Entity.op]⟩
      · simp only [hw, Bool.false_eq_true, if_false]
        refine ⟨by simpa using h, by simp [Entity.op]⟩

theorem Since.run (env : Env R) (text : Arr R → Arr R → String) {a : WAction} {w0 : Warn} (ops : List (Nat × Op R)) :
    ∀ {w : Warn} {ts : List String} (_ : Since a w0 ts w) (es : List (Entity R)),
    Since a w0 (ts ++ emitted (a = .error) env text es ops) (warnRun env text (w, es) (ops.map fun o => .on o.1 o.2)).1 ∧
      (warnRun env text (w, es) (ops.map fun o => .on o.1 o.2)).2 = entitiesAfterAll (a = .error) env es ops := by
  induction ops with
  | nil => intro w ts h es; simpa [emitted, warnRun, entitiesAfterAll] using h
  | cons o ops ih =>
    intro w ts h es
    obtain ⟨h1, h2⟩ := h.op env text es o.1 o.2
    obtain ⟨h3, h4⟩ := ih h1 (entitiesAfter (a = .error) env es o.1 o.2)
    rw [← h2] at h3 h4
    simp only [emitted, ← List.append_assoc, ← h2]
    refine ⟨h3, h4.trans ?_⟩
    rw [h2]; rfl

/-- **What is seen.** In every program that sets the filters, operates its entities, sets the filters again, and so on, the warnings shown are,
stretch by stretch: under `default` and `module` each text once, at its first occurrence in the stretch (however often limits are exceeded, by
however many entities with the same limits); under `once` the same, but only texts that have not occurred under `once` before; under `always`
every one; under `ignore` and `error` none. And the entities at the end are those of the program without filters, except that under `error`
a step that warns changes nothing. -/
theorem C110_shown (env : Env R) (text : Arr R → Arr R → String) (es : List (Entity R)) (a0 : WAction) (ss : List (WarnStretch R)) :
    (warnRun env text (Warn.start a0, es) (programOf ss)).1.shown = shownIn env text es [] ss ∧
    (warnRun env text (Warn.start a0, es) (programOf ss)).2 = entitiesAtEnd env es ss := by
  have key : ∀ (ss : List (WarnStretch R)) (w : Warn) (es : List (Entity R)) (before : List String), w.regVersion ≤ w.version →
      (∀ t, t ∈ w.onceSeen ↔ t ∈ before) →
      (warnRun env text (w, es) (programOf ss)).1.shown = w.shown ++ shownIn env text es before ss ∧
      (warnRun env text (w, es) (programOf ss)).2 = entitiesAtEnd env es ss := by
    intro ss
    induction ss with
    | nil => intro w es before _ _; simp [programOf, warnRun, shownIn, entitiesAtEnd]
    | cons s ss ih =>
      obtain ⟨a, ops⟩ := s
      intro w es before hv hb
      obtain ⟨h1, h2⟩ := Since.run env text ops (Since.filter w hv a) es
      simp only [List.nil_append] at h1
      have e : warnRun env text (w, es) (programOf ((a, ops) :: ss)) =
          warnRun env text (warnRun env text (w.filter a, es) (ops.map fun o => .on o.1 o.2)) (programOf ss) := by
        simp [warnRun, programOf, warnOp, List.foldl_append]
      rw [e]
      generalize hr : warnRun env text (w.filter a, es) (ops.map fun o => .on o.1 o.2) = r at h1 h2
      obtain ⟨w', es'⟩ := r
      simp only at h1 h2
      subst h2
      obtain ⟨h3, h4⟩ := ih w' (entitiesAfterAll (a = .error) env es ops)
        (if a = .once then before ++ emitted (a = .error) env text es ops else before) h1.version (by
          intro t
          rw [h1.once, show (w.filter a).onceSeen = w.onceSeen from rfl, hb]
          by_cases ha : a = .once <;> simp [ha])
      refine ⟨?_, ?_⟩
      · rw [h3, h1.shown, shownIn, List.append_assoc, shownUnder_congr a (b := (w.filter a).onceSeen) _ hb]
        rfl
      · rw [h4]; rfl
  have := key ss (Warn.start a0) es [] le_rfl (by simp [Warn.start])
  simpa [Warn.start] using this

/-- **Seen once.** With Python's usual filters, which show a warning of a given text and place once, a program that does not touch the filters shows every
text at most once, and it shows exactly the texts of the limits that some step exceeded. -/
theorem C110_default (env : Env R) (text : Arr R → Arr R → String) (es : List (Entity R)) (ops : List (Nat × Op R)) :
    let r := warnRun env text (Warn.start .default, es) (ops.map fun o => .on o.1 o.2)
    r.1.shown.Nodup ∧ r.2 = entitiesAfterAll false env es ops ∧
      ∀ t, t ∈ r.1.shown ↔ ∃ before i o after, ops = before ++ (i, o) :: after ∧ t ∈ emittedBy env text (entitiesAfterAll false env es before) i o := by
  obtain ⟨h1, h2⟩ := Since.run env text ops (Since.start .default) es
  simp only [List.nil_append] at h1
  have hs := h1.shown
  simp only [Warn.start, List.nil_append, shownUnder, reduceCtorEq, decide_false] at hs h2
  simp only [Warn.start]
  rw [hs, h2]
  refine ⟨nodup_firsts _, rfl, fun t => mem_firsts.trans ?_⟩
  clear hs h1 h2
  induction ops generalizing es with
  | nil => simp [emitted]
  | cons o ops ih =>
    rw [emitted, List.mem_append, ih]
    constructor
    · rintro (h | ⟨before, i, o', after, h, ht⟩)
      · exact ⟨[], o.1, o.2, ops, rfl, h⟩
      · exact ⟨o :: before, i, o', after, by rw [h]; rfl, ht⟩
    · rintro ⟨before, i, o', after, h, ht⟩
      cases before with
      | nil => cases h; exact Or.inl ht
      | cons b before =>
        simp only [List.cons_append, List.cons.injEq] at h
        obtain ⟨rfl, rfl⟩ := h
        exact Or.inr ⟨before, i, o', after, rfl, ht⟩

/-- **Warnings as errors.** After any program, with the filters at `error`: a step whose control exceeds the limits raises the warning and leaves the
entity as it was, its dynamics object included; every other step does what it does without filters. Nothing is shown in either case. -/
theorem C110_error (env : Env R) (text : Arr R → Arr R → String) (es0 : List (Entity R)) (a0 : WAction) (ss : List (WarnStretch R)) (ops : List (Nat × Op R))
    (w : Warn) (es : List (Entity R)) (hrun : warnRun env text (Warn.start a0, es0) (programOf (ss ++ [(.error, ops)])) = (w, es))
    (i : Nat) (e : Entity R) (he : es[i]? = some e) (dt : Fl R) (act : Action R) :
    (e.warnStep env text w dt act).1.shown = w.shown ∧
    ((e.step env dt act).warned = true → (e.warnStep env text w dt act).2 = ⟨e, true, .error .userWarning⟩) ∧
    ((e.step env dt act).warned = false → (e.warnStep env text w dt act).2 = e.step env dt act) := by
  have hver : ∀ (l : List (WarnOp R)) (p : Warn × List (Entity R)), p.1.regVersion ≤ p.1.version →
      (warnRun env text p l).1.regVersion ≤ (warnRun env text p l).1.version := by
    intro l
    induction l with
    | nil => intro p h; exact h
    | cons o l ih =>
      intro p h
      refine ih _ ?_
      cases o with
      | filter a => simp only [warnOp, Warn.filter]; omega
      | on i o =>
        simp only [warnOp]
        cases p.2[i]? with
        | none => exact h
        | some e =>
          cases o with
          | setState v => exact h
          | setElem j v => exact h
          | step dt act =>
            simp only [warnStep_eq]
            have hw : ∀ t, (p.1.warn t).1.regVersion ≤ (p.1.warn t).1.version := fun t => warn_version p.1 t
            split
            · split <;> exact hw _
            · exact h
  have e1 : programOf (ss ++ [(.error, ops)]) = programOf ss ++ (.filter .error :: ops.map fun o => .on o.1 o.2) := by simp [programOf]
  rw [e1, warnRun, List.foldl_append, ← warnRun, ← warnRun] at hrun
  have hv := hver (programOf ss) (Warn.start a0, es0) le_rfl
  generalize warnRun env text (Warn.start a0, es0) (programOf ss) = p at hrun hv
  obtain ⟨w1, es1⟩ := p
  obtain ⟨h1, -⟩ := Since.run env text ops (Since.filter w1 hv .error) es1
  have e2 : warnRun env text (w1, es1) (.filter .error :: ops.map fun o => .on o.1 o.2) = warnRun env text (w1.filter .error, es1) (ops.map fun o => .on o.1 o.2) := rfl
  rw [← e2, hrun] at h1
  rw [warnStep_eq]
  by_cases hw : (e.step env dt act).warned = true
  · obtain ⟨h2, h3⟩ := h1.warn (text e.controlMin e.controlMax)
    have := h3.2 rfl
    simp only [hw, if_true, this]
    refine ⟨?_, by simp, by simp⟩
    rw [h2.shown, h1.shown]
    simp [shownUnder]
  · simp [hw]

end

/-- Two entities with the same limits: three steps beyond them and one within. Under `default` one warning is seen, after a change of the filters
another one; under `always` three; under `once` one in all; and under `error` the first entity does not move. -/
example :
    let es := [Demo.entity (R := ratFmt) "Euler", Demo.entity "Euler"]
    let far : Op ratFmt := .step 1 (.ndarray .f64 [.fin 50, .fin 1])
    let near : Op ratFmt := .step 1 (.ndarray .f64 [.fin 0, .fin 0])
    let ops := [(0, far), (1, near), (1, far), (0, far)]
    let run := fun ss => warnRun Demo.env (fun _ _ => "limits") (Warn.start .default, es) (programOf ss)
    (run [(.default, ops)]).1.shown = ["limits"] ∧ (run [(.default, ops), (.default, ops)]).1.shown = ["limits", "limits"] ∧
    (run [(.always, ops)]).1.shown = ["limits", "limits", "limits"] ∧ (run [(.once, ops), (.once, ops)]).1.shown = ["limits"] ∧
    (run [(.error, [(0, far)])]).2.map (·.state) = es.map (·.state) ∧ (run [(.ignore, [(0, far)])]).2.map (·.state) ≠ es.map (·.state) := by
  decide +kernel

end SAD
