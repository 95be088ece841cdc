import Verif.Lemmas.Control

/-!
# The specification of the requested and the applied control agrees with the model
-/

set_option linter.unusedSectionVars false

namespace SAD
open Spec

variable {K : Type} {R : Fmt K}

theorem lookup_eq_list {β : Type} (m : List (String × β)) (k : String) : lookup m k = m.lookup k := by
  induction m with
  | nil => rfl
  | cons p m ih =>
    obtain ⟨k', v⟩ := p
    by_cases h : k = k'
    · subst h; simp [lookup]
    · have h' : k' ≠ k := fun e => h e.symm
      simp [lookup, h', ih, List.lookup_cons, beq_false_of_ne h]

theorem getLast?_filter_some {α : Type} (P : α → Bool) (l : List α) (p : α) (h : (l.filter P).getLast? = some p) :
    ∃ a b, l = a ++ p :: b ∧ P p = true ∧ ∀ q ∈ b, P q = false := by
  induction l with
  | nil => simp at h
  | cons x l ih =>
    by_cases hx : P x = true
    · rw [List.filter_cons_of_pos hx] at h
      cases hl : (l.filter P).getLast? with
      | none =>
        rw [List.getLast?_eq_none_iff] at hl
        rw [hl] at h
        simp only [List.getLast?_singleton, Option.some.injEq] at h
        subst h
        refine ⟨[], l, rfl, hx, ?_⟩
        intro q hq
        rw [List.filter_eq_nil_iff] at hl
        simpa using hl q hq
      | some y =>
        have : (x :: l.filter P).getLast? = some y := by
          rw [List.getLast?_cons, hl]; rfl
        rw [this] at h
        cases h
        obtain ⟨a, b, e1, e2, e3⟩ := ih hl
        exact ⟨x :: a, b, by rw [e1]; rfl, e2, e3⟩
    · rw [List.filter_cons_of_neg hx] at h
      obtain ⟨a, b, e1, e2, e3⟩ := ih h
      exact ⟨x :: a, b, by rw [e1]; rfl, e2, e3⟩

theorem namedRequest_unique {map : List (String × Nat)} {dflt : Vec R} {items : List (String × Fl R)} {u v : Vec R}
    (hu : NamedRequest map dflt items u) (hv : NamedRequest map dflt items v) : u = v := by
  apply List.ext_getElem?
  intro i
  rcases hu.2.2 i with ⟨a, n, x, b, e1, e2, e3, e4⟩ | ⟨e1, e2⟩
  · rcases hv.2.2 i with ⟨a', n', x', b', f1, f2, f3, f4⟩ | ⟨f1, f2⟩
    · rw [e4, f4]
      rw [e1, List.append_eq_append_iff] at f1
      rcases f1 with ⟨c, h1, h2⟩ | ⟨c, h1, h2⟩
      · cases c with
        | nil => simp at h2; rw [h2.1.2]
        | cons y c =>
          simp only [List.cons_append, List.cons.injEq] at h2
          exact absurd f2 (e3 (n', x') (by rw [h2.2]; simp))
      · cases c with
        | nil => simp at h2; rw [h2.1.2]
        | cons y c =>
          simp only [List.cons_append, List.cons.injEq] at h2
          exact absurd e2 (f3 (n, x) (by rw [h2.2]; simp))
    · exact absurd e2 (f1 (n, x) (by rw [e1]; simp))
  · rcases hv.2.2 i with ⟨a', n', x', b', f1, f2, f3, f4⟩ | ⟨f1, f2⟩
    · exact absurd f2 (e1 (n', x') (by rw [f1]; simp))
    · rw [e2, f2]

theorem applyDict_known {map : List (String × Nat)} {items : List (String × Fl R)} {c u : Vec R}
    (h : applyDict map items c = .ok u) : ∀ p ∈ items, ∃ i, lookup map p.1 = some i ∧ i < c.length := by
  induction items generalizing c with
  | nil => simp
  | cons p items ih =>
    obtain ⟨n, v⟩ := p
    unfold applyDict at h
    cases hl : lookup map n with
    | none => rw [hl] at h; cases h
    | some i =>
      rw [hl] at h
      simp only at h
      obtain ⟨c', h1, h2⟩ := Except.bind_ok.1 h
      unfold setIdx at h1
      split at h1
      · rename_i hi
        cases h1
        intro q hq
        rcases List.mem_cons.1 hq with rfl | hq
        · exact ⟨i, hl, hi⟩
        · obtain ⟨j, g1, g2⟩ := ih h2 q hq
          exact ⟨j, g1, by simpa using g2⟩
      · cases h1

variable [Field K] [LinearOrder K]

theorem applyDict_iff {map : List (String × Nat)} {items : List (String × Fl R)} {c u : Vec R} :
    applyDict map items c = .ok u ↔ NamedRequest map c items u := by
  have key : (∀ p ∈ items, ∃ i, lookup map p.1 = some i ∧ i < c.length) →
      ∃ u, applyDict map items c = .ok u ∧ NamedRequest map c items u := by
    intro hk
    obtain ⟨u', h1, h2, h3⟩ := applyDict_ok map items c (fun name v hm => hk (name, v) hm)
    refine ⟨u', h1, h2, ?_, ?_⟩
    · intro p hp
      obtain ⟨i, g1, g2⟩ := hk p hp
      exact ⟨i, by rw [← lookup_eq_list]; exact g1, g2⟩
    · intro i
      cases hf : (items.filter (fun p => lookup map p.1 = some i)).getLast? with
      | some p =>
        obtain ⟨a, b, e1, e2, e3⟩ := getLast?_filter_some _ _ _ hf
        refine Or.inl ⟨a, p.1, p.2, b, e1, ?_, ?_, ?_⟩
        · rw [← lookup_eq_list]; simpa using e2
        · intro q hq; rw [← lookup_eq_list]; simpa using e3 q hq
        · rw [h3 i, hf]; rfl
      | none =>
        refine Or.inr ⟨?_, by rw [h3 i, hf]; rfl⟩
        rw [List.getLast?_eq_none_iff, List.filter_eq_nil_iff] at hf
        intro q hq
        rw [← lookup_eq_list]; simpa using hf q hq
  constructor
  · intro h
    obtain ⟨u', h1, h2⟩ := key (applyDict_known h)
    rw [h] at h1
    cases h1
    exact h2
  · intro h
    obtain ⟨u', h1, h2⟩ := key (fun p hp => by
      obtain ⟨i, g1, g2⟩ := h.2.1 p hp
      exact ⟨i, by rw [lookup_eq_list]; exact g1, g2⟩)
    rw [h1, namedRequest_unique h2 h]

/-- The specification of what an action asks for is what the model computes. -/
theorem resolve_iff {env : Env R} {e : Entity R} {a : Action R} {ty : DType} {u : Vec R} :
    e.resolve env a = .ok (ty, u) ↔ Requests env e a ty u := by
  constructor
  · intro h
    cases a with
    | none => simp only [Entity.resolve, Except.ok.injEq, Prod.mk.injEq] at h; obtain ⟨rfl, rfl⟩ := h; exact .default
    | list xs => simp only [Entity.resolve, Except.ok.injEq, Prod.mk.injEq] at h; obtain ⟨rfl, rfl⟩ := h; exact .list xs
    | ndarray t xs => simp only [Entity.resolve, Except.ok.injEq, Prod.mk.injEq] at h; obtain ⟨rfl, rfl⟩ := h; exact .array t xs
    | jaxArray xs =>
      simp only [Entity.resolve] at h
      split at h
      · rename_i hj
        simp only [Except.ok.injEq, Prod.mk.injEq] at h; obtain ⟨rfl, rfl⟩ := h; exact .jax xs hj
      · cases h
    | other => cases h
    | dict items =>
      simp only [Entity.resolve] at h
      split at h
      · cases h
      · rename_i m hm
        obtain ⟨c, h1, h2⟩ := Except.bind_ok.1 h
        cases h2
        exact .dict items m _ hm (applyDict_iff.1 h1)
  · intro h
    cases h with
    | default => rfl
    | array => rfl
    | list => rfl
    | jax xs h => simp [Entity.resolve, h]
    | dict items map u h hu =>
      simp [Entity.resolve, h, applyDict_iff.2 hu, bind, Except.bind, pure, Except.pure]

theorem limitAs_eq (ty : DType) (l : Arr R) : limitAs ty l = l.forDType ty := by
  match ty, l with
  | .f64, .scalar x => cases x <;> rfl
  | .i64, .scalar x => cases x <;> rfl
  | .f32, .scalar .nan => rfl
  | .f32, .scalar .ninf => rfl
  | .f32, .scalar .pinf => rfl
  | .f32, .scalar (.fin x) => simp [limitAs, Arr.forDType, Fl.fits32]
  | _, .vec _ => rfl

theorem clip_clipsTo (lo hi r : Fl R) : ClipsTo lo hi r (Fl.clip r lo hi) := by
  refine ⟨?_, fun _ h => clip_saturated h, ?_⟩
  · rintro (rfl | rfl | rfl)
    · simp
    · cases r <;> simp [Fl.clip, Fl.npMax, Fl.npMin]
    · cases r <;> cases lo <;> simp [Fl.clip, Fl.npMax, Fl.npMin] <;> split <;> simp
  · intro hr h
    have hn : ∀ z : Fl R, z ≠ .nan → z.isNan = false := by intro z hz; cases z <;> simp_all [Fl.isNan]
    have hlo : lo ≠ .nan := by rintro rfl; simp at h
    have hm : Fl.npMax r lo ≠ .nan ∧ ¬ Fl.npMax r lo < hi := by
      unfold Fl.npMax
      rw [hn r hr]
      by_cases h1 : lo < r
      · simp only [Bool.false_eq_true, if_false, h1, if_true]
        exact ⟨hr, by cases r <;> cases lo <;> cases hi <;> simp_all; exact (lt_trans h h1).le⟩
      · simp only [Bool.false_eq_true, if_false, h1]
        exact ⟨hlo, Fl.not_lt_of_le' (Fl.le_of_lt' h)⟩
    unfold Fl.clip Fl.npMin
    rw [hn _ hm.1]
    simp [hm.2]

theorem clipsTo_unique {lo hi r x : Fl R} (h : ClipsTo lo hi r x) : x = Fl.clip r lo hi := by
  have hc := clip_clipsTo lo hi r
  by_cases h0 : r = .nan ∨ lo = .nan ∨ hi = .nan
  · rw [h.1 h0, hc.1 h0]
  · simp only [not_or] at h0
    by_cases hl : lo ≤ hi
    · exact saturated_unique hl h0.1 (h.2.1 h0.1 hl)
    · have hl' : hi < lo := by
        by_contra hn
        exact hl ((Fl.not_lt' h0.2.2 h0.2.1).1 hn)
      rw [h.2.2 h0.1 hl', hc.2.2 h0.1 hl']

theorem bcast2_len {α β γ : Type} {f : α → β → γ} {xs : List α} {ys : List β} {zs : List γ} (h : bcast2 f xs ys = .ok zs) :
    (xs.length = 1 ∨ xs.length = zs.length) ∧ (ys.length = 1 ∨ ys.length = zs.length) ∧
      (zs.length = xs.length ∨ zs.length = ys.length) := by
  unfold bcast2 at h
  split at h
  · rename_i hl
    cases h
    simp [hl]
  · split at h
    · cases h; simp
    · cases h; simp
    · cases h

theorem bcast2_exists {α β γ : Type} (f : α → β → γ) {xs : List α} {ys : List β} {n : Nat} (h1 : xs.length = 1 ∨ xs.length = n)
    (h2 : ys.length = 1 ∨ ys.length = n) : ∃ zs, bcast2 f xs ys = .ok zs := by
  unfold bcast2
  split
  · exact ⟨_, rfl⟩
  · rename_i hl
    rcases h1 with h1 | h1
    · match xs, h1 with
      | [x], _ => exact ⟨_, rfl⟩
    · rcases h2 with h2 | h2
      · match xs, ys, h2 with
        | [x], [y], _ => exact ⟨_, rfl⟩
        | [], [y], _ => exact ⟨_, rfl⟩
        | _ :: _ :: _, [y], _ => exact ⟨_, rfl⟩
      · omega

theorem blen_unique {a b c n m : Nat} (h1 : a = 1 ∨ a = n) (h2 : b = 1 ∨ b = n) (h3 : c = 1 ∨ c = n) (h4 : n = a ∨ n = b ∨ n = c)
    (k1 : a = 1 ∨ a = m) (k2 : b = 1 ∨ b = m) (k3 : c = 1 ∨ c = m) (k4 : m = a ∨ m = b ∨ m = c) : n = m := by
  omega

/-- `np.clip` is the specification's element-wise limiting. -/
theorem npClip_iff {u v : Vec R} {lo hi : Arr R} : npClip u lo hi = .ok v ↔ ClippedTo lo hi u v := by
  have fwd : ∀ v, npClip u lo hi = .ok v → ClippedTo lo hi u v := by
    intro v h
    obtain ⟨b, h1, h2⟩ := Except.bind_ok.1 h
    obtain ⟨a1, a2, a3⟩ := bcast2_len h1
    obtain ⟨b1, b2, b3⟩ := bcast2_len h2
    refine ⟨?_, ?_, b2, ?_, ?_⟩
    · rcases a1 with a1 | a1
      · exact Or.inl a1
      · rw [a1]; exact b1
    · rcases a2 with a2 | a2
      · exact Or.inl a2
      · rw [a2]; exact b1
    · rcases b3 with b3 | b3
      · rcases a3 with a3 | a3
        · exact Or.inl (b3.trans a3)
        · exact Or.inr (Or.inl (b3.trans a3))
      · exact Or.inr (Or.inr b3)
    · intro i x hx
      obtain ⟨r, l, b, g1, g2, g3, rfl⟩ := npClip_ok h hx
      exact ⟨l, b, r, g2, g3, g1, clip_clipsTo _ _ _⟩
  constructor
  · exact fwd v
  · rintro ⟨h1, h2, h3, h4, h5⟩
    obtain ⟨b, hb⟩ := bcast2_exists Fl.npMax h1 h2
    obtain ⟨a1, a2, a3⟩ := bcast2_len hb
    have hbl : b.length = 1 ∨ b.length = v.length := by
      rcases a3 with a3 | a3 <;> rw [a3] <;> assumption
    obtain ⟨w, hw⟩ := bcast2_exists Fl.npMin hbl h3
    have hcl : npClip u lo hi = .ok w := by simp [npClip, bind, Except.bind, hb, hw]
    obtain ⟨g1, g2, g3, g4, g5⟩ := fwd w hcl
    have hlen : w.length = v.length := by
      exact blen_unique g1 g2 g3 g4 h1 h2 h3 h4
    rw [hcl]
    congr 1
    apply List.ext_getElem?
    intro i
    by_cases hi' : i < w.length
    · have hw' := List.getElem?_eq_getElem hi'
      have hv' := List.getElem?_eq_getElem (hlen ▸ hi' : i < v.length)
      obtain ⟨l, h, r, e1, e2, e3, e4⟩ := g5 i _ hw'
      obtain ⟨l', h', r', f1, f2, f3, f4⟩ := h5 i _ hv'
      rw [e1] at f1; rw [e2] at f2; rw [e3] at f3
      cases f1; cases f2; cases f3
      rw [hw', hv', clipsTo_unique e4, clipsTo_unique f4]
    · rw [List.getElem?_eq_none (by omega), List.getElem?_eq_none (by omega)]

theorem any_bcast_iff {α β : Type} {f : α → β → Bool} {xs : List α} {ys : List β} {zs : List Bool} (h : bcast2 f xs ys = .ok zs)
    {n : Nat} (hn : 0 < n) (h1 : xs.length = 1 ∨ xs.length = n) (h2 : ys.length = 1 ∨ ys.length = n) :
    zs.any id = true ↔ ∃ i x y, i < n ∧ bget xs i = some x ∧ bget ys i = some y ∧ f x y = true := by
  obtain ⟨l1, l2, l3⟩ := bcast2_len h
  rw [List.any_eq_true]
  constructor
  · rintro ⟨z, hz, hzt⟩
    obtain ⟨i, hi⟩ := List.mem_iff_getElem?.1 hz
    obtain ⟨x, y, e1, e2, e3⟩ := bcast2_ok h hi
    have hil := (List.getElem?_eq_some_iff.1 hi).1
    refine ⟨i, x, y, by omega, e1, e2, ?_⟩
    rw [← e3]; exact hzt
  · rintro ⟨i, x, y, hi, e1, e2, e3⟩
    by_cases hz : zs.length = n
    · have := bcast2_get h e1 e2 (by omega)
      exact ⟨true, List.mem_iff_getElem?.2 ⟨i, by rw [this, e3]⟩, rfl⟩
    · have hx : xs.length = 1 := by omega
      have hy : ys.length = 1 := by omega
      match xs, ys, hx, hy with
      | [x'], [y'], _, _ =>
        simp only [bget, Option.some.injEq] at e1 e2
        subst e1 e2
        have := bcast2_get h (i := 0) (x := x') (y := y') rfl rfl (by simp at l3; omega)
        exact ⟨true, List.mem_iff_getElem?.2 ⟨0, by rw [this, e3]⟩, rfl⟩

theorem exceeds_iff_broadcast {u v : Vec R} {lo hi : Arr R} (h : ClippedTo lo hi u v) (hne : v ≠ []) :
    ∃ w, exceeds u lo hi = .ok w ∧ (w = true ↔ ∃ i r, i < v.length ∧ bget u i = some r ∧
      ((∃ l, lo.at i = some l ∧ r < l) ∨ (∃ b, hi.at i = some b ∧ b < r))) := by
  obtain ⟨h1, h2, h3, -, -⟩ := h
  have hn : 0 < v.length := List.length_pos_iff.2 hne
  obtain ⟨a, ha⟩ := bcast2_exists (fun c l => decide (c < l)) h1 h2
  obtain ⟨b, hb⟩ := bcast2_exists (fun c l => decide (l < c)) h1 h3
  have ea := any_bcast_iff ha hn h1 h2
  have eb := any_bcast_iff hb hn h1 h3
  by_cases hat : a.any id = true
  · refine ⟨true, by simp [exceeds, bind, Except.bind, ha, hat]; rfl, ?_⟩
    simp only [true_iff]
    obtain ⟨i, r, y, g0, g1, g2, g3⟩ := ea.1 hat
    exact ⟨i, r, g0, g1, Or.inl ⟨y, by rw [Arr.at_eq]; exact g2, by simpa using g3⟩⟩
  · refine ⟨b.any id, ?_, ?_⟩
    · simp only [exceeds, bind, Except.bind, ha, hb, hat]; rfl
    · rw [eb]
      constructor
      · rintro ⟨i, r, y, g0, g1, g2, g3⟩
        exact ⟨i, r, g0, g1, Or.inr ⟨y, by rw [Arr.at_eq]; exact g2, by simpa using g3⟩⟩
      · rintro ⟨i, r, g0, g1, ⟨l, g2, g3⟩ | ⟨y, g2, g3⟩⟩
        · exact absurd (ea.2 ⟨i, r, l, g0, g1, by rw [← Arr.at_eq]; exact g2, by simpa using g3⟩) hat
        · exact ⟨i, r, y, g0, g1, by rw [← Arr.at_eq]; exact g2, by simpa using g3⟩

/-- The specification of the applied control is what the model computes. -/
theorem applied_iff {env : Env R} {e : Entity R} {a : Action R} {v : Vec R} :
    Applied env e a v ↔ ∃ ty u, e.resolve env a = .ok (ty, u) ∧
      npClip u (e.controlMin.forDType ty) (e.controlMax.forDType ty) = .ok v := by
  unfold Applied
  simp only [resolve_iff, npClip_iff, limitAs_eq]

theorem applied_of {env : Env R} {e : Entity R} {a : Action R} {ty : DType} {u v : Vec R} (h1 : e.resolve env a = .ok (ty, u))
    (h2 : npClip u (e.controlMin.forDType ty) (e.controlMax.forDType ty) = .ok v) : Applied env e a v :=
  applied_iff.2 ⟨ty, u, h1, h2⟩

/-- where clipping succeeds, so does the comparison with the limits -/
theorem exceeds_of_npClip {u v : Vec R} {lo hi : Arr R} (h : npClip u lo hi = .ok v) : ∃ w, exceeds u lo hi = .ok w := by
  obtain ⟨c1, c2, c3, -⟩ := npClip_iff.1 h
  obtain ⟨b1, e1⟩ := bcast2_exists (fun c l => decide (c < l)) c1 c2
  obtain ⟨b2, e2⟩ := bcast2_exists (fun c l => decide (l < c)) c1 c3
  unfold exceeds
  simp only [e1, e2, bind, Except.bind]
  split <;> exact ⟨_, rfl⟩

/-- an action has at most one applied control -/
theorem applied_unique {env : Env R} {e : Entity R} {a : Action R} {v w : Vec R} (hv : Applied env e a v)
    (hw : Applied env e a w) : v = w := by
  obtain ⟨ty, u, h1, h2⟩ := applied_iff.1 hv
  obtain ⟨ty', u', h1', h2'⟩ := applied_iff.1 hw
  rw [h1] at h1'
  cases h1'
  rw [h2] at h2'
  cases h2'
  rfl

end SAD
