import Verif.Lemmas.Base

/-! # Lemmas about control resolution and saturation -/

set_option linter.unusedSectionVars false

namespace SAD
open Spec

variable {K : Type} {R : Fmt K} [Field K] [LinearOrder K]

theorem clip_saturated {lo hi r : Fl R} (h : lo ≤ hi) : Saturated lo hi r (Fl.clip r lo hi) :=
  ⟨fun h1 => Fl.clip_lt h1 h, fun h1 => Fl.clip_gt h1 h, fun h1 h2 => Fl.clip_mem h1 h2⟩

theorem saturated_unique {lo hi r x : Fl R} (h : lo ≤ hi) (hr : r ≠ .nan) (hx : Saturated lo hi r x) :
    x = Fl.clip r lo hi := by
  by_cases h1 : r < lo
  · rw [hx.1 h1, Fl.clip_lt h1 h]
  · by_cases h2 : hi < r
    · rw [hx.2.1 h2, Fl.clip_gt h2 h]
    · have h1' := (Fl.not_lt' hr (Fl.ne_nan_of_le_left h)).1 h1
      have h2' := (Fl.not_lt' (Fl.ne_nan_of_le_right h) hr).1 h2
      rw [hx.2.2 h1' h2', Fl.clip_mem h1' h2']

theorem bcast2_fits {α β γ : Type} (f : α → β → γ) (xs : List α) (ys : List β)
    (h : ys.length = 1 ∨ ys.length = xs.length) :
    ∃ zs, bcast2 f xs ys = .ok zs ∧ zs.length = xs.length := by
  rcases h with h | h
  · match ys, h with
    | [y], _ => exact ⟨_, bcast2_single_right f xs y, by simp⟩
  · exact ⟨_, bcast2_same h.symm, by simp [h]⟩

theorem bget_eq_get {α : Type} {xs : List α} {i : Nat} (h : i < xs.length) : bget xs i = xs[i]? := by
  unfold bget; split
  · have : i = 0 := by simpa using h
    subst this; rfl
  · rfl

theorem bget_fits {α : Type} {ys : List α} {n i : Nat} (h : ys.length = 1 ∨ ys.length = n) (hi : i < n) :
    ∃ y, bget ys i = some y := by
  rcases h with h | h
  · match ys, h with
    | [y], _ => exact ⟨y, rfl⟩
  · rw [bget_eq_get (by omega)]
    exact ⟨_, List.getElem?_eq_getElem (by omega)⟩

theorem fits_at {lim : Arr R} {n i : Nat} (h : Fits lim n) (hi : i < n) : ∃ l, lim.at i = some l := by
  rw [Arr.at_eq]; exact bget_fits h hi

theorem npClip_fits {u : Vec R} {lo hi : Arr R} (h1 : Fits lo u.length) (h2 : Fits hi u.length) :
    ∃ v, npClip u lo hi = .ok v ∧ v.length = u.length := by
  obtain ⟨b, hb, hbl⟩ := bcast2_fits Fl.npMax u lo.toVec h1
  obtain ⟨v, hv, hvl⟩ := bcast2_fits Fl.npMin b hi.toVec (by rw [hbl]; exact h2)
  exact ⟨v, by simp [npClip, bind, Except.bind, hb, hv], by omega⟩

theorem npClip_elem {u v : Vec R} {lo hi : Arr R} (h : npClip u lo hi = .ok v) (hl : v.length = u.length) {i : Nat}
    {r l b : Fl R} (hr : u[i]? = some r) (hlo : lo.at i = some l) (hhi : hi.at i = some b) :
    v[i]? = some (Fl.clip r l b) := by
  have hi' : i < v.length := by
    have := (List.getElem?_eq_some_iff.1 hr).1; omega
  have hz := List.getElem?_eq_getElem hi'
  obtain ⟨x, l', b', e1, e2, e3, e4⟩ := npClip_ok h hz
  rw [bget_eq_get (by omega), hr] at e1
  rw [hlo] at e2; rw [hhi] at e3
  cases e1; cases e2; cases e3
  rw [hz, e4]

theorem any_bcast {β : Type} {p : Fl R → β → Bool} {u : Vec R} {ys : List β} {zs : List Bool}
    (h : bcast2 p u ys = .ok zs) (hf : ys.length = 1 ∨ ys.length = u.length) :
    zs.any id = true ↔ ∃ i r y, u[i]? = some r ∧ bget ys i = some y ∧ p r y = true := by
  have hl : zs.length = u.length := by
    obtain ⟨zs', h', hl'⟩ := bcast2_fits p u ys hf
    rw [h] at h'; cases h'; exact hl'
  rw [List.any_eq_true]
  constructor
  · rintro ⟨z, hz, hzt⟩
    obtain ⟨i, hi, rfl⟩ := List.getElem_of_mem hz
    obtain ⟨r, y, h1, h2, h3⟩ := bcast2_ok h (List.getElem?_eq_getElem hi)
    rw [bget_eq_get (by omega)] at h1
    refine ⟨i, r, y, h1, h2, ?_⟩
    rw [← h3]; simpa using hzt
  · rintro ⟨i, r, y, h1, h2, h3⟩
    have hi : i < zs.length := by
      have := (List.getElem?_eq_some_iff.1 h1).1; omega
    have := bcast2_get h (bget_of_get h1) h2 hi
    rw [h3] at this
    exact ⟨true, List.mem_of_getElem? this, rfl⟩

theorem exceeds_iff {u : Vec R} {lo hi : Arr R} (h1 : Fits lo u.length) (h2 : Fits hi u.length) :
    ∃ w, exceeds u lo hi = .ok w ∧ (w = true ↔ ∃ i r, u[i]? = some r ∧
      ((∃ l, lo.at i = some l ∧ r < l) ∨ (∃ b, hi.at i = some b ∧ b < r))) := by
  obtain ⟨a, ha, hal⟩ := bcast2_fits (fun c l => decide (c < l)) u lo.toVec h1
  obtain ⟨b, hb, hbl⟩ := bcast2_fits (fun c h => decide (h < c)) u hi.toVec h2
  have ea := any_bcast ha h1
  have eb := any_bcast hb h2
  by_cases hat : a.any id = true
  · refine ⟨true, by simp [exceeds, bind, Except.bind, ha, hat]; rfl, ?_⟩
    simp only [true_iff]
    obtain ⟨i, r, y, g1, g2, g3⟩ := ea.1 hat
    exact ⟨i, r, g1, Or.inl ⟨y, by rw [Arr.at_eq]; exact g2, by simpa using g3⟩⟩
  · refine ⟨b.any id, ?_, ?_⟩
    · simp only [exceeds, bind, Except.bind, ha, hb, hat]; rfl
    · rw [eb]
      constructor
      · rintro ⟨i, r, y, g1, g2, g3⟩
        exact ⟨i, r, g1, Or.inr ⟨y, by rw [Arr.at_eq]; exact g2, by simpa using g3⟩⟩
      · rintro ⟨i, r, g1, ⟨l, g2, g3⟩ | ⟨y, g2, g3⟩⟩
        · exact absurd (ea.2 ⟨i, r, l, g1, by rw [← Arr.at_eq]; exact g2, by simpa using g3⟩) hat
        · exact ⟨i, r, y, g1, by rw [← Arr.at_eq]; exact g2, by simpa using g3⟩

theorem forDType_fits {lim : Arr R} {ty : DType} {n : Nat} : Fits (lim.forDType ty) n ↔ Fits lim n := by
  cases lim <;> simp [Fits, Arr.forDType, Arr.toVec]

theorem forDType_f64 (lim : Arr R) : lim.forDType .f64 = lim := by cases lim <;> rfl

theorem forDType_exact [Exact R] (lim : Arr R) (ty : DType) : lim.forDType ty = lim := by
  cases lim <;> cases ty <;> simp [Arr.forDType]

/-! ### dict actions -/

theorem lookup_mem {β : Type} {m : List (String × β)} {k : String} {v : β} (h : lookup m k = some v) : (k, v) ∈ m := by
  induction m with
  | nil => simp [lookup] at h
  | cons p m ih =>
    obtain ⟨k', v'⟩ := p
    unfold lookup at h
    split at h
    · rename_i hk; cases h; subst hk; simp
    · exact List.mem_cons_of_mem _ (ih h)

theorem lookup_of_mem {β : Type} {m : List (String × β)} {k : String} {v : β} (hk : Keys m) (h : (k, v) ∈ m) :
    lookup m k = some v := by
  induction m with
  | nil => simp at h
  | cons p m ih =>
    obtain ⟨k', v'⟩ := p
    simp only [Keys, List.map_cons, List.nodup_cons] at hk
    unfold lookup
    rcases List.mem_cons.1 h with h | h
    · cases h; simp
    · have : k' ≠ k := by
        rintro rfl
        exact hk.1 (List.mem_map.2 ⟨(k', v), h, rfl⟩)
      simp only [this, if_false]
      exact ih hk.2 h

theorem lookup_none {β : Type} {m : List (String × β)} {k : String} : lookup m k = none ↔ ∀ v, (k, v) ∉ m := by
  induction m with
  | nil => simp [lookup]
  | cons p m ih =>
    obtain ⟨k', v'⟩ := p
    unfold lookup
    by_cases hk : k' = k
    · subst hk
      simp only [if_true, reduceCtorEq, false_iff, not_forall, not_not]
      exact ⟨v', by simp⟩
    · simp only [hk, if_false, ih, List.mem_cons, not_or]
      constructor
      · intro h v
        exact ⟨by rintro ⟨⟩; exact hk rfl, h v⟩
      · intro h v; exact (h v).2

/-- the loop over a dict whose keys are known and whose indices are in range succeeds, and at each index the last entry
mapped there wins -/
theorem applyDict_ok (map : List (String × Nat)) (items : List (String × Fl R)) (c : Vec R)
    (hknown : ∀ name v, (name, v) ∈ items → ∃ i, lookup map name = some i ∧ i < c.length) :
    ∃ u, applyDict map items c = .ok u ∧ u.length = c.length ∧
      ∀ j, u[j]? = ((items.filter (fun p => lookup map p.1 = some j)).getLast?.map Prod.snd).or c[j]? := by
  induction items generalizing c with
  | nil => exact ⟨c, rfl, rfl, fun j => by simp⟩
  | cons p items ih =>
    obtain ⟨name, v⟩ := p
    obtain ⟨i, hi, hic⟩ := hknown name v (by simp)
    obtain ⟨u, hu, hul, hue⟩ := ih (c.set i v) (by
      intro n' v' h'
      obtain ⟨k, hk, hkc⟩ := hknown n' v' (by simp [h'])
      exact ⟨k, hk, by simpa using hkc⟩)
    refine ⟨u, ?_, by simpa using hul, ?_⟩
    · simp [applyDict, hi, setIdx, hic, bind, Except.bind, hu]
    · intro j
      rw [hue j]
      by_cases hij : i = j
      · subst hij
        simp only [List.filter_cons, hi, decide_true, if_true]
        rw [List.getLast?_cons]
        cases hl : (items.filter (fun p => lookup map p.1 = some i)).getLast? with
        | none => simp [hic]
        | some q => simp
      · simp only [List.filter_cons, hi]
        have : (decide (some i = some j)) = false := by simpa using hij
        simp only [this]
        rw [List.getElem?_set_ne hij]
        rfl

theorem applyDict_unknown (map : List (String × Nat)) (items : List (String × Fl R)) (c : Vec R)
    (hrange : MapInRange map c.length) (name : String) (v : Fl R) (hm : (name, v) ∈ items)
    (hn : ∀ i, (name, i) ∉ map) : applyDict map items c = .error .keyError := by
  induction items generalizing c with
  | nil => simp at hm
  | cons p items ih =>
    obtain ⟨n', v'⟩ := p
    unfold applyDict
    cases hl : lookup map n' with
    | none => rfl
    | some i =>
      have hic := hrange n' i (lookup_mem hl)
      have hm' : (name, v) ∈ items := by
        rcases List.mem_cons.1 hm with h | h
        · cases h; exact absurd (lookup_mem hl) (hn i)
        · exact h
      have hsl : (c.set i v').length = c.length := by simp
      simp only [setIdx, hic, if_true, bind, Except.bind]
      exact ih (c.set i v') (by rw [hsl]; exact hrange) hm'

end SAD
