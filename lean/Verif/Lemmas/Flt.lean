import Verif.Model.Np
import Mathlib.Tactic.Ring
import Mathlib.Tactic.Linarith
import Mathlib.Tactic.NormNum
import Mathlib.Tactic.FieldSimp
import Mathlib.Tactic.Positivity

/-! # Lemmas about floating point data and broadcasting -/

set_option linter.unusedSectionVars false

namespace SAD
namespace Fl

variable {K : Type} {R : Fmt K} [Field K] [LinearOrder K]

theorem lt_iff (a b : Fl R) : a < b ↔ ltb a b = true := Iff.rfl
theorem le_iff (a b : Fl R) : a ≤ b ↔ leb a b = true := Iff.rfl

@[simp] theorem fin_lt_fin (a b : K) : (fin a : Fl R) < fin b ↔ a < b := by simp [lt_iff, ltb]
@[simp] theorem fin_le_fin (a b : K) : (fin a : Fl R) ≤ fin b ↔ a ≤ b := by simp [le_iff, leb]
@[simp] theorem nan_lt (a : Fl R) : ¬ ((nan : Fl R) < a) := by cases a <;> simp [lt_iff, ltb]
@[simp] theorem lt_nan (a : Fl R) : ¬ (a < (nan : Fl R)) := by cases a <;> simp [lt_iff, ltb]
@[simp] theorem nan_le (a : Fl R) : ¬ ((nan : Fl R) ≤ a) := by cases a <;> simp [le_iff, leb]
@[simp] theorem le_nan (a : Fl R) : ¬ (a ≤ (nan : Fl R)) := by cases a <;> simp [le_iff, leb]
@[simp] theorem ninf_lt_fin (a : K) : (ninf : Fl R) < fin a := by simp [lt_iff, ltb]
@[simp] theorem fin_lt_pinf (a : K) : (fin a : Fl R) < pinf := by simp [lt_iff, ltb]
@[simp] theorem ninf_lt_pinf : (ninf : Fl R) < pinf := by simp [lt_iff, ltb]
@[simp] theorem not_lt_ninf (a : Fl R) : ¬ (a < (ninf : Fl R)) := by cases a <;> simp [lt_iff, ltb]
@[simp] theorem not_pinf_lt (a : Fl R) : ¬ ((pinf : Fl R) < a) := by cases a <;> simp [lt_iff, ltb]
@[simp] theorem ninf_le_fin (a : K) : (ninf : Fl R) ≤ fin a := by simp [le_iff, leb]
@[simp] theorem ninf_le_ninf : (ninf : Fl R) ≤ ninf := by simp [le_iff, leb]
@[simp] theorem ninf_le_pinf : (ninf : Fl R) ≤ pinf := by simp [le_iff, leb]
@[simp] theorem fin_le_pinf (a : K) : (fin a : Fl R) ≤ pinf := by simp [le_iff, leb]
@[simp] theorem pinf_le_pinf : (pinf : Fl R) ≤ pinf := by simp [le_iff, leb]
@[simp] theorem not_fin_le_ninf (a : K) : ¬ ((fin a : Fl R) ≤ ninf) := by simp [le_iff, leb]
@[simp] theorem not_pinf_le_fin (a : K) : ¬ ((pinf : Fl R) ≤ fin a) := by simp [le_iff, leb]
@[simp] theorem not_pinf_le_ninf : ¬ ((pinf : Fl R) ≤ ninf) := by simp [le_iff, leb]

@[simp] theorem isNan_nan : (nan : Fl R).isNan = true := rfl
@[simp] theorem isNan_fin (a : K) : (fin a : Fl R).isNan = false := rfl
@[simp] theorem isNan_pinf : (pinf : Fl R).isNan = false := rfl
@[simp] theorem isNan_ninf : (ninf : Fl R).isNan = false := rfl

theorem isNan_iff (a : Fl R) : a.isNan = true ↔ a = nan := by cases a <;> simp
theorem isNan_false_iff (a : Fl R) : a.isNan = false ↔ a ≠ nan := by cases a <;> simp

theorem le_refl_of (a : Fl R) (h : a ≠ nan) : a ≤ a := by cases a <;> simp_all
theorem le_trans' {a b c : Fl R} (h1 : a ≤ b) (h2 : b ≤ c) : a ≤ c := by
  cases a <;> cases b <;> cases c <;> simp_all
  exact le_trans h1 h2
theorem le_antisymm' {a b : Fl R} (h1 : a ≤ b) (h2 : b ≤ a) : a = b := by
  cases a <;> cases b <;> simp_all
  exact le_antisymm h1 h2
theorem le_of_lt' {a b : Fl R} (h : a < b) : a ≤ b := by
  cases a <;> cases b <;> simp_all
  exact le_of_lt h
theorem not_lt' {a b : Fl R} (ha : a ≠ nan) (hb : b ≠ nan) : ¬ (a < b) ↔ b ≤ a := by
  cases a <;> cases b <;> simp_all
theorem not_le' {a b : Fl R} (ha : a ≠ nan) (hb : b ≠ nan) : ¬ (a ≤ b) ↔ b < a := by
  cases a <;> cases b <;> simp_all
theorem ne_nan_of_le_left {a b : Fl R} (h : a ≤ b) : a ≠ nan := by rintro rfl; simp at h
theorem ne_nan_of_le_right {a b : Fl R} (h : a ≤ b) : b ≠ nan := by rintro rfl; simp at h
theorem ninf_le {a : Fl R} (h : a ≠ nan) : ninf ≤ a := by cases a <;> simp_all
theorem le_pinf {a : Fl R} (h : a ≠ nan) : a ≤ pinf := by cases a <;> simp_all
theorem lt_of_lt_of_le' {a b c : Fl R} (h1 : a < b) (h2 : b ≤ c) : a < c := by
  cases a <;> cases b <;> cases c <;> simp_all
  exact lt_of_lt_of_le h1 h2
theorem lt_irrefl' (a : Fl R) : ¬ (a < a) := by cases a <;> simp
theorem not_lt_of_le' {a b : Fl R} (h : a ≤ b) : ¬ (b < a) := by
  cases a <;> cases b <;> simp_all

theorem eqb_iff (a b : Fl R) : eqb a b = true ↔ a = b ∧ a ≠ nan := by
  cases a <;> cases b <;> simp [eqb]

/-! ### clip -/

@[simp] theorem clip_nan (lo hi : Fl R) : clip nan lo hi = nan := by simp [clip, npMax, npMin]

theorem clip_lt {a lo hi : Fl R} (ha : a < lo) (h : lo ≤ hi) : clip a lo hi = lo := by
  have h1 : ¬ lo < a := not_lt_of_le' (le_of_lt' ha)
  have han : a.isNan = false := by cases a <;> simp_all
  have hln : lo.isNan = false := by cases lo <;> simp_all
  by_cases h2 : lo < hi
  · simp [clip, npMax, npMin, h1, han, hln, h2]
  · have : lo = hi := le_antisymm' h ((not_lt' (ne_nan_of_le_left h) (ne_nan_of_le_right h)).1 h2)
    subst this; simp [clip, npMax, npMin, h1, han]

theorem clip_gt {a lo hi : Fl R} (ha : hi < a) (h : lo ≤ hi) : clip a lo hi = hi := by
  have h1 : lo < a := by
    cases a <;> cases lo <;> cases hi <;> simp_all
    exact lt_of_le_of_lt h ha
  have han : a.isNan = false := by cases a <;> simp_all
  have h2 : ¬ a < hi := not_lt_of_le' (le_of_lt' ha)
  simp [clip, npMax, npMin, h1, han, h2]

theorem clip_mem {a lo hi : Fl R} (h1 : lo ≤ a) (h2 : a ≤ hi) : clip a lo hi = a := by
  have han : a.isNan = false := by cases a <;> simp_all
  have e1 : npMax a lo = a := by
    by_cases hl : lo < a
    · simp [npMax, hl]
    · have : a = lo := le_antisymm' ((not_lt' (ne_nan_of_le_left h1) (ne_nan_of_le_right h1)).1 hl) h1
      simp [npMax, this]
  by_cases hh : a < hi
  · simp [clip, e1, npMin, hh]
  · have : a = hi := le_antisymm' h2 ((not_lt' (ne_nan_of_le_left h2) (ne_nan_of_le_right h2)).1 hh)
    subst this; simp [clip, e1, npMin]

theorem clip_mem_range {a lo hi : Fl R} (ha : a ≠ nan) (h : lo ≤ hi) : lo ≤ clip a lo hi ∧ clip a lo hi ≤ hi := by
  by_cases h1 : a < lo
  · rw [clip_lt h1 h]; exact ⟨le_refl_of _ (ne_nan_of_le_left h), h⟩
  · by_cases h2 : hi < a
    · rw [clip_gt h2 h]; exact ⟨h, le_refl_of _ (ne_nan_of_le_right h)⟩
    · have h1' := (not_lt' ha (ne_nan_of_le_left h)).1 h1
      have h2' := (not_lt' (ne_nan_of_le_right h) ha).1 h2
      rw [clip_mem h1' h2']; exact ⟨h1', h2'⟩

theorem clip_ne_nan {a lo hi : Fl R} (ha : a ≠ nan) (h : lo ≤ hi) : clip a lo hi ≠ nan :=
  ne_nan_of_le_left (clip_mem_range ha h).2

theorem clip_eq_nan {a lo hi : Fl R} (h : lo ≤ hi) (hc : clip a lo hi = nan) : a = nan := by
  by_contra ha; exact clip_ne_nan ha h hc

@[simp] theorem clip_inf (a : Fl R) : clip a ninf pinf = a := by
  cases a <;> simp [clip, npMax, npMin]

/-! ### exact formats -/

section exact
variable [Exact R]

@[simp] theorem round_exact (x : K) : (round x : Fl R) = fin x := by
  simp [round, Exact.rnd_eq, ofExt]
@[simp] theorem fin_add_fin (a b : K) : (fin a + fin b : Fl R) = fin (a + b) := by
  show add (fin a) (fin b) = _; simp [add]
@[simp] theorem fin_mul_fin (a b : K) : (fin a * fin b : Fl R) = fin (a * b) := by
  show mul (fin a) (fin b) = _; simp [mul]
@[simp] theorem neg_fin (a : K) : (-(fin a) : Fl R) = fin (-a) := rfl
@[simp] theorem fin_sub_fin (a b : K) : (fin a - fin b : Fl R) = fin (a - b) := by
  show add (fin a) (neg (fin b)) = _; simp [add, neg, sub_eq_add_neg]
theorem fin_div_fin (a b : K) (hb : b ≠ 0) : (fin a / fin b : Fl R) = fin (a / b) := by
  show div (fin a) (fin b) = _; simp [div, hb]
@[simp] theorem cast32_fin (a : K) : (fin a : Fl R).cast32 = fin a := by
  simp [cast32, Exact.rnd32_eq, ofExt]
@[simp] theorem cast32_exact (a : Fl R) : a.cast32 = a := by
  cases a <;> simp [cast32, Exact.rnd32_eq, ofExt]
theorem ofScientific_exact (m : ℕ) (s : Bool) (e : ℕ) :
    (OfScientific.ofScientific m s e : Fl R) = fin (if s then (m : K) / (10 : K) ^ e else (m : K) * (10 : K) ^ e) := by
  show (round _ : Fl R) = _
  simp
end exact

theorem ofNat_fin (n : ℕ) : (OfNat.ofNat n : Fl R) = fin (n : K) := rfl
@[simp] theorem zero_fin : (0 : Fl R) = fin (0 : K) := by rw [ofNat_fin]; simp
@[simp] theorem one_fin : (1 : Fl R) = fin (1 : K) := by rw [ofNat_fin]; simp
@[simp] theorem two_fin : (2 : Fl R) = fin (2 : K) := by rw [ofNat_fin]; simp
@[simp] theorem three_fin : (3 : Fl R) = fin (3 : K) := by rw [ofNat_fin]; simp

end Fl

/-! ### broadcasting -/

section bc
variable {α β γ : Type}

theorem bcast2_ok {f : α → β → γ} {xs : List α} {ys : List β} {zs : List γ} (h : bcast2 f xs ys = .ok zs)
    {i : Nat} {z : γ} (hz : zs[i]? = some z) : ∃ x y, bget xs i = some x ∧ bget ys i = some y ∧ z = f x y := by
  unfold bcast2 at h
  split at h
  · rename_i hl
    cases h
    rw [List.getElem?_zipWith] at hz
    cases hx : xs[i]? with
    | none => simp [hx] at hz
    | some x =>
      cases hy : ys[i]? with
      | none => simp [hx, hy] at hz
      | some y =>
        simp [hx, hy] at hz
        refine ⟨x, y, ?_, ?_, hz.symm⟩
        · unfold bget; split
          · cases i <;> simpa using hx
          · exact hx
        · unfold bget; split
          · cases i <;> simpa using hy
          · exact hy
  · rename_i hl
    split at h
    · cases h
      simp at hz
      obtain ⟨y, hy, rfl⟩ := hz
      refine ⟨_, y, rfl, ?_, rfl⟩
      unfold bget; split
      · simp at hl
      · exact hy
    · cases h
      simp at hz
      obtain ⟨x, hx, rfl⟩ := hz
      refine ⟨x, _, ?_, rfl, rfl⟩
      unfold bget; split
      · simp at hl
      · exact hx
    · cases h

theorem bcast2_get {f : α → β → γ} {xs : List α} {ys : List β} {zs : List γ} (h : bcast2 f xs ys = .ok zs)
    {i : Nat} {x : α} {y : β} (hx : bget xs i = some x) (hy : bget ys i = some y) (hi : i < zs.length) :
    zs[i]? = some (f x y) := by
  obtain ⟨x', y', h1, h2, h3⟩ := bcast2_ok h (List.getElem?_eq_getElem hi)
  rw [List.getElem?_eq_getElem hi, h3]
  simp_all

theorem bcast2_same {f : α → β → γ} {xs : List α} {ys : List β} (h : xs.length = ys.length) :
    bcast2 f xs ys = .ok (List.zipWith f xs ys) := by simp [bcast2, h]

theorem bcast2_single_right (f : α → β → γ) (xs : List α) (y : β) :
    bcast2 f xs [y] = .ok (xs.map (fun x => f x y)) := by
  unfold bcast2
  match xs with
  | [] => simp
  | [x] => simp
  | x :: x' :: xs => simp

theorem bcast2_length {f : α → β → γ} {xs : List α} {ys : List β} {zs : List γ} (h : bcast2 f xs ys = .ok zs) :
    (zs.length = xs.length ∨ xs.length = 1) ∧ (zs.length = ys.length ∨ ys.length = 1) := by
  unfold bcast2 at h
  split at h
  · cases h; simp_all
  · split at h <;> cases h <;> simp

variable {K : Type} {R : Fmt K}
theorem Arr.at_eq (a : Arr R) (i : Nat) : a.at i = bget a.toVec i := by
  cases a with
  | scalar x => rfl
  | vec xs =>
    match xs with
    | [] => rfl
    | [x] => rfl
    | _ :: _ :: _ => rfl

variable [Field K] [LinearOrder K]

theorem bget_of_get {xs : List α} {i : Nat} {x : α} (h : xs[i]? = some x) : bget xs i = some x := by
  unfold bget; split
  · cases i <;> simp_all
  · exact h

/-- elements of a broadcast result -/
theorem bcast2_bget {α β γ : Type} {f : α → β → γ} {xs : List α} {ys : List β} {zs : List γ}
    (h : bcast2 f xs ys = .ok zs) {i : Nat} {z : γ} (hz : bget zs i = some z) :
    ∃ x y, bget xs i = some x ∧ bget ys i = some y ∧ z = f x y := by
  by_cases h1 : zs.length = 1
  · have hl := bcast2_length h
    rw [h1] at hl
    have hx : xs.length = 1 := by rcases hl.1 with h | h <;> omega
    have hy : ys.length = 1 := by rcases hl.2 with h | h <;> omega
    match xs, hx, ys, hy with
    | [x], _, [y], _ =>
      simp [bcast2] at h
      subst h
      refine ⟨x, y, rfl, rfl, ?_⟩
      simpa [bget] using hz.symm
  · have : zs[i]? = some z := by
      unfold bget at hz; split at hz
      · simp at h1
      · exact hz
    exact bcast2_ok h this

/-- elements of `np.clip` -/
theorem npClip_bget {a : Vec R} {lo hi : Arr R} {zs : Vec R} (h : npClip a lo hi = .ok zs)
    {i : Nat} {z : Fl R} (hz : bget zs i = some z) :
    ∃ x l u, bget a i = some x ∧ lo.at i = some l ∧ hi.at i = some u ∧ z = Fl.clip x l u := by
  unfold npClip at h
  simp only [bind, Except.bind] at h
  split at h
  · cases h
  · rename_i b hb
    obtain ⟨m, u, hm, hu, rfl⟩ := bcast2_bget h hz
    obtain ⟨x, l, hx, hl, rfl⟩ := bcast2_bget hb hm
    exact ⟨x, l, u, hx, by rw [Arr.at_eq]; exact hl, by rw [Arr.at_eq]; exact hu, rfl⟩

theorem npClip_ok {a : Vec R} {lo hi : Arr R} {zs : Vec R} (h : npClip a lo hi = .ok zs)
    {i : Nat} {z : Fl R} (hz : zs[i]? = some z) :
    ∃ x l u, bget a i = some x ∧ lo.at i = some l ∧ hi.at i = some u ∧ z = Fl.clip x l u :=
  npClip_bget h (bget_of_get hz)

/-- elements of `np.where` -/
theorem npWhere_bget {α : Type} {c : List Bool} {a b : List α} {zs : List α} (h : npWhere c a b = .ok zs)
    {i : Nat} {z : α} (hz : bget zs i = some z) :
    ∃ p x y, bget c i = some p ∧ bget a i = some x ∧ bget b i = some y ∧ z = if p then x else y := by
  unfold npWhere at h
  simp only [bind, Except.bind] at h
  split at h
  · cases h
  · rename_i ab hab
    obtain ⟨p, xy, hp, hxy, rfl⟩ := bcast2_bget h hz
    obtain ⟨x, y, hx, hy, rfl⟩ := bcast2_bget hab hxy
    exact ⟨p, x, y, hp, hx, hy, rfl⟩

theorem bget_map {α β : Type} (f : α → β) (xs : List α) (i : Nat) : bget (xs.map f) i = (bget xs i).map f := by
  match xs with
  | [] => simp [bget]
  | [x] => simp [bget]
  | x :: y :: xs => show ((x :: y :: xs).map f)[i]? = _; rw [List.getElem?_map]; rfl

end bc
end SAD
