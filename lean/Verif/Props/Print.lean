import Verif.Lemmas.Rounding
import Verif.Model.Print
import Verif.Lemmas.Binary
import Mathlib.Data.Nat.Digits.Lemmas
import Mathlib.Tactic.Linarith
import Mathlib.Tactic.Ring

/-!
# C129: printing a matrix
-/

namespace SAD
open Spec Aero

/-- the columns `j * w` to `j * w + w - 1` of a line -/
def Spec.columnOf (w j : Nat) (line : List Char) : List Char := (line.drop (j * w)).take w

/-- `s` stands at the right of the `w` characters `field`, after blanks -/
def Spec.AtRight (w : Nat) (s field : List Char) : Prop := ∃ k, field = List.replicate k ' ' ++ s ∧ field.length = w

/-- `s` stands at the left of the `w` characters `field`, before blanks -/
def Spec.AtLeft (w : Nat) (s field : List Char) : Prop := ∃ k, field = s ++ List.replicate k ' ' ∧ field.length = w

/-- `labels` are the words of `s`: joined by single blanks they are `s`, and none contains a blank -/
def Spec.Words (s : List Char) (labels : List (List Char)) : Prop :=
  labels ≠ [] ∧ List.intercalate [' '] labels = s ∧ ∀ l ∈ labels, ' ' ∉ l

/-- the smallest `w` above 7 and above the length of every label -/
def Spec.ColumnWidth (labels : List (List Char)) (w : Nat) : Prop :=
  (8 ≤ w ∧ ∀ l ∈ labels, l.length < w) ∧ ∀ w', (8 ≤ w' ∧ ∀ l ∈ labels, l.length < w') → w ≤ w'

theorem words_split (s : List Char) : Words s (pySplit s) := by
  induction s with
  | nil => refine ⟨by simp [pySplit], by simp [pySplit], by simp [pySplit]⟩
  | cons c s ih =>
    obtain ⟨h0, h1, h2⟩ := ih
    unfold pySplit
    split
    · rename_i hc
      refine ⟨by simp, ?_, ?_⟩
      · rw [hc]
        obtain ⟨l, ls, hl⟩ := List.exists_cons_of_ne_nil h0
        rw [hl] at h1 ⊢
        rw [← h1]
        simp [List.intercalate]
      · intro l hl
        rcases List.mem_cons.1 hl with rfl | hl
        · simp
        · exact h2 l hl
    · rename_i hc
      obtain ⟨l, ls, hl⟩ := List.exists_cons_of_ne_nil h0
      rw [hl] at h1 h2 ⊢
      refine ⟨by simp, ?_, ?_⟩
      · simp only
        rw [← h1]
        cases ls <;> simp [List.intercalate]
      · intro l' hl'
        rcases List.mem_cons.1 hl' with rfl | hl'
        · simp only [List.mem_cons, not_or]
          exact ⟨fun h => hc h.symm, h2 l (by simp)⟩
        · exact h2 l' (by simp [hl'])

theorem foldl_max_le (l : List Nat) : ∀ a, a ≤ l.foldl max a ∧ (∀ x ∈ l, x ≤ l.foldl max a) ∧ ∀ b, a ≤ b → (∀ x ∈ l, x ≤ b) → l.foldl max a ≤ b := by
  induction l with
  | nil => intro a; simp
  | cons x l ih =>
    intro a
    obtain ⟨h1, h2, h3⟩ := ih (max a x)
    refine ⟨(le_max_left _ _).trans h1, ?_, ?_⟩
    · intro y hy
      rcases List.mem_cons.1 hy with rfl | hy
      · exact (le_max_right _ _).trans h1
      · exact h2 y hy
    · intro b hb hl
      exact h3 b (max_le hb (hl x (by simp))) (fun y hy => hl y (by simp [hy]))

theorem longest_spec (ls : List (List Char)) : (∀ l ∈ ls, l.length ≤ longest ls) ∧ ∀ b, (∀ l ∈ ls, l.length ≤ b) → longest ls ≤ b := by
  obtain ⟨-, h2, h3⟩ := foldl_max_le (ls.map List.length) 0
  refine ⟨fun l hl => h2 _ (List.mem_map_of_mem hl), fun b hb => h3 b (Nat.zero_le _) ?_⟩
  intro x hx
  obtain ⟨l, hl, rfl⟩ := List.mem_map.1 hx
  exact hb l hl

theorem printWidth_spec (rl : Option (List (List Char))) (cl : List (List Char)) : ColumnWidth (rl.getD [] ++ cl) (printWidth rl cl) := by
  obtain ⟨c1, c2⟩ := longest_spec cl
  cases rl with
  | none =>
    simp only [printWidth, Option.getD_none, List.nil_append]
    refine ⟨⟨by omega, fun l hl => by have := c1 l hl; omega⟩, fun w' h => ?_⟩
    have := c2 (w' - 1) (fun l hl => by have := h.2 l hl; omega)
    omega
  | some rl =>
    obtain ⟨r1, r2⟩ := longest_spec rl
    simp only [printWidth, Option.getD_some]
    refine ⟨⟨by omega, fun l hl => ?_⟩, fun w' h => ?_⟩
    · rcases List.mem_append.1 hl with hl | hl
      · have := r1 l hl; omega
      · have := c1 l hl; omega
    · have := c2 (w' - 1) (fun l hl => by have := h.2 l (by simp [hl]); omega)
      have := r2 (w' - 1) (fun l hl => by have := h.2 l (by simp [hl]); omega)
      omega

theorem columns_flatMap {α : Type} (w : Nat) (f : α → List Char) (l : List α) (hf : ∀ x ∈ l, (f x).length = w) :
    (l.flatMap f).length = w * l.length ∧ ∀ j x, l[j]? = some x → columnOf w j (l.flatMap f) = f x := by
  induction l with
  | nil => simp
  | cons a l ih =>
    obtain ⟨h1, h2⟩ := ih (fun x hx => hf x (by simp [hx]))
    have ha := hf a (by simp)
    refine ⟨by simp [h1, ha]; ring, ?_⟩
    intro j x hj
    cases j with
    | zero =>
      obtain rfl : a = x := by simpa using hj
      simp [columnOf, ← ha]
    | succ j =>
      rw [← h2 j x (by simpa using hj)]
      unfold columnOf
      rw [List.flatMap_cons, show (j + 1) * w = (f a).length + j * w by rw [ha]; ring, List.drop_append, List.drop_eq_nil_of_le (Nat.le_add_right _ _)]
      simp

theorem columns_head {w : Nat} {a rest : List Char} (ha : a.length = w) : columnOf w 0 (a ++ rest) = a ∧
    ∀ j, columnOf w (j + 1) (a ++ rest) = columnOf w j rest := by
  refine ⟨by simp [columnOf, ← ha], fun j => ?_⟩
  unfold columnOf
  rw [show (j + 1) * w = a.length + j * w by rw [ha]; ring, List.drop_append, List.drop_eq_nil_of_le (Nat.le_add_right _ _)]
  simp

theorem alignRight_spec {w : Nat} {s : List Char} (h : s.length ≤ w) : AtRight w s (alignRight w s) :=
  ⟨_, rfl, by simp [alignRight]; omega⟩

theorem alignLeft_spec {w : Nat} {s : List Char} (h : s.length ≤ w) : AtLeft w s (alignLeft w s) :=
  ⟨_, rfl, by simp [alignLeft]; omega⟩

theorem cutLabel_id {w : Nat} {l : List Char} (h : l.length < w) : cutLabel w l = l := if_neg (by omega)

theorem pySplit_length (s : List Char) : (pySplit s).length = s.count ' ' + 1 := by
  induction s with
  | nil => rfl
  | cons c s ih =>
    obtain ⟨h0, -, -⟩ := words_split s
    unfold pySplit
    split
    · rename_i hc; rw [hc]; simp [ih]
    · rename_i hc
      obtain ⟨l, ls, hl⟩ := List.exists_cons_of_ne_nil h0
      rw [hl] at ih ⊢
      rw [List.count_cons_of_ne (by simpa using hc)]
      simpa using ih

/-- The argument is a matrix with these rows, or a vector, which is printed as a matrix of one row. -/
def Spec.HasRows {N : Type} (mat : PrintArg N) (rows : List (List N)) : Prop := mat = .matrix rows ∨ ∃ v, mat = .vector v ∧ rows = [v]

theorem printRows_iff {N : Type} {mat : PrintArg N} {rows : List (List N)} : printRows mat = some rows ↔ HasRows mat rows := by
  cases mat <;> simp [printRows, HasRows, eq_comm]

section
variable {N : Type} (text : Nat → N → List Char)

theorem row_spec {w : Nat} (hw : 8 ≤ w) (label : List Char) (hl : label.length < w) (row : List N)
    (hfit : ∀ x ∈ row, ∀ p, 5 ≤ p → (text p x).length ≤ p + 3) :
    ∃ line, printRow text w (some label) row = line ++ ['\n'] ∧ line.length = w * (row.length + 1) ∧ AtLeft w label (columnOf w 0 line) ∧
      ∀ j x, row[j]? = some x → AtRight w (text (w - 3) x) (columnOf w (j + 1) line) := by
  have hal := alignLeft_spec hl.le
  have hrow : ∀ x ∈ row, AtRight w (text (w - 3) x) (alignRight w (text (w - 3) x)) := fun x hx =>
    alignRight_spec (by have := hfit x hx (w - 3) (by omega); omega)
  obtain ⟨h1, h2⟩ := columns_flatMap w (fun x => alignRight w (text (w - 3) x)) row (fun x hx => by obtain ⟨k, -, h⟩ := hrow x hx; exact h)
  obtain ⟨k, hk, hlen⟩ := hal
  obtain ⟨g1, g2⟩ := columns_head (rest := row.flatMap (fun x => alignRight w (text (w - 3) x))) hlen
  refine ⟨alignLeft w label ++ row.flatMap (fun x => alignRight w (text (w - 3) x)), by simp [printRow, cutLabel_id hl], ?_, ?_, ?_⟩
  · rw [List.length_append, h1, hlen]; ring
  · rw [g1]; exact ⟨k, hk, hlen⟩
  · intro j x hj
    rw [g2, h2 j x hj]
    exact hrow x (List.mem_of_getElem? hj)

theorem row_spec_bare {w : Nat} (hw : 8 ≤ w) (row : List N)
    (hfit : ∀ x ∈ row, ∀ p, 5 ≤ p → (text p x).length ≤ p + 3) :
    ∃ line, printRow text w none row = line ++ ['\n'] ∧ line.length = w * row.length ∧
      ∀ j x, row[j]? = some x → AtRight w (text (w - 3) x) (columnOf w j line) := by
  have hrow : ∀ x ∈ row, AtRight w (text (w - 3) x) (alignRight w (text (w - 3) x)) := fun x hx =>
    alignRight_spec (by have := hfit x hx (w - 3) (by omega); omega)
  obtain ⟨h1, h2⟩ := columns_flatMap w (fun x => alignRight w (text (w - 3) x)) row (fun x hx => by obtain ⟨k, -, h⟩ := hrow x hx; exact h)
  refine ⟨_, by simp only [printRow, List.nil_append], h1, ?_⟩
  intro j x hj
  rw [h2 j x hj]
  exact hrow x (List.mem_of_getElem? hj)

theorem header_spec {w : Nat} (cl : List (List Char)) (hcl : ∀ l ∈ cl, l.length < w) :
    (cl.flatMap (fun l => alignRight w (cutLabel w l))).length = w * cl.length ∧
      ∀ j l, cl[j]? = some l → AtRight w l (columnOf w j (cl.flatMap (fun l => alignRight w (cutLabel w l)))) := by
  have hc : ∀ l ∈ cl, AtRight w l (alignRight w (cutLabel w l)) := fun l hl => by
    rw [cutLabel_id (hcl l hl)]; exact alignRight_spec (hcl l hl).le
  obtain ⟨h1, h2⟩ := columns_flatMap w (fun l => alignRight w (cutLabel w l)) cl (fun l hl => by obtain ⟨k, -, h⟩ := hc l hl; exact h)
  refine ⟨h1, fun j l hj => ?_⟩
  rw [h2 j l hj]
  exact hc l (List.mem_of_getElem? hj)

/-- lines for a list of things, each with its own description -/
theorem lines_of {α : Type} (f : α → List Char) (P : α → List Char → Prop) (xs : List α) (h : ∀ x ∈ xs, ∃ line, f x = line ++ ['\n'] ∧ P x line) :
    ∃ lines : List (List Char), xs.flatMap f = lines.flatMap (· ++ ['\n']) ∧ lines.length = xs.length ∧
      ∀ (i : Nat) (x : α), xs[i]? = some x → ∃ line, lines[i]? = some line ∧ P x line := by
  induction xs with
  | nil => exact ⟨[], rfl, rfl, by simp⟩
  | cons x xs ih =>
    obtain ⟨line, h1, h2⟩ := h x (by simp)
    obtain ⟨lines, g1, g2, g3⟩ := ih (fun y hy => h y (by simp [hy]))
    refine ⟨line :: lines, by simp [h1, g1], by simp [g2], ?_⟩
    intro i y hi
    cases i with
    | zero => obtain rfl : x = y := by simpa using hi
              exact ⟨line, by simp, h2⟩
    | succ i => simpa using g3 i y (by simpa using hi)

theorem printHead_some (rl cl : List (List Char)) : printHead (some rl) cl = "{main_label} =".toList ++ ('\n' :: (alignLeft (printWidth (some rl) cl) []
    ++ cl.flatMap (fun l => alignRight (printWidth (some rl) cl) (cutLabel (printWidth (some rl) cl) l))) ++ ['\n']) := by
  have h : ∀ t a b : List Char, t ++ ['\n'] ++ a ++ b ++ ['\n'] = t ++ ('\n' :: (a ++ b) ++ ['\n']) := by simp
  exact h _ _ _

theorem printHead_none (cl : List (List Char)) : printHead none cl = "{main_label} =".toList ++ ('\n' ::
    cl.flatMap (fun l => alignRight (printWidth none cl) (cutLabel (printWidth none cl) l)) ++ ['\n']) := by
  have h : ∀ t b : List Char, t ++ ['\n'] ++ [] ++ b ++ ['\n'] = t ++ ('\n' :: b ++ ['\n']) := by simp
  exact h _ _

/-- C129: `printmat` with one row label for every row: after a line that is always the same come a line with the labels of the columns and one line
for each row. All columns have the same width, the smallest above 7 and above the length of every label; no label is cut. If the texts of the
numbers are short enough, every number stands right-aligned below the label of its column. -/
theorem C129_table (mat : PrintArg N) (rows : List (List N)) (hm : HasRows mat rows) (title r c : List Char)
    (hr : r.count ' ' + 1 = rows.length) (hfit : ∀ row ∈ rows, ∀ x ∈ row, ∀ p, 5 ≤ p → (text p x).length ≤ p + 3) :
    ∃ (rl cl : List (List Char)) (w : Nat) (header : List Char) (lines : List (List Char)), Words r rl ∧ Words c cl ∧ ColumnWidth (rl ++ cl) w ∧
      printmat text mat (.str title) (.str r) (.str c)
        = ("{main_label} =".toList ++ '\n' :: header ++ '\n' :: lines.flatMap (· ++ ['\n']), none) ∧
      header.length = w * (cl.length + 1) ∧ AtLeft w [] (columnOf w 0 header) ∧
      (∀ j l, cl[j]? = some l → AtRight w l (columnOf w (j + 1) header)) ∧ lines.length = rows.length ∧
      ∀ (i : Nat) (row : List N), rows[i]? = some row → ∃ line label, lines[i]? = some line ∧ rl[i]? = some label ∧ line.length = w * (row.length + 1) ∧
        AtLeft w label (columnOf w 0 line) ∧ ∀ j x, row[j]? = some x → AtRight w (text (w - 3) x) (columnOf w (j + 1) line) := by
  have hrl : (pySplit r).length = rows.length := by rw [pySplit_length, hr]
  have hcw := printWidth_spec (some (pySplit r)) (pySplit c)
  simp only [Option.getD_some] at hcw
  obtain ⟨⟨w8, wl⟩, -⟩ := id hcw
  generalize hw : printWidth (some (pySplit r)) (pySplit c) = w at *
  obtain ⟨lines, l1, l2, l3⟩ := lines_of (fun lr : List Char × List N => printRow text w (some lr.1) lr.2)
    (fun lr line => line.length = w * (lr.2.length + 1) ∧ AtLeft w lr.1 (columnOf w 0 line) ∧
      ∀ j x, lr.2[j]? = some x → AtRight w (text (w - 3) x) (columnOf w (j + 1) line)) ((pySplit r).zip rows) (by
    rintro ⟨l, row⟩ hlr
    obtain ⟨m1, m2⟩ := List.of_mem_zip hlr
    exact row_spec text w8 l (wl l (by simp [m1])) row (hfit row m2))
  obtain ⟨a1, a2⟩ := header_spec (w := w) (pySplit c) (fun l hl => wl l (by simp [hl]))
  obtain ⟨k0, b1, b2⟩ := alignLeft_spec (w := w) (s := []) (by simp)
  obtain ⟨g1, g2⟩ := columns_head (rest := (pySplit c).flatMap (fun l => alignRight w (cutLabel w l))) b2
  refine ⟨_, _, w, alignLeft w [] ++ (pySplit c).flatMap (fun l => alignRight w (cutLabel w l)), lines, words_split r, words_split c, hcw, ?_, ?_, ?_, ?_, ?_, ?_⟩
  · have e : printmat text mat (.str title) (.str r) (.str c) = (printHead (some (pySplit r)) (pySplit c) ++
        ((pySplit r).zip rows).flatMap (fun lr => printRow text w (some lr.1) lr.2), none) := by
      simp only [printmat, printRows_iff.2 hm, hrl, if_true, hw]
    rw [e, printHead_some, hw, l1]
    generalize (String.toList _) = t
    simp
  · rw [List.length_append, a1, b2]; ring
  · rw [g1]; exact ⟨k0, b1, b2⟩
  · intro j l hj; rw [g2]; exact a2 j l hj
  · rw [l2, List.length_zip, hrl]; simp
  · intro i row hi
    obtain ⟨hlt, hi'⟩ := List.getElem?_eq_some_iff.1 hi
    have hli : (pySplit r)[i]? = some ((pySplit r)[i]'(by omega)) := List.getElem?_eq_getElem (by omega)
    obtain ⟨line, m1, m2⟩ := l3 i ((pySplit r)[i]'(by omega), row) (by rw [List.getElem?_zip_eq_some]; exact ⟨hli, hi⟩)
    exact ⟨line, _, m1, hli, m2⟩

/-- C129: the same without row labels (`None` or an empty list). -/
theorem C129_table_bare (mat : PrintArg N) (rows : List (List N)) (hm : HasRows mat rows) (title c : List Char) (r : LabelArg)
    (hr : r = .none ∨ r = .list true) (hfit : ∀ row ∈ rows, ∀ x ∈ row, ∀ p, 5 ≤ p → (text p x).length ≤ p + 3) :
    ∃ (cl : List (List Char)) (w : Nat) (header : List Char) (lines : List (List Char)), Words c cl ∧ ColumnWidth cl w ∧
      printmat text mat (.str title) r (.str c)
        = ("{main_label} =".toList ++ '\n' :: header ++ '\n' :: lines.flatMap (· ++ ['\n']), none) ∧
      header.length = w * cl.length ∧ (∀ j l, cl[j]? = some l → AtRight w l (columnOf w j header)) ∧ lines.length = rows.length ∧
      ∀ (i : Nat) (row : List N), rows[i]? = some row → ∃ line, lines[i]? = some line ∧ line.length = w * row.length ∧
        ∀ j x, row[j]? = some x → AtRight w (text (w - 3) x) (columnOf w j line) := by
  have hcw := printWidth_spec none (pySplit c)
  simp only [Option.getD_none, List.nil_append] at hcw
  obtain ⟨⟨w8, wl⟩, -⟩ := id hcw
  generalize hw : printWidth none (pySplit c) = w at *
  obtain ⟨lines, l1, l2, l3⟩ := lines_of (fun row : List N => printRow text w none row)
    (fun row line => line.length = w * row.length ∧ ∀ j x, row[j]? = some x → AtRight w (text (w - 3) x) (columnOf w j line)) rows
    (fun row hrow => row_spec_bare text w8 row (hfit row hrow))
  obtain ⟨a1, a2⟩ := header_spec (w := w) (pySplit c) wl
  refine ⟨_, w, (pySplit c).flatMap (fun l => alignRight w (cutLabel w l)), lines, words_split c, hcw, ?_, a1, a2, l2, l3⟩
  have e : printmat text mat (.str title) r (.str c) = (printHead none (pySplit c) ++ rows.flatMap (printRow text w none), none) := by
    rcases hr with rfl | rfl <;> simp only [printmat, printRows_iff.2 hm, hw]
  rw [e, printHead_none, hw, l1]
  generalize (String.toList _) = t
  simp

/-- C129: the main label is not printed: the output does not depend on it. -/
theorem C129_title_lost (mat : PrintArg N) (title title' : List Char) (r c : LabelArg) :
    printmat text mat (.str title) r c = printmat text mat (.str title') r c := by
  cases c <;> rcases r with _ | _ | (_ | _) | _ <;> rfl

/-- The arguments `printmat` accepts: strings for the main label and the columns, a string, `None` or an empty list for the rows. -/
def Spec.LabelsOk (title r c : LabelArg) : Prop :=
  (∃ s, title = .str s) ∧ ((∃ s, r = .str s) ∨ r = .none ∨ r = .list true) ∧ ∃ s, c = .str s

/-- C129: labels of another kind raise `AssertionError` before anything is printed. -/
theorem C129_bad_labels (mat : PrintArg N) (title r c : LabelArg) (h : ¬ LabelsOk title r c) :
    printmat text mat title r c = ([], some .assertionError) := by
  unfold LabelsOk at h
  unfold printmat
  cases title <;> cases c <;> rcases r with _ | _ | (_ | _) | _ <;> simp_all

/-- C129: a number instead of a matrix, and a wrong number of row labels, are found out only after the heading has been printed; the number of
column labels is never checked. -/
theorem C129_late (mat : PrintArg N) (title r c : LabelArg) (h : LabelsOk title r c) :
    ((∃ x, mat = .scalar x) → (printmat text mat title r c).2 = some .indexError) ∧
    (∀ rows s, HasRows mat rows → r = .str s → s.count ' ' + 1 ≠ rows.length → (printmat text mat title r c).2 = some .assertionError) ∧
    (∀ rows, HasRows mat rows → (∀ s, r = .str s → s.count ' ' + 1 = rows.length) → (printmat text mat title r c).2 = none) ∧
    "{main_label} =".toList ++ ['\n'] <+: (printmat text mat title r c).1 := by
  obtain ⟨⟨t, rfl⟩, hr, ⟨c, rfl⟩⟩ := h
  refine ⟨?_, ?_, ?_, ?_⟩
  · rintro ⟨x, rfl⟩
    rcases hr with ⟨s, rfl⟩ | rfl | rfl <;> simp [printmat, printRows]
  · rintro rows s hm rfl hne
    rw [← pySplit_length] at hne
    simp [printmat, printRows_iff.2 hm, hne]
  · intro rows hm hs
    rcases hr with ⟨s, rfl⟩ | rfl | rfl
    · have := hs s rfl
      rw [← pySplit_length] at this
      simp [printmat, printRows_iff.2 hm, this]
    · simp [printmat, printRows_iff.2 hm]
    · simp [printmat, printRows_iff.2 hm]
  · have hp : ∀ rl cl, "{main_label} =".toList ++ ['\n'] <+: printHead rl cl := by
      intro rl cl
      unfold printHead
      simp only [List.append_assoc]
      exact List.prefix_append _ _
    rcases hr with ⟨s, rfl⟩ | rfl | rfl <;> simp only [printmat] <;> cases printRows mat <;> simp only
    · exact hp _ _
    · split
      · exact (hp _ _).trans (List.prefix_append _ _)
      · exact hp (some (pySplit s)) (pySplit c)
    · exact hp _ _
    · exact (hp _ _).trans (List.prefix_append _ _)
    · exact hp _ _
    · exact (hp _ _).trans (List.prefix_append _ _)

end

theorem stripZeros_length (s : List Char) : (stripZeros s).length ≤ s.length := by
  unfold stripZeros
  rw [List.length_reverse]
  exact (List.dropWhile_sublist _).length_le.trans_eq (List.length_reverse)

theorem fraction_length (s : List Char) : (fraction s).length ≤ s.length + 1 := by
  have := stripZeros_length s
  unfold fraction
  split <;> simp_all

theorem decimals_length {d p : Nat} (h : d < 10 ^ p) : (decimals d).length ≤ p := by
  unfold decimals
  rw [List.length_map, List.length_reverse]
  exact (Nat.digits_length_le_iff (by norm_num) d).2 h

theorem significant_spec {p : Nat} (hp : 0 < p) {a : ℚ} (h1 : 1 / 10 ≤ a) (h2 : a ≤ 10 ^ p - 1) :
    (significant p a).1 < 10 ^ p ∧ -1 ≤ (significant p a).2 ∧ (significant p a).2 < p := by
  have ha : 0 < a := by linarith
  have hlo : -1 ≤ Int.log 10 a := by
    rw [← Int.zpow_le_iff_le_log (by norm_num) ha]
    norm_num; linarith
  have hhi : Int.log 10 a < p := by
    rw [← Int.lt_zpow_iff_log_lt (by norm_num) ha]
    simp; linarith
  have hlt := Int.lt_zpow_succ_log_self (b := 10) (by norm_num) a
  have hsc : a * 10 ^ ((p : Int) - 1 - Int.log 10 a) ≤ ((10 ^ p : Int) : ℚ) := by
    have e : ((10 ^ p : Int) : ℚ) = ((10 : Nat) : ℚ) ^ (Int.log 10 a + 1) * 10 ^ ((p : Int) - 1 - Int.log 10 a) := by
      push_cast
      rw [← zpow_add₀ (by norm_num), ← zpow_natCast]
      congr 1; ring
    rw [e]
    gcongr
  have hd : (roundEven (a * 10 ^ ((p : Int) - 1 - Int.log 10 a))).toNat ≤ 10 ^ p := by
    have := roundEven_le_of_le hsc
    have h10 : (0 : Int) < 10 ^ p := by positivity
    zify
    omega
  unfold significant
  simp only
  split
  · rename_i h
    refine ⟨Nat.pow_lt_pow_right (by norm_num) (by omega), by simp only; omega, ?_⟩
    simp only
    by_contra hge
    have he : Int.log 10 a = (p : Int) - 1 := by omega
    have hx : a * 10 ^ ((p : Int) - 1 - Int.log 10 a) ≤ ((10 ^ p - 1 : Int) : ℚ) := by
      rw [he]; push_cast; simpa using h2
    have := roundEven_le_of_le hx
    have h10 : (0 : Int) < 10 ^ p := by positivity
    have h' : ((roundEven (a * 10 ^ ((p : Int) - 1 - Int.log 10 a))).toNat : Int) = 10 ^ p := by rw [h]; push_cast; rfl
    omega
  · rename_i h
    exact ⟨by simp only; omega, hlo, hhi⟩

theorem significant_rounded {p : Nat} (hp : 0 < p) {a : ℚ} (ha : 0 < a) :
    10 ^ (p - 1) ≤ (significant p a).1 ∧ (significant p a).1 < 10 ^ p ∧
      |a - (significant p a).1 * 10 ^ ((significant p a).2 - p + 1)| ≤ 10 ^ ((significant p a).2 - p + 1) / 2 ∧
      |a - (significant p a).1 * 10 ^ ((significant p a).2 - p + 1)| ≤ 10 ^ (Int.log 10 a - p + 1) / 2 := by
  have hlt := Int.lt_zpow_succ_log_self (b := 10) (by norm_num) a
  have hle := Int.zpow_log_le_self (b := 10) (by norm_num) ha
  have h10 : (10 : ℚ) ≠ 0 := by norm_num
  push_cast at hlt hle
  obtain ⟨e, he⟩ : ∃ e, Int.log 10 a = e := ⟨_, rfl⟩
  obtain ⟨s, hs⟩ : ∃ s : ℚ, a * 10 ^ ((p : Int) - 1 - e) = s := ⟨_, rfl⟩
  rw [he] at hlt hle
  have hunit : (0 : ℚ) < 10 ^ (e - p + 1) := by positivity
  have hsa : a = s * 10 ^ (e - p + 1) := by
    rw [← hs, mul_assoc, ← zpow_add₀ h10, show (p : Int) - 1 - e + (e - p + 1) = 0 by ring, zpow_zero, mul_one]
  have hp1 : ((10 ^ (p - 1) : Int) : ℚ) = 10 ^ ((p : Int) - 1) := by
    push_cast
    rw [← zpow_natCast]
    congr 1
    omega
  have hlo : ((10 ^ (p - 1) : Int) : ℚ) ≤ s := by
    rw [hp1, ← hs, show (p : Int) - 1 = e + (p - 1 - e) by ring, zpow_add₀ h10]
    rw [show e + ((p : Int) - 1 - e) - e = p - 1 - e by ring]
    gcongr
  have hhi : s ≤ ((10 ^ p : Int) : ℚ) := by
    have : ((10 ^ p : Int) : ℚ) = 10 ^ (e + 1) * 10 ^ ((p : Int) - 1 - e) := by
      push_cast
      rw [← zpow_add₀ h10, ← zpow_natCast]
      congr 1; ring
    rw [this, ← hs]
    gcongr
  have r1 := roundEven_le_of_le hhi
  have r2 := le_roundEven_of_le hlo
  have r3 := roundEven_error s
  have hpos : (0 : Int) < 10 ^ (p - 1) := by positivity
  obtain ⟨d, hd⟩ : ∃ d : Nat, roundEven s = d := ⟨(roundEven s).toNat, by omega⟩
  rw [hd] at r1 r2 r3
  have r1' : d ≤ 10 ^ p := by exact_mod_cast r1
  have r2' : 10 ^ (p - 1) ≤ d := by exact_mod_cast r2
  have hclose : |a - d * 10 ^ (e - p + 1)| ≤ 10 ^ (e - p + 1) / 2 := by
    have : a - d * 10 ^ (e - p + 1) = (s - d) * 10 ^ (e - p + 1) := by rw [hsa]; ring
    rw [this, abs_mul, abs_of_pos hunit]
    have r3' : |s - d| ≤ 1 / 2 := by rw [abs_sub_comm]; exact_mod_cast r3
    have := mul_le_mul_of_nonneg_right r3' hunit.le
    linarith
  unfold significant
  simp only [he, hs, hd, Int.toNat_natCast]
  split
  · rename_i h
    refine ⟨le_rfl, Nat.pow_lt_pow_right (by norm_num) (by omega), ?_⟩
    simp only
    have e1 : (10 : ℚ) ^ (e + 1 - p + 1) = 10 * 10 ^ (e - p + 1) := by
      rw [show e + 1 - (p : Int) + 1 = 1 + (e - p + 1) by ring, zpow_add₀ h10, zpow_one]
    have e2 : (((10 ^ (p - 1) : Nat) : ℚ)) * 10 = d := by
      rw [h]
      push_cast
      rw [← pow_succ, Nat.sub_add_cancel hp]
    rw [e1, ← mul_assoc, e2]
    exact ⟨by linarith, hclose⟩
  · exact ⟨r2', lt_of_le_of_ne r1' (by assumption), hclose, hclose⟩

/-- C129: the digits are right: every positive number is within half a unit of the last of the `p` digits that `.pg` gives (before trailing zeros
are dropped), of which the first is not zero. -/
theorem C129_rounded {p : Nat} (hp : 0 < p) {a : ℚ} (ha : 0 < a) :
    10 ^ (p - 1) ≤ (significant p a).1 ∧ (significant p a).1 < 10 ^ p ∧
      |a - (significant p a).1 * 10 ^ ((significant p a).2 - p + 1)| ≤ 10 ^ ((significant p a).2 - p + 1) / 2 :=
  let ⟨h1, h2, h3, _⟩ := significant_rounded hp ha
  ⟨h1, h2, h3⟩

/-- Three digits of two thirds are 667, the first of them the tenths. -/
example : 10 ^ 2 ≤ (significant 3 (2 / 3)).1 ∧ (significant 3 (2 / 3)).1 < 10 ^ 3 :=
  ⟨(C129_rounded (p := 3) (by norm_num) (a := 2 / 3) (by norm_num)).1, (C129_rounded (by norm_num) (by norm_num)).2.1⟩

theorem positiveG_length {p : Nat} (hp : 0 < p) {a : ℚ} (h1 : 1 / 10 ≤ a) (h2 : a ≤ 10 ^ p - 1) : (positiveG p a).length ≤ p + 2 := by
  obtain ⟨g1, g2, g3⟩ := significant_spec hp h1 h2
  unfold positiveG
  generalize significant p a = de at *
  obtain ⟨d, e⟩ := de
  simp only at g1 g2 g3 ⊢
  have hd := decimals_length g1
  rw [if_neg (by omega)]
  split
  · have := fraction_length ((decimals d).drop (e.toNat + 1))
    rw [List.length_append, List.length_take]
    rw [List.length_drop] at this
    omega
  · have := fraction_length (List.replicate ((-e).toNat - 1) '0' ++ decimals d)
    rw [List.length_append, List.length_replicate] at this
    rw [List.length_cons]
    omega

/-- the digit that a character stands for -/
def Spec.digit (c : Char) : Nat := c.toNat - '0'.toNat

/-- the number that a list of digits denotes, the first digit being the most significant -/
def Spec.whole (s : List Char) : Nat := s.foldl (fun n c => 10 * n + digit c) 0

/-- the number that digits behind a decimal point denote -/
def Spec.part : List Char → ℚ
  | [] => 0
  | c :: s => (digit c + part s) / 10

/-- not empty, and digits only -/
def Spec.IsDigits (s : List Char) : Prop := s ≠ [] ∧ ∀ c ∈ s, c.isDigit

/-- How a text is read as a number: `12`, `1.2`, `1.2e+03`, `1.2e-03`, `-1.2`. -/
inductive Spec.Reads : List Char → ℚ → Prop
  | whole {s} : IsDigits s → Reads s (whole s)
  | point {s t} : IsDigits s → IsDigits t → Reads (s ++ '.' :: t) (Spec.whole s + part t)
  | up {s v x} : Reads s v → IsDigits x → Reads (s ++ 'e' :: '+' :: x) (v * 10 ^ Spec.whole x)
  | down {s v x} : Reads s v → IsDigits x → Reads (s ++ 'e' :: '-' :: x) (v / 10 ^ Spec.whole x)
  | neg {s v} : Reads s v → Reads ('-' :: s) (-v)

theorem digit_zero : Spec.digit '0' = 0 := by simp [Spec.digit]

theorem whole_foldl (s : List Char) : ∀ n : Nat, s.foldl (fun n c => 10 * n + digit c) n = n * 10 ^ s.length + whole s := by
  induction s with
  | nil => intro n; simp [Spec.whole]
  | cons c s ih =>
    intro n
    unfold Spec.whole
    rw [List.foldl_cons, List.foldl_cons, ih, ih, List.length_cons]
    ring

theorem whole_cons (c : Char) (s : List Char) : whole (c :: s) = digit c * 10 ^ s.length + whole s := by
  show List.foldl _ (10 * 0 + digit c) s = _
  rw [whole_foldl]; ring

theorem whole_append (s t : List Char) : whole (s ++ t) = whole s * 10 ^ t.length + whole t := by
  unfold Spec.whole
  rw [List.foldl_append, whole_foldl]
  rfl

theorem part_whole (s : List Char) : part s = whole s / 10 ^ s.length := by
  induction s with
  | nil => simp [Spec.part, Spec.whole]
  | cons c s ih =>
    rw [Spec.part, ih, whole_cons, List.length_cons]
    push_cast
    field_simp
    ring

theorem part_append (s t : List Char) : part (s ++ t) = part s + part t / 10 ^ s.length := by
  rw [part_whole, part_whole, part_whole, whole_append, List.length_append, pow_add]
  push_cast
  field_simp

theorem whole_zeros (k : Nat) : whole (List.replicate k '0') = 0 := by
  induction k with
  | zero => rfl
  | succ k ih => rw [List.replicate_succ, whole_cons, ih, digit_zero]; ring

theorem mem_takeWhile_sat {α : Type} {f : α → Bool} {c : α} {l : List α} (h : c ∈ l.takeWhile f) : f c := by
  induction l with
  | nil => simp at h
  | cons x l ih =>
    rw [List.takeWhile_cons] at h
    split at h
    · rcases List.mem_cons.1 h with rfl | h
      · assumption
      · exact ih h
    · simp at h

theorem stripZeros_append (s : List Char) : ∃ k, s = stripZeros s ++ List.replicate k '0' := by
  refine ⟨(s.reverse.takeWhile (· = '0')).length, ?_⟩
  have h := List.takeWhile_append_dropWhile (p := fun c => decide (c = '0')) (l := s.reverse)
  have ht : s.reverse.takeWhile (fun c => decide (c = '0')) = List.replicate (s.reverse.takeWhile (· = '0')).length '0' := by
    refine List.eq_replicate_iff.2 ⟨rfl, fun c hc => ?_⟩
    simpa using mem_takeWhile_sat hc
  have h' := congrArg List.reverse h
  rw [List.reverse_append, List.reverse_reverse, ht, List.reverse_replicate] at h'
  exact h'.symm

theorem fraction_reads {a b : List Char} (ha : IsDigits a) (hb : ∀ c ∈ b, c.isDigit) : Reads (a ++ fraction b) (whole a + part b) := by
  obtain ⟨k, hk⟩ := stripZeros_append b
  have hp : part b = part (stripZeros b) := by
    conv_lhs => rw [hk]
    rw [part_append, part_whole (List.replicate k '0'), whole_zeros]
    simp
  have hd : ∀ c ∈ stripZeros b, c.isDigit := fun c hc => hb c (by rw [hk]; exact List.mem_append_left _ hc)
  rw [hp]
  unfold fraction
  split
  · rename_i h
    rw [h, List.append_nil, Spec.part, add_zero]
    exact .whole ha
  · rename_i h
    exact .point ha ⟨h, hd⟩

theorem digitChar_isDigit {n : Nat} (h : n < 10) : (Nat.digitChar n).isDigit ∧ digit (Nat.digitChar n) = n := by
  interval_cases n <;> decide

theorem whole_decimals (d : Nat) : whole (decimals d) = d ∧ ∀ c ∈ decimals d, c.isDigit := by
  have key : ∀ L : List Nat, (∀ n ∈ L, n < 10) → whole (L.reverse.map Nat.digitChar) = Nat.ofDigits 10 L := by
    intro L
    induction L with
    | nil => intro _; rfl
    | cons n L ih =>
      intro h
      rw [List.reverse_cons, List.map_append, whole_append, ih fun m hm => h m (List.mem_cons_of_mem _ hm), List.map_singleton, whole_cons,
        (digitChar_isDigit (h n List.mem_cons_self)).2, Nat.ofDigits_cons]
      simp [Spec.whole]
      ring
  refine ⟨?_, ?_⟩
  · rw [decimals, key _ fun n hn => Nat.digits_lt_base (by norm_num) hn, Nat.ofDigits_digits]
  · intro c hc
    simp only [decimals, List.mem_map, List.mem_reverse] at hc
    obtain ⟨n, hn, rfl⟩ := hc
    exact (digitChar_isDigit (Nat.digits_lt_base (by norm_num) hn)).1

theorem decimals_length_eq {d p : Nat} (hp : 0 < p) (h1 : 10 ^ (p - 1) ≤ d) (h2 : d < 10 ^ p) : (decimals d).length = p := by
  refine le_antisymm (decimals_length h2) ?_
  unfold decimals
  rw [List.length_map, List.length_reverse]
  have := (Nat.lt_digits_length_iff (b := 10) (by norm_num) d (k := p - 1)).2 h1
  omega

theorem exponent_reads {s : List Char} {v : ℚ} (hs : Reads s v) {e : Int} : Reads (s ++ 'e' :: exponent e) (v * 10 ^ e) := by
  have hx : ∃ x, IsDigits x ∧ whole x = e.natAbs ∧ exponent e = (if e < 0 then '-' else '+') :: x := by
    refine ⟨(if e.natAbs < 10 then ['0'] else []) ++ (if e = 0 then ['0'] else decimals e.natAbs), ⟨?_, ?_⟩, ?_, rfl⟩
    · intro h
      rw [List.append_eq_nil_iff] at h
      split at h
      · simp at h
      · rename_i h9
        rw [if_neg (by omega)] at h
        have := (whole_decimals e.natAbs).1
        rw [h.2] at this
        simp [Spec.whole] at this
        omega
    · intro c hc
      rcases List.mem_append.1 hc with hc | hc
      · split at hc <;> simp_all
      · split at hc
        · simp_all
        · exact (whole_decimals _).2 c hc
    · rw [whole_append]
      have h0 : whole (if e.natAbs < 10 then ['0'] else []) = 0 := by split <;> decide
      rw [h0]
      split
      · rename_i h; subst h; decide
      · rw [(whole_decimals _).1]; omega
  obtain ⟨x, hx, hw, he⟩ := hx
  rw [he]
  split
  · have := Reads.down hs hx
    rw [hw] at this
    rw [show e = -(e.natAbs : Int) by omega, zpow_neg, zpow_natCast, ← div_eq_mul_inv]
    exact this
  · have := Reads.up hs hx
    rw [hw] at this
    rw [show e = (e.natAbs : Int) by omega, zpow_natCast]
    exact this

theorem positiveG_reads {p : Nat} (hp : 0 < p) {a : ℚ} (ha : 0 < a) :
    Reads (positiveG p a) ((significant p a).1 * 10 ^ ((significant p a).2 - p + 1)) := by
  obtain ⟨h1, h2, -⟩ := C129_rounded hp ha
  unfold positiveG
  obtain ⟨⟨d, e⟩, hde⟩ : ∃ q, significant p a = q := ⟨_, rfl⟩
  rw [hde] at h1 h2 ⊢
  simp only at h1 h2 ⊢
  have hl := decimals_length_eq hp h1 h2
  obtain ⟨hw, hdig⟩ := whole_decimals d
  obtain ⟨ds, hds⟩ : ∃ ds, decimals d = ds := ⟨_, rfl⟩
  rw [hds] at hl hw hdig ⊢
  have h10 : (10 : ℚ) ≠ 0 := by norm_num
  have cut : ∀ n, 0 < n → n ≤ p → Reads (ds.take n ++ fraction (ds.drop n)) ((d : ℚ) * 10 ^ ((n : Int) - p)) := by
    intro n hn hnp
    have hne : ds.take n ≠ [] := by
      intro h
      have := congrArg List.length h
      rw [List.length_take, List.length_nil] at this
      omega
    have := fraction_reads (a := ds.take n) (b := ds.drop n) ⟨hne, fun c hc => hdig c (List.mem_of_mem_take hc)⟩
      fun c hc => hdig c (List.mem_of_mem_drop hc)
    have hv : ((whole (ds.take n) : ℚ) + part (ds.drop n)) = (d : ℚ) * 10 ^ ((n : Int) - p) := by
      have h := whole_append (ds.take n) (ds.drop n)
      rw [List.take_append_drop, hw, List.length_drop, hl] at h
      rw [part_whole, List.length_drop, hl, h, show (n : Int) - p = -((p - n : Nat) : Int) by omega, zpow_neg, zpow_natCast]
      push_cast
      field_simp
    rw [← hv]
    exact this
  split
  · have h := exponent_reads (cut 1 one_pos hp) (e := e)
    rw [mul_assoc, ← zpow_add₀ h10] at h
    rw [show e - (p : Int) + 1 = ((1 : Nat) : Int) - p + e by push_cast; ring]
    exact h
  · rename_i hsci
    split
    · have h := cut (e.toNat + 1) (by omega) (by omega)
      rw [show e - (p : Int) + 1 = ((e.toNat + 1 : Nat) : Int) - p by omega]
      exact h
    · have h := fraction_reads (a := ['0']) (b := List.replicate ((-e).toNat - 1) '0' ++ ds) ⟨by simp, by simp⟩ (by
        intro c hc
        rcases List.mem_append.1 hc with hc | hc
        · rw [List.eq_of_mem_replicate hc]; decide
        · exact hdig c hc)
      have hv : ((whole ['0'] : ℚ) + part (List.replicate ((-e).toNat - 1) '0' ++ ds)) = (d : ℚ) * 10 ^ (e - p + 1) := by
        rw [part_append, part_whole (List.replicate _ _), whole_zeros, part_whole, hw, hl, List.length_replicate,
          show e - (p : Int) + 1 = -((((-e).toNat - 1 : Nat) + p : Nat) : Int) by omega, zpow_neg, zpow_natCast, pow_add]
        have : whole ['0'] = 0 := by decide
        rw [this]
        push_cast
        field_simp
        simp
      rw [← hv]
      exact h

/-- C129: what is printed can be read back: the text of a finite number denotes a number that differs from it by at most half a unit in the `p`-th
significant digit. -/
theorem C129_reads {R : Fmt ℚ} {p : Nat} (hp : 0 < p) (x : ℚ) : ∃ v, Reads (floatG p (.fin x : Fl R)) v ∧ |v - x| ≤ |x| / 10 ^ (p - 1) / 2 := by
  have pos : ∀ a : ℚ, 0 < a → ∃ v, Reads (positiveG p a) v ∧ |v - a| ≤ a / 10 ^ (p - 1) / 2 := by
    intro a ha
    refine ⟨_, positiveG_reads hp ha, ?_⟩
    obtain ⟨-, -, -, h⟩ := significant_rounded hp ha
    rw [abs_sub_comm] at h
    have hle := Int.zpow_log_le_self (b := 10) (by norm_num) ha
    push_cast at hle
    refine h.trans ?_
    rw [show Int.log 10 a - (p : Int) + 1 = Int.log 10 a - ((p - 1 : Nat) : Int) by omega, zpow_sub₀ (by norm_num), zpow_natCast]
    gcongr
  show ∃ v, Reads (if x = 0 then ['0'] else if x < 0 then '-' :: positiveG p (-x) else positiveG p x) v ∧ _
  split
  · rename_i h
    refine ⟨_, .whole ⟨by simp, by simp⟩, ?_⟩
    have : whole ['0'] = 0 := by decide
    rw [this, h]; simp
  · rename_i h0
    split
    · rename_i h
      obtain ⟨v, h1, h2⟩ := pos (-x) (by linarith)
      refine ⟨-v, .neg h1, ?_⟩
      rw [abs_of_neg h, show -v - x = -(v - -x) by ring, abs_neg]
      exact h2
    · rename_i h
      have hx : 0 < x := lt_of_le_of_ne (not_lt.1 h) (Ne.symm h0)
      rw [abs_of_pos hx]
      exact pos x hx

/-- A third is printed with five digits as a number within 0.00002 of it. -/
example : ∃ v, Reads (floatG 5 (.fin (1 / 3) : Fl ratFmt)) v ∧ |v - 1 / 3| ≤ |1 / 3| / 10 ^ 4 / 2 := C129_reads (by norm_num) _

/-- A float whose text always fits its column: not finite, zero, or of magnitude from 0.1 to 99999. -/
def Spec.Moderate {R : Fmt ℚ} : Fl R → Prop
  | .fin x => x = 0 ∨ (1 / 10 ≤ |x| ∧ |x| ≤ 99999)
  | _ => True

/-- C129: the text of such a float in the format of `printmat` is never wider than a column, so in a matrix of them (`C129_table`,
`C129_table_bare`) every number stands below its label. -/
theorem C129_numbers {R : Fmt ℚ} (x : Fl R) (hx : Moderate x) (p : Nat) (hp : 5 ≤ p) : (floatG p x).length ≤ p + 3 := by
  have h10 : (99999 : ℚ) ≤ 10 ^ p - 1 := by
    have : (10 : ℚ) ^ 5 ≤ 10 ^ p := pow_le_pow_right₀ (by norm_num) hp
    linarith
  cases x with
  | nan => show 3 ≤ p + 3; omega
  | ninf => show 4 ≤ p + 3; omega
  | pinf => show 3 ≤ p + 3; omega
  | fin x =>
    show (if x = 0 then ['0'] else if x < 0 then '-' :: positiveG p (-x) else positiveG p x).length ≤ p + 3
    split
    · simp
    · rename_i hx0
      rcases hx with hx | ⟨h1, h2⟩
      · exact absurd hx hx0
      split
      · rename_i hneg
        rw [abs_of_neg hneg] at h1 h2
        have := positiveG_length (p := p) (by omega) h1 (h2.trans h10)
        rw [List.length_cons]; omega
      · rename_i hneg
        rw [abs_of_nonneg (not_lt.1 hneg)] at h1 h2
        have := positiveG_length (p := p) (by omega) h1 (h2.trans h10)
        omega

theorem split_exponent {a b x y : List Char} {c d : Char} (hc : c ≠ 'e') (hd : d ≠ 'e') (hx : ∀ z ∈ x, z.isDigit) (hy : ∀ z ∈ y, z.isDigit)
    (h : a ++ 'e' :: c :: x = b ++ 'e' :: d :: y) : a = b ∧ c = d ∧ x = y := by
  have no : ∀ {l x y : List Char} {c d : Char}, c ≠ 'e' → (∀ z ∈ x, z.isDigit) → 'e' :: c :: x = l ++ 'e' :: d :: y → l = [] := by
    intro l x y c d hc hx h
    cases l with
    | nil => rfl
    | cons z l =>
      exfalso
      rw [List.cons_append, List.cons.injEq] at h
      have : 'e' ∈ c :: x := by rw [h.2]; simp
      rcases List.mem_cons.1 this with h' | h'
      · exact hc h'.symm
      · exact absurd (hx _ h') (by decide)
  rcases List.append_eq_append_iff.1 h with ⟨l, h1, h2⟩ | ⟨l, h1, h2⟩
  · have := no hc hx h2
    subst this
    simp at h1 h2
    exact ⟨h1.symm, h2⟩
  · have := no hd hy h2
    subst this
    simp at h1 h2
    exact ⟨h1, h2.1.symm, h2.2.symm⟩

theorem reads_nonempty {s : List Char} {v : ℚ} (h : Reads s v) : s ≠ [] := by
  cases h with
  | whole h => exact h.1
  | _ => simp

theorem reads_minus {s : List Char} {v : ℚ} (h : Reads s v) : ∀ t, s = '-' :: t → Reads t (-v) := by
  induction h with
  | whole h => rintro t rfl; exact absurd (h.2 '-' (by simp)) (by decide)
  | @point s _ h _ =>
    intro t ht
    cases s with
    | nil => exact absurd rfl h.1
    | cons c s =>
      rw [List.cons_append, List.cons.injEq] at ht
      exact absurd (h.2 c (by simp)) (by rw [ht.1]; decide)
  | @up s v x h hx ih =>
    intro t ht
    cases s with
    | nil => exact absurd rfl (reads_nonempty h)
    | cons c s =>
      rw [List.cons_append, List.cons.injEq] at ht
      rw [← ht.2, ← neg_mul]
      exact .up (ih s (by rw [ht.1])) hx
  | @down s v x h hx ih =>
    intro t ht
    cases s with
    | nil => exact absurd rfl (reads_nonempty h)
    | cons c s =>
      rw [List.cons_append, List.cons.injEq] at ht
      rw [← ht.2, ← neg_div]
      exact .down (ih s (by rw [ht.1])) hx
  | neg h => intro t ht; rw [List.cons.injEq] at ht; rw [neg_neg, ← ht.2]; exact h

theorem reads_cases {s : List Char} {v : ℚ} (h : Reads s v) : (IsDigits s ∧ v = Spec.whole s) ∨
    (∃ a t, IsDigits a ∧ IsDigits t ∧ s = a ++ '.' :: t ∧ v = Spec.whole a + part t) ∨
    (∃ a c x u, Reads a u ∧ IsDigits x ∧ (c = '+' ∧ v = u * 10 ^ Spec.whole x ∨ c = '-' ∧ v = u / 10 ^ Spec.whole x) ∧ s = a ++ 'e' :: c :: x) ∨
    ∃ t, s = '-' :: t := by
  cases h with
  | whole h => exact .inl ⟨h, rfl⟩
  | point h h' => exact .inr (.inl ⟨_, _, h, h', rfl, rfl⟩)
  | up h h' => exact .inr (.inr (.inl ⟨_, '+', _, _, h, h', .inl ⟨rfl, rfl⟩, rfl⟩))
  | down h h' => exact .inr (.inr (.inl ⟨_, '-', _, _, h, h', .inr ⟨rfl, rfl⟩, rfl⟩))
  | neg h => exact .inr (.inr (.inr ⟨_, rfl⟩))

/-- C129: a text denotes at most one number. -/
theorem C129_reads_unique {s : List Char} {v w : ℚ} (h : Reads s v) (h' : Reads s w) : v = w := by
  obtain ⟨n, hn⟩ : ∃ n, s.length ≤ n := ⟨_, le_rfl⟩
  induction n generalizing s v w with
  | zero => exact absurd (List.length_eq_zero_iff.1 (Nat.le_zero.1 hn)) (reads_nonempty h)
  | succ n ih =>
    have hminus : ∀ t, s = '-' :: t → v = w := by
      intro t ht
      have := ih (reads_minus h t ht) (reads_minus h' t ht) (by rw [ht] at hn; simpa using hn)
      linarith
    have pt : ∀ {a t : List Char}, IsDigits a → IsDigits t → ∀ c ∈ a ++ '.' :: t, c.isDigit ∨ c = '.' := by
      intro a t ha ht c hc
      rcases List.mem_append.1 hc with h | h
      · exact .inl (ha.2 c h)
      · rcases List.mem_cons.1 h with h | h
        · exact .inr h
        · exact .inl (ht.2 c h)
    rcases reads_cases h with ⟨d, e⟩ | ⟨a, t, d, d', f, e⟩ | ⟨a, c, x, u, r, d, e, f⟩ | ⟨t, f⟩
    · rcases reads_cases h' with ⟨-, e2⟩ | ⟨a2, t2, -, -, f2, -⟩ | ⟨a2, c2, x2, u2, -, -, -, f2⟩ | ⟨t2, f2⟩
      · rw [e, e2]
      · exact absurd (d.2 '.' (by rw [f2]; simp)) (by decide)
      · exact absurd (d.2 'e' (by rw [f2]; simp)) (by decide)
      · exact hminus _ f2
    · rcases reads_cases h' with ⟨d2, e2⟩ | ⟨a2, t2, d2, d2', f2, e2⟩ | ⟨a2, c2, x2, u2, -, -, -, f2⟩ | ⟨t2, f2⟩
      · exact absurd (d2.2 '.' (by rw [f]; simp)) (by decide)
      · have no : ∀ {l t b u : List Char}, IsDigits t → '.' :: t = l ++ '.' :: u → l = [] := by
          intro l t b u ht h
          cases l with
          | nil => rfl
          | cons z l =>
            rw [List.cons_append, List.cons.injEq] at h
            exact absurd (ht.2 '.' (by rw [h.2]; simp)) (by decide)
        rw [f] at f2
        rcases List.append_eq_append_iff.1 f2 with ⟨l, h1, h2⟩ | ⟨l, h1, h2⟩
        · have := no (b := []) d' h2
          subst this
          simp at h1 h2
          rw [e, e2, h1, h2]
        · have := no (b := []) d2' h2
          subst this
          simp at h1 h2
          rw [e, e2, h1, h2]
      · have := pt d d' 'e' (by rw [← f, f2]; simp)
        exact absurd this (by decide)
      · exact hminus _ f2
    · rcases reads_cases h' with ⟨d2, e2⟩ | ⟨a2, t2, d2, d2', f2, e2⟩ | ⟨a2, c2, x2, u2, r2, d2, e2, f2⟩ | ⟨t2, f2⟩
      · exact absurd (d2.2 'e' (by rw [f]; simp)) (by decide)
      · have := pt d2 d2' 'e' (by rw [← f2, f]; simp)
        exact absurd this (by decide)
      · have hc : c ≠ 'e' := by rcases e with ⟨rfl, -⟩ | ⟨rfl, -⟩ <;> decide
        have hc2 : c2 ≠ 'e' := by rcases e2 with ⟨rfl, -⟩ | ⟨rfl, -⟩ <;> decide
        obtain ⟨ha, rfl, rfl⟩ := split_exponent hc hc2 d.2 d2.2 (f.symm.trans f2)
        subst ha
        have := ih r r2 (by rw [f] at hn; simp at hn; omega)
        subst this
        rcases e with ⟨hp, e⟩ | ⟨hp, e⟩ <;> rcases e2 with ⟨hp2, e2⟩ | ⟨hp2, e2⟩
        · rw [e, e2]
        · exact absurd (hp.symm.trans hp2) (by decide)
        · exact absurd (hp.symm.trans hp2) (by decide)
        · rw [e, e2]
      · exact hminus _ f2
    · exact hminus _ f

/-- C129: numbers that are printed alike agree up to the rounding of both. -/
theorem C129_alike {R : Fmt ℚ} {p : Nat} (hp : 0 < p) {x y : ℚ} (h : floatG p (.fin x : Fl R) = floatG p (.fin y : Fl R)) :
    |x - y| ≤ (|x| + |y|) / 10 ^ (p - 1) / 2 := by
  obtain ⟨v, h1, h2⟩ := C129_reads (R := R) hp x
  obtain ⟨w, h3, h4⟩ := C129_reads (R := R) hp y
  rw [h] at h1
  rw [C129_reads_unique h1 h3] at h2
  have := abs_sub_le x w y
  rw [abs_sub_comm x w] at this
  have e : (|x| + |y|) / 10 ^ (p - 1) / 2 = |x| / 10 ^ (p - 1) / 2 + |y| / 10 ^ (p - 1) / 2 := by ring
  rw [e]
  linarith

/-- two different numbers with the same text -/
example : floatG 5 (.fin (1 / 3) : Fl ratFmt) = floatG 5 (.fin (333331 / 1000000) : Fl ratFmt) ∧ (1 / 3 : ℚ) ≠ 333331 / 1000000 ∧
    Reads "-1.5e+02".toList (-((1 + 5 / 10) * 10 ^ 2)) := by
  refine ⟨by decide +kernel, by norm_num, .neg ?_⟩
  have h := Reads.up (Reads.point (s := ['1']) (t := ['5']) ⟨by simp, by simp⟩ ⟨by simp, by simp⟩) (x := ['0', '2']) ⟨by simp, by simp⟩
  have h1 : whole ['1'] = 1 := by decide
  have h2 : part ['5'] = 5 / 10 := by decide +kernel
  have h3 : whole ['0', '2'] = 2 := by decide
  rw [h1, h2, h3] at h
  exact_mod_cast h

/-- C129: other numbers may be wider than their column and shift what follows: beside `0.00012345` the number of the second column ends two
characters to the right of its label. -/
theorem C129_shifted : ∃ rows : List (List (Fl ratFmt)),
    printmat floatG (.matrix rows) (.str "m".toList) .none (.str "x y".toList)
      = ("{main_label} =\n       x       y\n0.00012345       1\n       2       3\n".toList, none) :=
  ⟨[[.fin (12345 / 100000000), .fin 1], [.fin 2, .fin 3]], by decide +kernel⟩

/-- a table that meets the hypotheses, and its output -/
example : ('a' :: " bb".toList).count ' ' + 1 = [[Fl.fin (1 / 10), .nan], [.fin (-99999), (.fin 2 : Fl ratFmt)]].length ∧
    Moderate (Fl.fin (1 / 10) : Fl ratFmt) ∧ Moderate (Fl.fin (-99999) : Fl ratFmt) ∧
    printmat floatG (.matrix [[Fl.fin (1 / 10), .nan], [.fin (-99999), (.fin 2 : Fl ratFmt)]]) (.str "M".toList) (.str "a bb".toList) (.str "x speed".toList)
      = ("{main_label} =\n               x   speed\na            0.1     nan\nbb        -99999       2\n".toList, none) := by
  refine ⟨by decide, .inr ?_, .inr ?_, by decide +kernel⟩ <;> norm_num [abs_of_pos, abs_of_neg]

/-- the texts of some floats -/
example : [(12345678 : ℚ) / 1000, 12345 / 1000000000, 123456, 3 / 2, 199999 / 2, 1 / 3, 100, 2, 1 / 10 ^ 100, 9999951 / 10000000, 100005 / 10, 100015 / 10].map
    (fun x => String.ofList (floatG 5 (.fin x : Fl ratFmt)))
      = ["12346", "1.2345e-05", "1.2346e+05", "1.5", "1e+05", "0.33333", "100", "2", "1e-100", "1", "10000", "10002"] := by decide +kernel

end SAD
