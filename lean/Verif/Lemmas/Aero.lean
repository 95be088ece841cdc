import Verif.Model.Aero
import Verif.Spec.Aero
import Verif.Spec.Base
import Verif.Lemmas.Flt
import Mathlib.Tactic.Ring
import Mathlib.Tactic.FieldSimp
import Mathlib.Tactic.Linarith
import Mathlib.Tactic.NormNum
import Mathlib.Data.Rat.Cast.CharZero

set_option linter.unusedSectionVars false

/-!
# Lemmas about the aerodynamic tables
-/

namespace SAD.Aero
open SAD

variable {K : Type} {R : Fmt K} [Field K] [LinearOrder K] [FloorRing K] [IsStrictOrderedRing K]

/-! ## `fix` and `sign` -/

theorem lit11 : (1.1 : Fl R) = Fl.round (11 / 10) := by
  change Fl.round (if true then ((11 : ℕ) : K) / (10 : K) ^ 1 else _) = _
  norm_num

theorem fix_fin (a : K) : fix (Fl.fin a : Fl R) = .ok (if 0 < a then ⌊a⌋ else ⌈a⌉) := rfl

theorem sign_mem (x : Fl R) : sign x = -1 ∨ sign x = 0 ∨ sign x = 1 := by
  unfold sign; split_ifs <;> simp

theorem sign_fin (x : K) : sign (Fl.fin x : Fl R) = if x < 0 then -1 else if x = 0 then 0 else 1 := by
  unfold sign
  simp [Fl.eqb]

theorem infSign_neg (s : K) : (Fl.infSign (-s) : Fl R) = -Fl.infSign s := by
  unfold Fl.infSign
  rcases lt_trichotomy s 0 with h | h | h
  · rw [if_neg (by linarith), if_pos (by linarith), if_neg (by linarith), if_neg (by linarith)]; rfl
  · subst h; simp only [neg_zero, if_true]; rfl
  · rw [if_neg (by linarith), if_neg (by linarith), if_neg (by linarith), if_pos (by linarith)]; rfl

theorem mul_neg_fin (hsym : ∀ x : K, (Fl.round (-x) : Fl R) = -Fl.round x) (v : Fl R) (s : K) :
    v * Fl.fin (-s) = -(v * Fl.fin s) := by
  cases v with
  | fin a =>
    change Fl.round (a * -s) = -(Fl.round (a * s) : Fl R)
    rw [← hsym]; congr 1; ring
  | nan => rfl
  | pinf => exact infSign_neg s
  | ninf =>
    change Fl.neg (Fl.infSign (-s)) = -(Fl.neg (Fl.infSign s) : Fl R)
    rw [infSign_neg]; rfl

theorem fix_step (h : Spec.ElevenTenths R) {j : ℤ} (hj : j = -1 ∨ j = 0 ∨ j = 1) :
    fix ((1.1 : Fl R) * flInt j) = .ok j := by
  obtain ⟨c, h1, h2, h3, h4, h5, h6⟩ := h
  have e : (1.1 : Fl R) = .fin c := by rw [lit11, Fl.round, h1]; rfl
  rw [e]
  have m : ∀ j : ℤ, (Fl.fin c * flInt j : Fl R) = Fl.ofExt (R.rnd (c * j)) := fun j => rfl
  rw [m]
  rcases hj with rfl | rfl | rfl
  · have : c * ((-1 : ℤ) : K) = -c := by push_cast; ring
    rw [this, h5]
    have hc : ⌈-c⌉ = -1 := by rw [Int.ceil_eq_iff]; push_cast; constructor <;> linarith
    simp only [Fl.ofExt, fix]
    rw [if_neg (by linarith), hc]
  · have : c * ((0 : ℤ) : K) = 0 := by push_cast; ring
    rw [this, h6]
    simp [Fl.ofExt, fix]
  · have : c * ((1 : ℤ) : K) = c := by push_cast; ring
    rw [this, h4]
    have hc : ⌊c⌋ = 1 := by rw [Int.floor_eq_iff]; push_cast; constructor <;> linarith
    simp only [Fl.ofExt, fix]
    rw [if_pos (by linarith), hc]

theorem elevenTenths_exact [Exact R] : Spec.ElevenTenths R :=
  ⟨11 / 10, Exact.rnd_eq _, by norm_num, by norm_num, Exact.rnd_eq _, Exact.rnd_eq _, Exact.rnd_eq _⟩

/-! ## Cells are in range -/

/-- both indices of a cell lie in `[0, n)` -/
def Cell.InRange (c : Cell R) (n : ℕ) : Prop := (0 ≤ c.lo ∧ c.lo < n) ∧ (0 ≤ c.hi ∧ c.hi < n)

theorem cellOf_ok (h : Spec.ElevenTenths R) (first last off : ℤ) (s : K) :
    ∃ c, cellOf first last off (Fl.fin s : Fl R) = .ok c := by
  unfold cellOf
  simp only [fix_fin, bind, Except.bind, fix_step h (sign_mem _)]
  exact ⟨_, rfl⟩

theorem fix_ok_iff {s : Fl R} {k : ℤ} (h : fix s = .ok k) : ∃ a, s = .fin a := by
  cases s <;> simp [fix] at h ⊢

theorem cellOf_range (h : Spec.ElevenTenths R) {first last : ℤ} {n : ℕ} (hn : last - first + 1 = n)
    (hw : first + 1 ≤ last - 1) {s : Fl R} {c : Cell R} (hc : cellOf first last (-first) s = .ok c) :
    c.InRange n := by
  unfold cellOf at hc
  simp only [bind, Except.bind] at hc
  cases hs : fix s with
  | error e => rw [hs] at hc; cases hc
  | ok k =>
    rw [hs] at hc
    simp only at hc
    generalize hk1 : (if k ≤ first then first + 1 else k) = k1 at hc
    generalize hk2 : (if last ≤ k1 then last - 1 else k1) = k2 at hc
    have hj := sign_mem (s - flInt k2)
    rw [fix_step h hj] at hc
    simp only [Except.ok.injEq] at hc
    subst hc
    have b : first + 1 ≤ k2 ∧ k2 ≤ last - 1 := by split_ifs at hk1 hk2 <;> omega
    unfold Cell.InRange
    simp only
    omega

theorem absBetaCell_range (h : Spec.ElevenTenths R) {beta : Fl R} {c : Cell R} (hc : absBetaCell beta = .ok c)
    (hpos : ∀ k, fix ((0.2 : Fl R) * beta.abs) = .ok k → 0 ≤ k) : c.InRange 7 := by
  unfold absBetaCell at hc
  simp only [bind, Except.bind] at hc
  cases hs : fix ((0.2 : Fl R) * beta.abs) with
  | error e => rw [hs] at hc; cases hc
  | ok k =>
    rw [hs] at hc
    have hk := hpos k hs
    simp only at hc
    generalize hk1 : (if k = 0 then 1 else k) = k1 at hc
    generalize hk2 : (if 6 ≤ k1 then 5 else k1) = k2 at hc
    have hj := sign_mem ((0.2 : Fl R) * beta.abs - flInt k2)
    rw [fix_step h hj] at hc
    simp only [Except.ok.injEq] at hc
    subst hc
    have b : 1 ≤ k2 ∧ k2 ≤ 5 := by split_ifs at hk1 hk2 <;> omega
    unfold Cell.InRange
    simp only
    omega

theorem absBetaCell_ok (h : Spec.ElevenTenths R) {beta : Fl R} {s : K} (hs : (0.2 : Fl R) * beta.abs = .fin s) :
    ∃ c, absBetaCell beta = .ok c := by
  unfold absBetaCell
  simp only [hs, fix_fin, bind, Except.bind, fix_step h (sign_mem _)]
  exact ⟨_, rfl⟩

theorem fix_nonneg {s : K} (h : 0 ≤ s) {k : ℤ} (hk : fix (Fl.fin s : Fl R) = .ok k) : 0 ≤ k := by
  simp only [fix, Except.ok.injEq] at hk
  subst hk
  split_ifs
  · exact Int.floor_nonneg.2 h
  · exact Int.ceil_nonneg h

/-! ## Reads -/

theorem pyGet_range {α : Type} {xs : List α} {i : ℤ} (h : 0 ≤ i ∧ i < xs.length) (d : α) :
    pyGet xs i = .ok (xs.getD i.toNat d) := by
  unfold pyGet
  rw [if_pos h.1]
  have hl : i.toNat < xs.length := by omega
  simp [getIdx, List.getD, List.getElem?_eq_getElem hl]

/-- all rows of a table have `n` entries -/
def Rect (a : List (List ℚ)) (m n : ℕ) : Prop := a.length = m ∧ ∀ row ∈ a, row.length = n

instance (a : List (List ℚ)) (m n : ℕ) : Decidable (Rect a m n) :=
  inferInstanceAs (Decidable (a.length = m ∧ ∀ row ∈ a, row.length = n))

theorem cxTable_rect : Rect cxTable 5 12 := by decide +kernel
theorem cmTable_rect : Rect cmTable 5 12 := by decide +kernel
theorem clTable_rect : Rect clTable 7 12 := by decide +kernel
theorem cnTable_rect : Rect cnTable 7 12 := by decide +kernel
theorem dldaTable_rect : Rect dldaTable 7 12 := by decide +kernel
theorem dldrTable_rect : Rect dldrTable 7 12 := by decide +kernel
theorem dndaTable_rect : Rect dndaTable 7 12 := by decide +kernel
theorem dndrTable_rect : Rect dndrTable 7 12 := by decide +kernel
theorem damppTable_rect : Rect damppTable 9 12 := by decide +kernel
theorem thrustIdle_rect : Rect thrustIdle 6 6 := by decide +kernel
theorem thrustMil_rect : Rect thrustMil 6 6 := by decide +kernel
theorem thrustMax_rect : Rect thrustMax 6 6 := by decide +kernel

theorem tget_range {a : List (List ℚ)} {M N : ℕ} (ha : Rect a M N) {k m : ℤ} (hk : 0 ≤ k ∧ k < N) (hm : 0 ≤ m ∧ m < M) :
    (tget a k m : Py (Fl R)) = .ok (flLit ((a.getD m.toNat []).getD k.toNat 0)) := by
  unfold tget
  have hm' : m.toNat < a.length := by rw [ha.1]; omega
  rw [pyGet_range (by rw [ha.1]; exact hm) []]
  have hmem : a.getD m.toNat [] ∈ a := by
    simp [List.getD, List.getElem?_eq_getElem hm']
  simp only [bind, Except.bind]
  rw [pyGet_range (by rw [ha.2 _ hmem]; exact hk) 0]

theorem lookup2_ok {a : List (List ℚ)} {M N : ℕ} (ha : Rect a M N) {c e : Cell R} (hc : c.InRange N) (he : e.InRange M) :
    ∃ v, lookup2 a c e = .ok v := by
  unfold lookup2
  rw [tget_range ha hc.1 he.1, tget_range ha hc.1 he.2, tget_range ha hc.2 he.1, tget_range ha hc.2 he.2]
  exact ⟨_, rfl⟩

theorem lookup1_ok {a : List ℚ} {c : Cell R} (hc : c.InRange a.length) : ∃ v, lookup1 a c = .ok v := by
  unfold lookup1
  rw [pyGet_range hc.1 0, pyGet_range hc.2 0]
  exact ⟨_, rfl⟩

theorem mapM_ok {α β : Type} (xs : List α) {f : α → Py β} (h : ∀ x ∈ xs, ∃ y, f x = .ok y) : ∃ ys, xs.mapM f = .ok ys := by
  induction xs with
  | nil => exact ⟨[], rfl⟩
  | cons x xs ih =>
    obtain ⟨y, hy⟩ := h x (by simp)
    obtain ⟨ys, hys⟩ := ih (fun z hz => h z (by simp [hz]))
    exact ⟨y :: ys, by simp [List.mapM_cons, bind, Except.bind, hy, hys, pure, Except.pure]⟩

theorem mapM_eq {α β : Type} (xs : List α) {f : α → Py β} {g : α → β} (h : ∀ x ∈ xs, f x = .ok (g x)) :
    xs.mapM f = .ok (xs.map g) := by
  induction xs with
  | nil => rfl
  | cons x xs ih =>
    rw [List.mapM_cons, h x (by simp), ih (fun z hz => h z (by simp [hz]))]
    rfl

/-! ## Sound formats -/

theorem round_pos (hS : Spec.Sound R) {x : K} (h : 0 ≤ x) {z : K} (hz : (Fl.round x : Fl R) = .fin z) : 0 ≤ z := by
  have := hS.mono 0 x h
  rw [hS.rnd_zero, hz] at this
  simpa using this

theorem round_scaled (hS : Spec.Sound R) {c a : K} (h0 : 0 ≤ c) (h1 : c ≤ 1) (ha : Spec.Representable R a) :
    ∃ z, (Fl.round (c * a) : Fl R) = .fin z := by
  have hra : (Fl.round a : Fl R) = .fin a := by rw [Fl.round, ha.1]; rfl
  rcases le_total 0 a with h | h
  · have u := hS.mono (c * a) a (by nlinarith)
    have l := hS.mono 0 (c * a) (by positivity)
    rw [hra] at u
    rw [hS.rnd_zero] at l
    cases hz : (Fl.round (c * a) : Fl R) <;> rw [hz] at u l <;> simp_all
  · have l := hS.mono a (c * a) (by nlinarith)
    have u := hS.mono (c * a) 0 (by nlinarith)
    rw [hra] at l
    rw [hS.rnd_zero] at u
    cases hz : (Fl.round (c * a) : Fl R) <;> rw [hz] at u l <;> simp_all

theorem Representable.abs {a : K} (ha : Spec.Representable R a) : Spec.Representable R |a| := by
  rcases abs_choice a with h | h <;> rw [h]
  · exact ha
  · exact ⟨ha.2, by rw [neg_neg]; exact ha.1⟩

theorem lit_round (m e : ℕ) (q : K) (h : (m : K) / 10 ^ e = q) :
    (OfScientific.ofScientific m true e : Fl R) = Fl.round q := by
  change Fl.round (if true then (m : K) / (10 : K) ^ e else _) = _
  simp [h]

theorem lit_val {m e : ℕ} {q c : K} (h : (m : K) / 10 ^ e = q) (hc : R.rnd q = .val c) :
    (OfScientific.ofScientific m true e : Fl R) = .fin c := by
  rw [lit_round m e q h, Fl.round, hc]; rfl

theorem fin_mul_round (a b : K) : (Fl.fin a * Fl.fin b : Fl R) = Fl.round (a * b) := rfl

theorem abs_fin (x : K) : (Fl.fin x : Fl R).abs = .fin |x| := by
  simp only [Fl.abs, Fl.fin.injEq]
  split_ifs with h
  · rw [abs_of_neg h]
  · rw [abs_of_nonneg (by linarith)]

theorem absBeta_pos (hS : Spec.Sound R) (hc : Spec.SmallConstants R) (beta : Fl R) (k : ℤ)
    (hk : fix ((0.2 : Fl R) * beta.abs) = .ok k) : 0 ≤ k := by
  obtain ⟨c, e, c0, c1, _⟩ := hc (1 / 5) (by simp)
  rw [lit_val (m := 2) (e := 1) (by norm_num) e] at hk
  obtain ⟨s, hs⟩ := fix_ok_iff hk
  rw [hs] at hk
  refine fix_nonneg (s := s) ?_ hk
  cases beta with
  | fin b =>
    rw [abs_fin, fin_mul_round] at hs
    exact round_pos hS (by positivity) hs
  | nan => cases hs
  | pinf =>
    have : (Fl.fin c : Fl R) * Fl.pinf = Fl.infSign c := rfl
    rw [Fl.abs, this, Fl.infSign] at hs
    split_ifs at hs
  | ninf =>
    have : (Fl.fin c : Fl R) * Fl.pinf = Fl.infSign c := rfl
    rw [Fl.abs, this, Fl.infSign] at hs
    split_ifs at hs

theorem alphaCell_ok (hS : Spec.Sound R) (h11 : Spec.ElevenTenths R) (hc : Spec.SmallConstants R) {alpha : K}
    (ha : Spec.Representable R alpha) : ∃ c, alphaCell (Fl.fin alpha : Fl R) = .ok c := by
  obtain ⟨c, e, c0, c1, _⟩ := hc (1 / 5) (by simp)
  obtain ⟨z, hz⟩ := round_scaled hS c0 c1 ha
  unfold alphaCell
  rw [lit_val (m := 2) (e := 1) (by norm_num) e, fin_mul_round, hz]
  exact cellOf_ok h11 _ _ _ _

theorem betaCell_ok (hS : Spec.Sound R) (h11 : Spec.ElevenTenths R) (hc : Spec.SmallConstants R) {beta : K}
    (ha : Spec.Representable R beta) : ∃ c, betaCell (Fl.fin beta : Fl R) = .ok c := by
  obtain ⟨c, e, c0, c1, _⟩ := hc (1 / 10) (by simp)
  obtain ⟨z, hz⟩ := round_scaled hS c0 c1 ha
  unfold betaCell
  rw [lit_val (m := 1) (e := 1) (by norm_num) e, fin_mul_round, hz]
  exact cellOf_ok h11 _ _ _ _

theorem elCell_ok (hS : Spec.Sound R) (h11 : Spec.ElevenTenths R) {el : K}
    (ha : Spec.Representable R el) : ∃ c, elCell (Fl.fin el : Fl R) = .ok c := by
  obtain ⟨z, hz⟩ := round_scaled hS (c := 1 / 12) (by norm_num) (by norm_num) ha
  unfold elCell
  have : (Fl.fin el / 12 : Fl R) = Fl.round (1 / 12 * el) := by
    change (if ((12 : ℕ) : K) = 0 then _ else Fl.round (el / ((12 : ℕ) : K))) = _
    rw [if_neg (by norm_num)]
    congr 1
    push_cast
    ring
  rw [this, hz]
  exact cellOf_ok h11 _ _ _ _

theorem absBetaCell_ok' (hS : Spec.Sound R) (h11 : Spec.ElevenTenths R) (hc : Spec.SmallConstants R) {beta : K}
    (ha : Spec.Representable R beta) : ∃ c, absBetaCell (Fl.fin beta : Fl R) = .ok c := by
  obtain ⟨c, e, c0, c1, _⟩ := hc (1 / 5) (by simp)
  obtain ⟨z, hz⟩ := round_scaled hS c0 c1 (Representable.abs ha)
  exact absBetaCell_ok h11 (s := z) (by rw [lit_val (m := 2) (e := 1) (by norm_num) e, abs_fin, fin_mul_round, hz])

theorem fix_error {s : Fl R} {e : PyErr} (h : fix s = .error e) : e ≠ .indexError := by
  cases s <;> simp [fix] at h <;> subst h <;> simp

theorem cellOf_error (h11 : Spec.ElevenTenths R) {first last off : ℤ} {s : Fl R} {e : PyErr}
    (h : cellOf first last off s = .error e) : e ≠ .indexError := by
  cases hs : fix s with
  | error e' =>
    have := fix_error hs
    unfold cellOf at h
    simp only [hs, bind, Except.bind, Except.error.injEq] at h
    rwa [← h]
  | ok k =>
    obtain ⟨a, rfl⟩ := fix_ok_iff hs
    obtain ⟨c, hc⟩ := cellOf_ok h11 first last off a
    rw [hc] at h
    cases h

theorem absBetaCell_error (h11 : Spec.ElevenTenths R) {beta : Fl R} {e : PyErr} (h : absBetaCell beta = .error e) :
    e ≠ .indexError := by
  cases hs : fix ((0.2 : Fl R) * beta.abs) with
  | error e' =>
    have := fix_error hs
    unfold absBetaCell at h
    simp only [hs, bind, Except.bind, Except.error.injEq] at h
    rwa [← h]
  | ok k =>
    obtain ⟨a, ha⟩ := fix_ok_iff hs
    obtain ⟨c, hc⟩ := absBetaCell_ok h11 ha
    rw [hc] at h
    cases h

/-- a two-way look-up whose cells are in range can only fail in computing the cells -/
theorem two_noIndex {a : List (List ℚ)} {M N : ℕ} (ha : Rect a M N) {x y : Py (Cell R)}
    (hx : ∀ e, x = .error e → e ≠ .indexError) (hy : ∀ e, y = .error e → e ≠ .indexError)
    (hx' : ∀ c, x = .ok c → c.InRange N) (hy' : ∀ c, y = .ok c → c.InRange M) :
    (x >>= fun ca => y >>= fun ce => lookup2 a ca ce) ≠ .error .indexError := by
  cases x with
  | error e => exact fun h => hx e rfl (by simpa [bind, Except.bind] using h)
  | ok c =>
    cases y with
    | error e => exact fun h => hy e rfl (by simpa [bind, Except.bind] using h)
    | ok d =>
      obtain ⟨v, hv⟩ := lookup2_ok ha (hx' c rfl) (hy' d rfl)
      simp [bind, Except.bind, hv]

theorem two_defined {a : List (List ℚ)} {M N : ℕ} (ha : Rect a M N) {x y : Py (Cell R)}
    (hx : ∃ c, x = .ok c) (hy : ∃ c, y = .ok c)
    (hx' : ∀ c, x = .ok c → c.InRange N) (hy' : ∀ c, y = .ok c → c.InRange M) :
    ∃ v, (x >>= fun ca => y >>= fun ce => lookup2 a ca ce) = .ok v := by
  obtain ⟨c, rfl⟩ := hx
  obtain ⟨d, rfl⟩ := hy
  obtain ⟨v, hv⟩ := lookup2_ok ha (hx' c rfl) (hy' d rfl)
  exact ⟨v, by simp [bind, Except.bind, hv]⟩

theorem blend_ok {a : List (List ℚ)} (ha : Rect a 6 6) {i m : ℤ} (hi : 0 ≤ i ∧ i ≤ 4) (hm : 0 ≤ m ∧ m ≤ 4)
    (dh cdh dm : Fl R) : ∃ v, blend a i m dh cdh dm = .ok v := by
  unfold blend
  rw [tget_range ha (by omega) (by omega), tget_range ha (by omega) (by omega), tget_range ha (by omega) (by omega),
    tget_range ha (by omega) (by omega)]
  exact ⟨_, rfl⟩

/-- the altitude the thrust tables are read at is never negative -/
theorem thrust_h_pos (hS : Spec.Sound R) (hc : Spec.SmallConstants R) (alt : Fl R) (k : ℤ)
    (hk : fix ((0.0001 : Fl R) * (if alt < 0 then (0.01 : Fl R) else alt)) = .ok k) : 0 ≤ k := by
  obtain ⟨c, e, c0, c1, _⟩ := hc (1 / 10000) (by simp)
  obtain ⟨c', e', c0', c1', _⟩ := hc (1 / 100) (by simp)
  rw [lit_val (m := 1) (e := 4) (by norm_num) e, lit_val (m := 1) (e := 2) (by norm_num) e'] at hk
  obtain ⟨s, hs⟩ := fix_ok_iff hk
  rw [hs] at hk
  refine fix_nonneg (s := s) ?_ hk
  split_ifs at hs with hlt
  · rw [fin_mul_round] at hs
    exact round_pos hS (by positivity) hs
  · cases alt with
    | fin b =>
      have hb : 0 ≤ b := by
        by_contra hb
        exact hlt (by rw [Fl.zero_fin]; simpa using hb)
      rw [fin_mul_round] at hs
      exact round_pos hS (by positivity) hs
    | nan => cases hs
    | pinf =>
      have : (Fl.fin c : Fl R) * Fl.pinf = Fl.infSign c := rfl
      rw [this, Fl.infSign] at hs
      split_ifs at hs
    | ninf => exact absurd (by rw [Fl.zero_fin]; simp) hlt

theorem thrust_form (hS : Spec.Sound R) (hc : Spec.SmallConstants R) (power alt rmach : Fl R) :
    (∃ v, thrust power alt rmach = .ok v) ∨
    (∃ e, (fix ((0.0001 : Fl R) * (if alt < 0 then (0.01 : Fl R) else alt)) = .error e ∨ fix (5 * rmach) = .error e) ∧
      thrust power alt rmach = .error e) := by
  have hpos := thrust_h_pos hS hc alt
  unfold thrust
  simp only
  generalize (0.0001 : Fl R) * (if alt < 0 then (0.01 : Fl R) else alt) = h at *
  generalize 5 * rmach = rm
  cases hi : fix h with
  | error e => exact Or.inr ⟨e, Or.inl rfl, by simp [bind, Except.bind]⟩
  | ok i =>
    have hi0 := hpos i hi
    cases hm : fix rm with
    | error e => exact Or.inr ⟨e, Or.inr rfl, by simp [bind, Except.bind]⟩
    | ok m =>
      left
      simp only [bind, Except.bind]
      generalize hii : (if 5 ≤ i then 4 else i) = i'
      generalize hmm : (if 5 ≤ m then 4 else if m ≤ 0 then 0 else m) = m'
      have bi : 0 ≤ i' ∧ i' ≤ 4 := by split_ifs at hii <;> omega
      have bm : 0 ≤ m' ∧ m' ≤ 4 := by split_ifs at hmm <;> omega
      generalize h - flInt i' = dh
      obtain ⟨v1, h1⟩ := blend_ok thrustIdle_rect bi bm dh (1 - dh) (rm - flInt m')
      obtain ⟨v2, h2⟩ := blend_ok thrustMil_rect bi bm dh (1 - dh) (rm - flInt m')
      obtain ⟨v3, h3⟩ := blend_ok thrustMax_rect bi bm dh (1 - dh) (rm - flInt m')
      rw [h1, h2, h3]
      simp only
      split_ifs <;> exact ⟨_, rfl⟩

/-! ## Values over exact formats -/

section exact
variable [Exact R]

/-- the cell brackets `s`: index `k`, neighbour on the side of the remainder, in the grid coordinates `0 … n-1` -/
structure Brackets (c : Cell R) (n : ℕ) (z : K) : Prop where
  d : c.d = .fin (z - c.lo)
  hi : (z - c.lo < 0 ∧ c.hi = c.lo - 1) ∨ (z - c.lo = 0 ∧ c.hi = c.lo) ∨ (0 < z - c.lo ∧ c.hi = c.lo + 1)
  cell : (c.lo = min ((n : ℤ) - 2) (max 0 ⌊z⌋) ∧ 0 ≤ z - c.lo) ∨ (c.lo = min ((n : ℤ) - 2) (max 0 ⌊z⌋) + 1 ∧ z - c.lo ≤ 0)

theorem cellOf_brackets {first last : ℤ} {n : ℕ} (hn : last - first + 1 = n) (h0 : first < 0) (h1 : 0 < last) {s : K}
    {c : Cell R} (hc : cellOf first last (-first) (Fl.fin s : Fl R) = .ok c) : Brackets c n (s - first) := by
  have hlow : first + 1 ≤ last - 1 := by omega
  unfold cellOf at hc
  simp only [fix_fin, bind, Except.bind] at hc
  generalize hk : (if 0 < s then ⌊s⌋ else ⌈s⌉) = k at hc
  generalize hk1 : (if k ≤ first then first + 1 else k) = k1 at hc
  generalize hk2 : (if last ≤ k1 then last - 1 else k1) = k2 at hc
  have e := fix_step (elevenTenths_exact (R := R)) (sign_mem ((Fl.fin s : Fl R) - flInt k2))
  rw [e] at hc
  simp only [Except.ok.injEq] at hc
  subst hc
  have hz : s - (first : K) - ((k2 + -first : ℤ) : K) = s - k2 := by push_cast; ring
  have hfl : ⌊s - (first : K)⌋ = ⌊s⌋ - first := by rw [Int.floor_sub_intCast]
  refine ⟨?_, ?_, ?_⟩
  · simp only [hz, flInt, Fl.fin_sub_fin]
  · simp only [hz, flInt, Fl.fin_sub_fin, sign_fin]
    rcases lt_trichotomy (s - (k2 : K)) 0 with h | h | h
    · left; exact ⟨h, by rw [if_pos h]; omega⟩
    · right; left; exact ⟨h, by rw [if_neg (by linarith), if_pos h]; omega⟩
    · right; right; exact ⟨h, by rw [if_neg (by linarith), if_neg (by linarith)]; omega⟩
  · simp only [hz, hfl]
    have f1 := Int.floor_le s
    have f2 := Int.lt_floor_add_one s
    have g1 := Int.le_ceil s
    have g2 := Int.ceil_lt_add_one s
    by_cases hs : 0 < s
    · rw [if_pos hs] at hk
      have hk0 : 0 ≤ k := by rw [← hk]; exact Int.floor_nonneg.2 hs.le
      rw [if_neg (by omega)] at hk1
      subst hk1
      left
      rw [hk]
      split_ifs at hk2 with hl
      · subst hk2
        refine ⟨by omega, ?_⟩
        have : ((last - 1 : ℤ) : K) ≤ (k : K) := by exact_mod_cast (by omega : last - 1 ≤ k)
        rw [hk] at f1
        push_cast at this ⊢
        linarith
      · subst hk2
        refine ⟨by omega, ?_⟩
        rw [hk] at f1
        linarith
    · rw [if_neg hs] at hk
      push Not at hs
      have hk0 : k ≤ 0 := by rw [← hk]; exact Int.ceil_le.2 (by simpa using hs)
      have hfk : ⌊s⌋ = k ∨ ⌊s⌋ = k - 1 := by
        have a1 : ((⌊s⌋ : ℤ) : K) ≤ (k : K) := by rw [← hk]; linarith
        have a2 : ((k - 1 : ℤ) : K) < ((⌊s⌋ + 1 : ℤ) : K) := by push_cast; rw [← hk]; linarith
        have a1' : ⌊s⌋ ≤ k := by exact_mod_cast a1
        have a2' : k - 1 < ⌊s⌋ + 1 := by exact_mod_cast a2
        omega
      rw [hk] at g1
      split_ifs at hk1 with hf
      · subst hk1
        rw [if_neg (by omega)] at hk2
        subst hk2
        right
        refine ⟨by omega, ?_⟩
        have : (k : K) ≤ ((first + 1 : ℤ) : K) := by exact_mod_cast (by omega : k ≤ first + 1)
        push_cast at this ⊢
        linarith
      · subst hk1
        rw [if_neg (by omega)] at hk2
        subst hk2
        rcases hfk with h | h
        · left
          have : s = k := by
            have : (k : K) ≤ s := by rw [← h]; exact f1
            linarith
          exact ⟨by omega, by rw [this]; simp⟩
        · right
          exact ⟨by omega, by linarith⟩

theorem lit_fin (m : ℕ) (e : ℕ) (q : K) (h : (m : K) / 10 ^ e = q) :
    (OfScientific.ofScientific m true e : Fl R) = .fin q := by
  rw [Fl.ofScientific_exact]; simp [h]

theorem absBetaCell_brackets {beta : K} {c : Cell R} (hc : absBetaCell (Fl.fin beta : Fl R) = .ok c) :
    Brackets c 7 (|beta| / 5) := by
  have hs : (0.2 : Fl R) * (Fl.fin beta : Fl R).abs = .fin (|beta| / 5) := by
    rw [lit_fin 2 1 (1 / 5) (by norm_num), abs_fin, Fl.fin_mul_fin]; congr 1; ring
  unfold absBetaCell at hc
  simp only [hs] at hc
  have hs0 : 0 ≤ |beta| / 5 := by positivity
  generalize |beta| / 5 = s at *
  simp only [fix_fin, bind, Except.bind] at hc
  generalize hk : (if 0 < s then ⌊s⌋ else ⌈s⌉) = k at hc
  generalize hk1 : (if k = 0 then 1 else k) = k1 at hc
  generalize hk2 : (if 6 ≤ k1 then 5 else k1) = k2 at hc
  have e := fix_step (elevenTenths_exact (R := R)) (sign_mem ((Fl.fin s : Fl R) - flInt k2))
  rw [e] at hc
  simp only [Except.ok.injEq] at hc
  subst hc
  have hkf : k = ⌊s⌋ := by
    rw [← hk]
    split_ifs with h
    · rfl
    · have : s = 0 := le_antisymm (not_lt.1 h) hs0
      simp [this]
  have f1 := Int.floor_le s
  have f2 := Int.lt_floor_add_one s
  have hk0 : 0 ≤ k := by rw [hkf]; exact Int.floor_nonneg.2 hs0
  refine ⟨?_, ?_, ?_⟩
  · simp only [flInt, Fl.fin_sub_fin]
  · simp only [flInt, Fl.fin_sub_fin, sign_fin]
    rcases lt_trichotomy (s - (k2 : K)) 0 with h | h | h
    · left; exact ⟨h, by rw [if_pos h]; omega⟩
    · right; left; exact ⟨h, by rw [if_neg (by linarith), if_pos h]; omega⟩
    · right; right; exact ⟨h, by rw [if_neg (by linarith), if_neg (by linarith)]⟩
  · simp only
    rw [← hkf] at f1 f2 ⊢
    split_ifs at hk1 with h0
    · subst hk1
      rw [if_neg (by omega)] at hk2
      subst hk2
      right
      refine ⟨by omega, ?_⟩
      rw [h0] at f2
      push_cast at f2 ⊢
      linarith
    · subst hk1
      left
      split_ifs at hk2 with h6
      · subst hk2
        refine ⟨by omega, ?_⟩
        have : ((5 : ℤ) : K) ≤ (k : K) := by exact_mod_cast (by omega : (5 : ℤ) ≤ k)
        linarith
      · subst hk2
        exact ⟨by omega, by linarith⟩

/-- The look-up formula of the source is the textbook interpolation. -/
theorem blend_eq_interp {v : List K} {c : Cell R} {start step x : K} (hstep : step ≠ 0) (hv : 2 ≤ v.length)
    (hb : Brackets c v.length ((x - start) / step)) :
    v.getD c.lo.toNat 0 + |(x - start) / step - c.lo| * (v.getD c.hi.toNat 0 - v.getD c.lo.toNat 0)
      = Spec.interp start step v x := by
  unfold Spec.interp Spec.gridCell
  have hx : ∀ j : K, (x - (start + step * j)) / step = (x - start) / step - j := fun j => by field_simp; ring
  simp only [hx]
  generalize (x - start) / step = z at *
  have hj : ((min (v.length - 2) ⌊z⌋.toNat : ℕ) : ℤ) = min ((v.length : ℤ) - 2) (max 0 ⌊z⌋) := by omega
  generalize min (v.length - 2) ⌊z⌋.toNat = j at *
  obtain ⟨_, hhi, hcell⟩ := hb
  rw [← hj] at hcell
  rcases hcell with ⟨hlo, hd⟩ | ⟨hlo, hd⟩
  · rw [abs_of_nonneg hd]
    rcases hhi with ⟨h, h'⟩ | ⟨h, h'⟩ | ⟨h, h'⟩
    · linarith
    · rw [h]
      have e1 : c.lo.toNat = j := by omega
      rw [hlo] at h
      push_cast at h
      rw [e1, h]; ring
    · have e1 : c.lo.toNat = j := by omega
      have e2 : c.hi.toNat = j + 1 := by omega
      rw [e1, e2, hlo]
      push_cast
      ring
  · rw [abs_of_nonpos hd]
    rcases hhi with ⟨h, h'⟩ | ⟨h, h'⟩ | ⟨h, h'⟩
    · have e1 : c.lo.toNat = j + 1 := by omega
      have e2 : c.hi.toNat = j := by omega
      rw [e1, e2, hlo]
      push_cast
      ring
    · rw [h]
      have e1 : c.lo.toNat = j + 1 := by omega
      rw [hlo] at h
      push_cast at h
      have : z - (j : K) = 1 := by linarith
      rw [e1, this]; ring
    · linarith

theorem flLit_fin (q : ℚ) : (flLit q : Fl R) = .fin (q : K) := by simp [flLit]

theorem getD_cast (a : List ℚ) (i : ℕ) : ((a.getD i 0 : ℚ) : K) = (a.map (fun q : ℚ => (q : K))).getD i 0 := by
  simp only [List.getD, List.getElem?_map]
  cases a[i]? <;> simp

theorem lookup1_value {a : List ℚ} {c : Cell R} {start step x : K} (hstep : step ≠ 0) (ha : 2 ≤ a.length)
    (hr : c.InRange a.length) (hb : Brackets c a.length ((x - start) / step)) :
    lookup1 a c = .ok (.fin (Spec.interp start step (a.map (fun q : ℚ => (q : K))) x)) := by
  unfold lookup1
  rw [pyGet_range hr.1 0, pyGet_range hr.2 0]
  simp only [bind, Except.bind, flLit_fin, getD_cast, hb.d, abs_fin, Fl.fin_sub_fin, Fl.fin_mul_fin, Fl.fin_add_fin]
  rw [blend_eq_interp hstep (by simpa using ha) (by simpa using hb)]

theorem lookup2_value {a : List (List ℚ)} {M N : ℕ} (ha : Rect a M N) (hM : 2 ≤ M) (hN : 2 ≤ N) {c e : Cell R}
    (hc : c.InRange N) (he : e.InRange M) {xs xstep ys ystep x y : K} (hx : xstep ≠ 0) (hy : ystep ≠ 0)
    (bc : Brackets c N ((x - xs) / xstep)) (be : Brackets e M ((y - ys) / ystep)) :
    lookup2 a c e = .ok (.fin (Spec.interp2 xs xstep ys ystep a x y)) := by
  unfold lookup2 Spec.interp2
  rw [tget_range ha hc.1 he.1, tget_range ha hc.1 he.2, tget_range ha hc.2 he.1, tget_range ha hc.2 he.2]
  have row : ∀ i : ℤ, 0 ≤ i ∧ i < M → ((a.getD i.toNat []).map (fun q : ℚ => (q : K))).length = N := by
    intro i hi
    have hm' : i.toNat < a.length := by rw [ha.1]; omega
    have hmem : a.getD i.toNat [] ∈ a := by simp [List.getD, List.getElem?_eq_getElem hm']
    rw [List.length_map, ha.2 _ hmem]
  have val : ∀ i : ℤ, 0 ≤ i ∧ i < M →
      (a.map (fun row => Spec.interp xs xstep (row.map (fun q : ℚ => (q : K))) x)).getD i.toNat 0
        = Spec.interp xs xstep ((a.getD i.toNat []).map (fun q : ℚ => (q : K))) x := by
    intro i hi
    have hm' : i.toNat < a.length := by rw [ha.1]; omega
    simp [List.getD, List.getElem?_eq_getElem hm']
  simp only [bind, Except.bind, flLit_fin, getD_cast, bc.d, be.d, abs_fin, Fl.fin_sub_fin, Fl.fin_mul_fin, Fl.fin_add_fin]
  rw [blend_eq_interp hx (by rw [row _ he.1]; exact hN) (by rw [row _ he.1]; exact bc),
    blend_eq_interp hx (by rw [row _ he.2]; exact hN) (by rw [row _ he.2]; exact bc), ← val _ he.1, ← val _ he.2,
    ← blend_eq_interp hy (by rw [List.length_map, ha.1]; exact hM) (by rw [List.length_map, ha.1]; exact be)]
  simp only [Except.ok.injEq, Fl.fin.injEq]
  ring

theorem mul_lit (m e : ℕ) (q x : K) (h : (m : K) / 10 ^ e = q) :
    (OfScientific.ofScientific m true e : Fl R) * Fl.fin x = .fin (q * x) := by
  rw [lit_fin m e q h, Fl.fin_mul_fin]

end exact

end SAD.Aero
