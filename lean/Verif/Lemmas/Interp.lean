import Verif.Spec.Aero
import Mathlib.Tactic.Ring
import Mathlib.Tactic.FieldSimp
import Mathlib.Tactic.Linarith
import Mathlib.Tactic.NormNum

set_option linter.unusedSectionVars false

/-!
# Facts about textbook interpolation
-/

namespace SAD.Spec

variable {K : Type} [Field K] [LinearOrder K] [FloorRing K] [IsStrictOrderedRing K]

theorem interp_eq {start step : K} (hs : 0 < step) {v : List K} {j : ℕ} (hj : j + 2 ≤ v.length) {x : K}
    (h1 : j = 0 ∨ start + step * j ≤ x) (h2 : j + 2 = v.length ∨ x ≤ start + step * (j + 1)) :
    interp start step v x = v.getD j 0 + (x - (start + step * j)) / step * (v.getD (j + 1) 0 - v.getD j 0) := by
  have hz : ∀ i : K, (x - (start + step * i)) / step = (x - start) / step - i := fun i => by field_simp; ring
  unfold interp gridCell
  simp only [hz]
  have g1 : j = 0 ∨ (j : K) ≤ (x - start) / step := h1.imp id (fun h => by rw [le_div_iff₀ hs]; linarith)
  have g2 : j + 2 = v.length ∨ (x - start) / step ≤ j + 1 := h2.imp id (fun h => by rw [div_le_iff₀ hs]; linarith)
  generalize (x - start) / step = z at *
  have f1 := Int.floor_le z
  have f2 := Int.lt_floor_add_one z
  by_cases hc : min (v.length - 2) ⌊z⌋.toNat = j
  · rw [hc]
  · have k1 : j ≤ min (v.length - 2) ⌊z⌋.toNat := by
      rcases g1 with h | h
      · omega
      · have : (j : ℤ) ≤ ⌊z⌋ := Int.le_floor.2 (by exact_mod_cast h)
        omega
    have hlt : ¬ j + 2 = v.length := by
      intro h
      omega
    have hle := g2.resolve_left hlt
    have hfl : ⌊z⌋ = j + 1 := by
      have a : ⌊z⌋ ≤ (j : ℤ) + 1 := by
        have : ((⌊z⌋ : ℤ) : K) ≤ ((j + 1 : ℤ) : K) := by push_cast; linarith
        exact_mod_cast this
      omega
    have hzz : z = j + 1 := by
      rw [hfl] at f1; push_cast at f1; linarith
    have hm : min (v.length - 2) ⌊z⌋.toNat = j + 1 := by omega
    rw [hm, hzz]
    push_cast
    ring

/-- at a grid point the interpolant takes the tabulated value -/
theorem interp_grid {start step : K} (hs : 0 < step) {v : List K} (hv : 2 ≤ v.length) {j : ℕ} (hj : j < v.length) :
    interp start step v (start + step * j) = v.getD j 0 := by
  have hs' : step ≠ 0 := ne_of_gt hs
  by_cases h : j + 2 ≤ v.length
  · rw [interp_eq hs h (Or.inr le_rfl) (Or.inr (by nlinarith))]
    simp
  · obtain ⟨i, rfl⟩ : ∃ i, j = i + 1 := ⟨j - 1, by omega⟩
    rw [interp_eq hs (j := i) (by omega) (Or.inr (by push_cast; nlinarith)) (Or.inl (by omega))]
    push_cast
    field_simp
    ring

/-- inside a cell the interpolant stays within any bounds of the two tabulated values -/
theorem interp_between {start step : K} (hs : 0 < step) {v : List K} {j : ℕ} (hj : j + 2 ≤ v.length) {x : K}
    (h1 : start + step * j ≤ x) (h2 : x ≤ start + step * (j + 1)) {lo hi : K}
    (ha : lo ≤ v.getD j 0 ∧ v.getD j 0 ≤ hi) (hb : lo ≤ v.getD (j + 1) 0 ∧ v.getD (j + 1) 0 ≤ hi) :
    lo ≤ interp start step v x ∧ interp start step v x ≤ hi := by
  rw [interp_eq hs hj (Or.inr h1) (Or.inr h2)]
  have t0 : 0 ≤ (x - (start + step * j)) / step := div_nonneg (by linarith) hs.le
  have t1 : (x - (start + step * j)) / step ≤ 1 := by rw [div_le_one hs]; linarith
  generalize (x - (start + step * j)) / step = t at *
  constructor <;> nlinarith

/-- beyond the grid the interpolant continues the end cells linearly -/
theorem interp_below {start step : K} (hs : 0 < step) {v : List K} (hv : 2 ≤ v.length) {x : K} (h : x ≤ start) :
    interp start step v x = v.getD 0 0 + (x - start) / step * (v.getD 1 0 - v.getD 0 0) := by
  rw [interp_eq hs (j := 0) (by omega) (Or.inl rfl) (Or.inr (by push_cast; linarith))]
  simp

theorem interp_above {start step : K} (hs : 0 < step) {v : List K} {n : ℕ} (hv : v.length = n + 2) {x : K}
    (h : start + step * (n + 1) ≤ x) :
    interp start step v x = v.getD (n + 1) 0 + (x - (start + step * (n + 1))) / step * (v.getD (n + 1) 0 - v.getD n 0) := by
  rw [interp_eq hs (j := n) (by omega) (Or.inr (by linarith)) (Or.inl hv.symm)]
  field_simp
  ring

/-! ## Tables -/

theorem getD_map_cast (a : List ℚ) (i : ℕ) : (a.map (fun q : ℚ => (q : K))).getD i 0 = ((a.getD i 0 : ℚ) : K) := by
  simp only [List.getD, List.getElem?_map]
  cases a[i]? <;> simp

theorem getD_map_lt {α : Type} (f : α → K) (a : List α) (d : α) {j : ℕ} (hj : j < a.length) :
    (a.map f).getD j 0 = f (a.getD j d) := by
  simp [List.getD, List.getElem?_eq_getElem hj]

theorem row_length {a : List (List ℚ)} {n : ℕ} (ha : ∀ row ∈ a, row.length = n) {j : ℕ} (hj : j < a.length) :
    (a.getD j []).length = n := by
  apply ha
  simp [List.getD, List.getElem?_eq_getElem hj]

theorem interp2_grid {a : List (List ℚ)} {n : ℕ} (ha : ∀ row ∈ a, row.length = n) (hn : 2 ≤ n) (hm : 2 ≤ a.length)
    {xs xstep ys ystep : K} (hx : 0 < xstep) (hy : 0 < ystep) {i j : ℕ} (hi : i < n) (hj : j < a.length) :
    interp2 xs xstep ys ystep a (xs + xstep * i) (ys + ystep * j) = (entry a j i : K) := by
  unfold interp2
  rw [interp_grid hy (by simpa using hm) (by simpa using hj), getD_map_lt _ _ [] hj,
    interp_grid hx (by rw [List.length_map, row_length ha hj]; exact hn)
      (by rw [List.length_map, row_length ha hj]; exact hi), getD_map_cast]
  rfl

theorem interp2_between {a : List (List ℚ)} {n : ℕ} (ha : ∀ row ∈ a, row.length = n)
    {xs xstep ys ystep : K} (hx : 0 < xstep) (hy : 0 < ystep) {i j : ℕ} (hi : i + 2 ≤ n) (hj : j + 2 ≤ a.length)
    {x y : K} (h1 : xs + xstep * i ≤ x) (h2 : x ≤ xs + xstep * (i + 1)) (h3 : ys + ystep * j ≤ y)
    (h4 : y ≤ ys + ystep * (j + 1)) {lo hi' : K}
    (hb : ∀ j' i', (j' = j ∨ j' = j + 1) → (i' = i ∨ i' = i + 1) → lo ≤ (entry a j' i' : K) ∧ (entry a j' i' : K) ≤ hi') :
    lo ≤ interp2 xs xstep ys ystep a x y ∧ interp2 xs xstep ys ystep a x y ≤ hi' := by
  unfold interp2
  have row : ∀ j', (j' = j ∨ j' = j + 1) →
      lo ≤ (a.map fun row => interp xs xstep (row.map (fun q : ℚ => (q : K))) x).getD j' 0 ∧
      (a.map fun row => interp xs xstep (row.map (fun q : ℚ => (q : K))) x).getD j' 0 ≤ hi' := by
    intro j' hj'
    have hlt : j' < a.length := by omega
    rw [getD_map_lt _ _ [] hlt]
    apply interp_between hx (by rw [List.length_map, row_length ha hlt]; exact hi) h1 h2
    · rw [getD_map_cast]; exact hb j' i hj' (Or.inl rfl)
    · rw [getD_map_cast]; exact hb j' (i + 1) hj' (Or.inr rfl)
  exact interp_between hy (by simpa using hj) h3 h4 (row j (Or.inl rfl)) (row (j + 1) (Or.inr rfl))

/-- The interpolant is affine along the rows within each cell and outside the grid (from the end cells). -/
theorem interp2_affine {a : List (List ℚ)} {n : ℕ} (ha : ∀ row ∈ a, row.length = n) (hm : 2 ≤ a.length)
    {xs xstep ys ystep : K} (hx : 0 < xstep) {i : ℕ} (hi : i + 2 ≤ n) {x y : K}
    (h1 : i = 0 ∨ xs + xstep * i ≤ x) (h2 : i + 2 = n ∨ x ≤ xs + xstep * (i + 1)) :
    interp2 xs xstep ys ystep a x y =
      interp2 xs xstep ys ystep a (xs + xstep * i) y + (x - (xs + xstep * i)) / xstep *
        (interp2 xs xstep ys ystep a (xs + xstep * (i + 1 : ℕ)) y - interp2 xs xstep ys ystep a (xs + xstep * i) y) := by
  unfold interp2
  set c := gridCell ys ystep a.length y with hc
  have hcl : c + 1 < a.length := by
    have : c ≤ a.length - 2 := by rw [hc]; unfold gridCell; omega
    omega
  have key : ∀ j' < a.length, ∀ x', (a.map fun row => interp xs xstep (row.map (fun q : ℚ => (q : K))) x').getD j' 0
      = interp xs xstep ((a.getD j' []).map (fun q : ℚ => (q : K))) x' := fun j' hj' x' => getD_map_lt _ _ [] hj'
  have aff : ∀ j' < a.length, interp xs xstep ((a.getD j' []).map (fun q : ℚ => (q : K))) x
      = interp xs xstep ((a.getD j' []).map (fun q : ℚ => (q : K))) (xs + xstep * i) + (x - (xs + xstep * i)) / xstep *
        (interp xs xstep ((a.getD j' []).map (fun q : ℚ => (q : K))) (xs + xstep * (i + 1 : ℕ))
          - interp xs xstep ((a.getD j' []).map (fun q : ℚ => (q : K))) (xs + xstep * i)) := by
    intro j' hj'
    have hl : ((a.getD j' []).map (fun q : ℚ => (q : K))).length = n := by rw [List.length_map, row_length ha hj']
    rw [interp_grid hx (by omega) (by omega), interp_grid hx (by omega) (by omega),
      interp_eq hx (by omega) h1 (by rw [hl]; exact h2)]
  have unf : ∀ x', interp ys ystep (a.map fun row => interp xs xstep (row.map (fun q : ℚ => (q : K))) x') y
      = interp xs xstep ((a.getD c []).map (fun q : ℚ => (q : K))) x' + (y - (ys + ystep * c)) / ystep *
        (interp xs xstep ((a.getD (c + 1) []).map (fun q : ℚ => (q : K))) x'
          - interp xs xstep ((a.getD c []).map (fun q : ℚ => (q : K))) x') := by
    intro x'
    rw [interp]
    simp only [List.length_map, ← hc]
    rw [key _ (by omega), key _ (by omega)]
  rw [unf, unf, unf, aff c (by omega), aff (c + 1) hcl]
  ring

end SAD.Spec
