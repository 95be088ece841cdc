import Verif.Model.Rk
import Verif.Lemmas.Base
import Mathlib.Algebra.Module.Prod
import Mathlib.Algebra.Module.Submodule.Basic
import Mathlib.Algebra.BigOperators.Group.List.Lemmas
import Mathlib.Algebra.Group.Submonoid.BigOperators
import Mathlib.Algebra.Module.LinearMap.Defs
import Mathlib.Algebra.BigOperators.Group.List.Basic
import Mathlib.Tactic.Module
import Mathlib.LinearAlgebra.Span.Basic

/-! # Runge-Kutta methods over a vector space, and their relation to the list model -/

set_option linter.unusedSectionVars false

namespace SAD

/-- coefficients over a field -/
structure KTab (K : Type) where
  stages : List (K × List K)
  b : List K

section
variable {K : Type} [Field K]
variable {V : Type} [AddCommGroup V] [Module K V]

def combo (row : List K) (ks : List V) : V := (List.zip row ks).foldl (fun acc p => acc + p.1 • p.2) 0

def rkStages (F : K → V → V) (t h : K) (y : V) : List (K × List K) → List V → List V
  | [], ks => ks
  | (c, row) :: rest, ks => rkStages F t h y rest (ks ++ [F (t + c * h) (y + h • combo row ks)])

def rkStep (tab : KTab K) (F : K → V → V) (t h : K) (y : V) : V :=
  y + h • combo tab.b (rkStages F t h y tab.stages [F t y])

def rkChain (tab : KTab K) (F : K → V → V) : K → V → List K → V
  | _, y, [] => y
  | t, y, h :: hs => rkChain tab F (t + h) (rkStep tab F t h y) hs

theorem foldl_smul_add (l : List (K × V)) (a : V) :
    l.foldl (fun acc p => acc + p.1 • p.2) a = a + (l.map (fun p => p.1 • p.2)).sum := by
  induction l generalizing a with
  | nil => simp
  | cons p l ih => simp [ih, add_assoc]

theorem combo_eq (row : List K) (ks : List V) : combo row ks = ((List.zip row ks).map (fun p => p.1 • p.2)).sum := by
  simp [combo, foldl_smul_add]

/-! ### invariants -/

theorem combo_mem (D : Submodule K V) (row : List K) (ks : List V) (h : ∀ k ∈ ks, k ∈ D) : combo row ks ∈ D := by
  rw [combo_eq]
  apply list_sum_mem
  intro x hx
  obtain ⟨p, hp, rfl⟩ := List.mem_map.1 hx
  exact D.smul_mem _ (h _ (List.of_mem_zip hp).2)

theorem rkStages_mem (F : K → V → V) (t h : K) (y : V) (S : V → Prop) (D : Submodule K V)
    (hF : ∀ t z, S z → F t z ∈ D) (hS : ∀ d ∈ D, S (y + d)) (st : List (K × List K)) (ks : List V)
    (hk : ∀ k ∈ ks, k ∈ D) : ∀ k ∈ rkStages F t h y st ks, k ∈ D := by
  induction st generalizing ks with
  | nil => exact hk
  | cons p st ih =>
    obtain ⟨c, row⟩ := p
    apply ih
    intro k hk'
    rcases List.mem_append.1 hk' with h' | h'
    · exact hk k h'
    · simp at h'; subst h'
      exact hF _ _ (hS _ (D.smul_mem _ (combo_mem D row ks hk)))

/-- A set closed under adding directions from `D`, into which the vector field maps it, is invariant under any method. -/
theorem rkChain_inv (tab : KTab K) (F : K → V → V) (S : V → Prop) (D : Submodule K V)
    (hF : ∀ t z, S z → F t z ∈ D) (hS : ∀ y d, S y → d ∈ D → S (y + d)) (t : K) (y : V) (hs : List K) (hy : S y) :
    S (rkChain tab F t y hs) := by
  induction hs generalizing t y with
  | nil => exact hy
  | cons h hs ih =>
    apply ih
    apply hS _ _ hy
    apply D.smul_mem
    apply combo_mem
    apply rkStages_mem F t h y S D hF (fun d hd => hS y d hy hd)
    intro k hk
    simp at hk; subst hk; exact hF _ _ hy

/-- The displacement of a chain lies in `D` whenever the field does along the way. -/
theorem rkChain_disp (tab : KTab K) (F : K → V → V) (S : V → Prop) (D : Submodule K V)
    (hF : ∀ t z, S z → F t z ∈ D) (hS : ∀ y d, S y → d ∈ D → S (y + d)) (t : K) (y : V) (hs : List K) (hy : S y) :
    rkChain tab F t y hs - y ∈ D := by
  have := rkChain_inv tab F (fun z => S z ∧ z - y ∈ D) D (fun t z h => hF t z h.1)
    (fun z d h hd => ⟨hS z d h.1 hd, by
      have : z + d - y = (z - y) + d := by abel
      rw [this]; exact D.add_mem h.2 hd⟩) t y hs ⟨hy, by simp⟩
  exact this.2

/-! ### linear images: product systems and linear maps -/

section map
variable {W : Type} [AddCommGroup W] [Module K W]

theorem combo_map (L : V →ₗ[K] W) (row : List K) (ks : List V) : L (combo row ks) = combo row (ks.map L) := by
  rw [combo_eq, combo_eq, map_list_sum]
  congr 1
  rw [List.map_map, List.zip_map_right, List.map_map]
  apply List.map_congr_left
  intro p _
  simp

theorem rkStages_map (L : V →ₗ[K] W) (F : K → V → V) (G : K → W → W) (hFG : ∀ t y, L (F t y) = G t (L y)) (t h : K) (y : V)
    (st : List (K × List K)) (ks : List V) :
    (rkStages F t h y st ks).map L = rkStages G t h (L y) st (ks.map L) := by
  induction st generalizing ks with
  | nil => rfl
  | cons p st ih =>
    obtain ⟨c, row⟩ := p
    simp only [rkStages]
    rw [ih]
    simp [hFG, combo_map]

theorem rkStep_map (tab : KTab K) (L : V →ₗ[K] W) (F : K → V → V) (G : K → W → W) (hFG : ∀ t y, L (F t y) = G t (L y))
    (t h : K) (y : V) : L (rkStep tab F t h y) = rkStep tab G t h (L y) := by
  simp only [rkStep, map_add, map_smul, combo_map, rkStages_map L F G hFG]
  simp [hFG]

/-- If `L` intertwines two vector fields, it maps solutions of the method to solutions. -/
theorem rkChain_map (tab : KTab K) (L : V →ₗ[K] W) (F : K → V → V) (G : K → W → W) (hFG : ∀ t y, L (F t y) = G t (L y))
    (t : K) (y : V) (hs : List K) : L (rkChain tab F t y hs) = rkChain tab G t (L y) hs := by
  induction hs generalizing t y with
  | nil => rfl
  | cons h hs ih => simp only [rkChain]; rw [ih, rkStep_map tab L F G hFG]

end map

/-! ### constant and linear rates -/

/-- rows of `A` have the right length and sum to `c` -/
def RowsOk : Nat → List (K × List K) → Prop
  | _, [] => True
  | n, (c, row) :: rest => row.length = n ∧ row.sum = c ∧ RowsOk (n + 1) rest

/-- consistency (order 2) conditions of a method -/
structure KTab.Consistent (tab : KTab K) : Prop where
  rows : RowsOk 1 tab.stages
  blen : tab.b.length = tab.stages.length + 1
  b1 : tab.b.sum = 1
  b2 : (List.zipWith (· * ·) tab.b (0 :: tab.stages.map Prod.fst)).sum = 1 / 2

theorem combo_const (r : K) (row : List K) (ks : List V) (L : V →ₗ[K] K) (hk : ∀ k ∈ ks, L k = r)
    (hl : row.length = ks.length) : L (combo row ks) = row.sum * r := by
  rw [combo_map]
  revert ks
  induction row with
  | nil => intro ks _ _; simp [combo]
  | cons a row ih =>
    intro ks hk hl
    cases ks with
    | nil => simp at hl
    | cons k ks =>
      have := ih ks (fun k hk' => hk k (by simp [hk'])) (by simpa using hl)
      rw [combo_eq] at this ⊢
      simp only [List.map_cons, List.zip_cons_cons, List.sum_cons, this, hk k (by simp)]
      rw [smul_eq_mul]; ring

theorem rkStages_length (F : K → V → V) (t h : K) (y : V) (st : List (K × List K)) (ks : List V) :
    (rkStages F t h y st ks).length = ks.length + st.length := by
  induction st generalizing ks with
  | nil => simp [rkStages]
  | cons p st ih => obtain ⟨c, row⟩ := p; simp only [rkStages]; rw [ih]; simp; omega

/-- A linear functional with a constant rate grows linearly, under any method with `sum b = 1`. -/
theorem rkChain_const_rate (tab : KTab K) (hb : tab.b.sum = 1) (hl : tab.b.length = tab.stages.length + 1)
    (F : K → V → V) (L : V →ₗ[K] K) (r : K) (hF : ∀ t y, L (F t y) = r) (t : K) (y : V) (hs : List K) :
    L (rkChain tab F t y hs) = L y + r * hs.sum := by
  induction hs generalizing t y with
  | nil => simp [rkChain]
  | cons h hs ih =>
    simp only [rkChain]
    rw [ih]
    have hk : ∀ (st : List (K × List K)) (ks : List V), (∀ k ∈ ks, L k = r) → ∀ k ∈ rkStages F t h y st ks, L k = r := by
      intro st
      induction st with
      | nil => intro ks h; exact h
      | cons p st ih =>
        intro ks hk
        obtain ⟨c, row⟩ := p
        apply ih
        intro k hk'
        rcases List.mem_append.1 hk' with h' | h'
        · exact hk k h'
        · simp at h'; subst h'; exact hF _ _
    have := combo_const r tab.b (rkStages F t h y tab.stages [F t y]) L
      (hk tab.stages _ (by intro k hk; simp at hk; subst hk; exact hF _ _)) (by rw [rkStages_length, hl]; simp [add_comm])
    simp only [rkStep, map_add, map_smul, this, hb, List.sum_cons, smul_eq_mul]
    ring

theorem zip_affine_sum (b cs : List K) (hl : b.length = cs.length) (v w : K) :
    ((List.zip b (cs.map (fun c => v + c * w))).map (fun p => p.1 • p.2)).sum
      = b.sum * v + (List.zipWith (· * ·) b cs).sum * w := by
  induction b generalizing cs with
  | nil => simp
  | cons a b ih =>
    cases cs with
    | nil => simp at hl
    | cons c cs =>
      simp only [List.map_cons, List.zip_cons_cons, List.sum_cons, List.zipWith_cons_cons, smul_eq_mul]
      have := ih cs (by simpa using hl)
      simp only [smul_eq_mul] at this
      rw [this]; ring

/-- `x' = v`, `v' = a` constant: the stages of a consistent method -/
theorem rkStages_double_integrator (F : K → V → V) (X U : V →ₗ[K] K) (a : K)
    (hX : ∀ t y, X (F t y) = U y) (hU : ∀ t y, U (F t y) = a) (t h : K) (y : V) :
    ∀ (st : List (K × List K)) (ks : List V) (cs : List K), RowsOk ks.length st → ks.length = cs.length →
      ks.map X = cs.map (fun c => U y + c * (h * a)) → (∀ k ∈ ks, U k = a) →
      (rkStages F t h y st ks).map X = (cs ++ st.map Prod.fst).map (fun c => U y + c * (h * a)) ∧
      ∀ k ∈ rkStages F t h y st ks, U k = a := by
  intro st
  induction st with
  | nil => intro ks cs _ _ h1 h2; exact ⟨by simpa [rkStages] using h1, h2⟩
  | cons p st ih2 =>
    intro ks cs hr hl h1 h2
    obtain ⟨c, row⟩ := p
    obtain ⟨r1, r2, r3⟩ := hr
    simp only [rkStages]
    have := ih2 (ks ++ [F (t + c * h) (y + h • combo row ks)]) (cs ++ [c]) (by simpa using r3) (by simp [hl]) (by
      rw [List.map_append, h1, List.map_append]
      congr 1
      simp only [List.map_cons, List.map_nil, List.cons.injEq, and_true]
      rw [hX, map_add, map_smul, combo_const a row ks U h2 r1, r2, smul_eq_mul]; ring) (by
      intro k hk
      rcases List.mem_append.1 hk with h' | h'
      · exact h2 k h'
      · simp at h'; subst h'; exact hU _ _)
    refine ⟨?_, this.2⟩
    rw [this.1]
    simp

/-- `x' = v`, `v' = a` constant: any consistent method is exact. -/
theorem rkChain_double_integrator [CharZero K] (tab : KTab K) (hc : tab.Consistent) (F : K → V → V) (X U : V →ₗ[K] K) (a : K)
    (hX : ∀ t y, X (F t y) = U y) (hU : ∀ t y, U (F t y) = a) (t : K) (y : V) (hs : List K) :
    X (rkChain tab F t y hs) = X y + U y * hs.sum + a * hs.sum ^ 2 * (1 / 2) := by
  induction hs generalizing t y with
  | nil => simp [rkChain]
  | cons h hs ih =>
    simp only [rkChain]
    rw [ih]
    have hUstep : U (rkStep tab F t h y) = U y + a * h := by
      have := rkChain_const_rate tab hc.b1 hc.blen F U a hU t y [h]
      simpa [rkChain] using this
    have hst := (rkStages_double_integrator F X U a hX hU t h y tab.stages [F t y] [0] hc.rows rfl (by simp [hX])
      (by intro k hk; simp at hk; subst hk; exact hU _ _)).1
    have hXstep : X (rkStep tab F t h y) = X y + U y * h + a * h ^ 2 * (1 / 2) := by
      simp only [rkStep, map_add, map_smul, combo_map]
      rw [hst, combo_eq, zip_affine_sum _ _ (by simp [hc.blen]), hc.b1]
      have := hc.b2
      simp only [List.singleton_append] at *
      rw [this, smul_eq_mul]; ring
    rw [hUstep, hXstep]
    simp only [List.sum_cons]; ring

/-! ### changing the field where it is not evaluated -/

theorem rkStages_congrOn {V : Type} [AddCommGroup V] [Module K V] {F G : K → V → V} {S : V → Prop} {D : Submodule K V}
    (hF : ∀ t z, S z → F t z ∈ D) (hS : ∀ y d, S y → d ∈ D → S (y + d)) (hFG : ∀ t z, S z → F t z = G t z) (t h : K) (y : V) (hy : S y)
    (st : List (K × List K)) (ks : List V) (hk : ∀ k ∈ ks, k ∈ D) : rkStages F t h y st ks = rkStages G t h y st ks := by
  induction st generalizing ks with
  | nil => rfl
  | cons p st ih =>
    obtain ⟨c, row⟩ := p
    have hz : S (y + h • combo row ks) := hS _ _ hy (D.smul_mem _ (combo_mem D row ks hk))
    simp only [rkStages]
    rw [← hFG _ _ hz]
    apply ih
    intro k hk'
    rcases List.mem_append.1 hk' with hk' | hk'
    · exact hk k hk'
    · rw [List.mem_singleton] at hk'
      subst hk'
      exact hF _ _ hz

/-- Two vector fields that agree where a method evaluates them give the same chain. -/
theorem rkChain_congrOn {V : Type} [AddCommGroup V] [Module K V] (tab : KTab K) {F G : K → V → V} {S : V → Prop} {D : Submodule K V}
    (hF : ∀ t z, S z → F t z ∈ D) (hS : ∀ y d, S y → d ∈ D → S (y + d)) (hFG : ∀ t z, S z → F t z = G t z) (t : K) (y : V) (hs : List K)
    (hy : S y) : rkChain tab F t y hs = rkChain tab G t y hs := by
  induction hs generalizing t y with
  | nil => rfl
  | cons h hs ih =>
    have h1 : rkStep tab F t h y = rkStep tab G t h y := by
      simp only [rkStep]
      rw [rkStages_congrOn hF hS hFG t h y hy tab.stages [F t y] (by intro k hk; rw [List.mem_singleton] at hk; subst hk; exact hF _ _ hy),
        hFG t y hy]
    have h2 : S (rkStep tab F t h y) := by simpa [rkChain] using rkChain_inv tab F S D hF hS t y [h] hy
    simp only [rkChain]
    rw [ih _ _ h2, h1]

/-- Along a line on which the field is the constant direction `w`, every method moves uniformly. -/
theorem rkChain_line (tab : KTab K) (hb : tab.b.sum = 1) (hl : tab.b.length = tab.stages.length + 1) {F : K → V → V} {y w : V}
    (hF : ∀ t (c : K), F t (y + c • w) = w) (t : K) (hs : List K) : rkChain tab F t y hs = y + hs.sum • w := by
  have key : ∀ (hs : List K) (t a : K), rkChain tab F t (y + a • w) hs = y + (a + hs.sum) • w := by
    intro hs
    induction hs with
    | nil => intro t a; simp [rkChain]
    | cons h hs ih =>
      intro t a
      have hst : ∀ (st : List (K × List K)) (ks : List V), (∀ k ∈ ks, k = w) →
          ∀ k ∈ rkStages F t h (y + a • w) st ks, k = w := by
        intro st
        induction st with
        | nil => intro ks h; exact h
        | cons p st ih =>
          intro ks hk
          obtain ⟨c, row⟩ := p
          apply ih
          intro k hk'
          rcases List.mem_append.1 hk' with h' | h'
          · exact hk k h'
          · simp at h'
            have hm : combo row ks ∈ Submodule.span K {w} :=
              combo_mem _ _ _ (fun k hk' => by rw [hk k hk']; exact Submodule.subset_span rfl)
            obtain ⟨r, hr⟩ := Submodule.mem_span_singleton.1 hm
            rw [h', ← hr, smul_smul, add_assoc, ← add_smul]
            exact hF _ _
      have hcombo : ∀ (row : List K) (ks : List V), row.length = ks.length → (∀ k ∈ ks, k = w) → combo row ks = row.sum • w := by
        intro row
        induction row with
        | nil => intro ks _ _; simp [combo]
        | cons r row ih =>
          intro ks hlen hk
          cases ks with
          | nil => simp at hlen
          | cons k ks =>
            have := ih ks (by simpa using hlen) (fun k hk' => hk k (by simp [hk']))
            rw [combo_eq] at this ⊢
            simp only [List.zip_cons_cons, List.map_cons, List.sum_cons, this, hk k (by simp), add_smul]
      simp only [rkChain, rkStep]
      rw [hcombo _ _ (by rw [rkStages_length, hl]; simp [add_comm])
        (hst tab.stages [F t (y + a • w)] (by intro k hk; simp at hk; rw [hk, hF])), hb, one_smul, add_assoc, ← add_smul, ih]
      simp [add_assoc]
  have := key hs t 0
  rw [zero_smul, add_zero, zero_add] at this
  exact this

end
end SAD
