import Verif.Lemmas.Rk
import Verif.Lemmas.StateDot
import Verif.Spec.Finite
import Mathlib.Algebra.Module.Pi
import Mathlib.Tactic.FinCases

/-! # From lists of finite floats in an exact format to vectors over the field -/

set_option linter.unusedSectionVars false

namespace SAD
open Spec

variable {K : Type} {R : Fmt K} [Field K] [LinearOrder K] [Exact R] {n : Nat}

@[simp] theorem toFl_length (y : Fin n → K) : (toFl y : Vec R).length = n := by simp [toFl]

theorem toFl_get (y : Fin n → K) (i : Nat) (h : i < n) : (toFl y : Vec R)[i]? = some (.fin (y ⟨i, h⟩)) := by
  simp [toFl, List.getElem?_ofFn, h]

theorem toFl_inj {y z : Fin n → K} (h : (toFl y : Vec R) = toFl z) : y = z := by
  unfold toFl at h
  have := List.ofFn_injective h
  funext i
  have := congrFun this i
  simpa using this

theorem zipWith_ofFn {α β γ : Type} (f : α → β → γ) (a : Fin n → α) (b : Fin n → β) :
    List.zipWith f (List.ofFn a) (List.ofFn b) = List.ofFn (fun i => f (a i) (b i)) := by
  apply List.ext_getElem?
  intro i
  rw [List.getElem?_zipWith, List.getElem?_ofFn, List.getElem?_ofFn, List.getElem?_ofFn]
  by_cases h : i < n <;> simp [h]

theorem toFl_add (a b : Fin n → K) : List.zipWith (· + ·) (toFl a : Vec R) (toFl b) = toFl (a + b) := by
  simp [toFl, zipWith_ofFn]

theorem toFl_mul_right (a : Fin n → K) (h : K) : (toFl a : Vec R).map (· * .fin h) = toFl (h • a) := by
  simp only [toFl, List.map_ofFn]
  congr 1; funext i; simp [mul_comm]

theorem toFl_mul_left (a : Fin n → K) (h : K) : (toFl a : Vec R).map ((.fin h : Fl R) * ·) = toFl (h • a) := by
  simp only [toFl, List.map_ofFn]
  congr 1; funext i; simp

theorem replicate_zero : (List.replicate n 0 : Vec R) = toFl (0 : Fin n → K) := by
  simp [toFl, List.ofFn_const]

theorem comboFl_lift (row : List K) (ks : List (Fin n → K)) :
    comboFl n (row.map (Fl.fin (R := R))) (ks.map toFl) = toFl (combo row ks) := by
  unfold comboFl combo
  rw [replicate_zero]
  generalize (0 : Fin n → K) = acc
  induction row generalizing ks acc with
  | nil => simp
  | cons a row ih =>
    cases ks with
    | nil => simp
    | cons k ks =>
      simp only [List.map_cons, List.zip_cons_cons, List.foldl_cons]
      rw [toFl_mul_right, toFl_add, ih]

/-- `f` computes `F` on the finite vectors satisfying `S` -/
def LiftsOn (S : (Fin n → K) → Prop) (f : Rhs R) (F : K → (Fin n → K) → (Fin n → K)) : Prop :=
  ∀ t y, S y → f (.fin t) (toFl y) = .ok (toFl (F t y))

/-- `f` computes `F` on finite vectors -/
def Lifts (f : Rhs R) (F : K → (Fin n → K) → (Fin n → K)) : Prop := ∀ t y, f (.fin t) (toFl y) = .ok (toFl (F t y))

/-- `S` is stable under moving along the values that `F` takes on it -/
structure Stable (F : K → (Fin n → K) → (Fin n → K)) (S : (Fin n → K) → Prop) (D : Submodule K (Fin n → K)) : Prop where
  field : ∀ t z, S z → F t z ∈ D
  move : ∀ y d, S y → d ∈ D → S (y + d)

theorem Stable.univ (F : K → (Fin n → K) → (Fin n → K)) : Stable F (fun _ => True) ⊤ := ⟨fun _ _ _ => trivial, fun _ _ _ _ => trivial⟩

def liftStages (st : List (K × List K)) : List (Fl R × Vec R) := st.map (fun p => (.fin p.1, p.2.map .fin))

/-- a tableau with finite entries -/
def liftTab (tab : KTab K) : Tableau R := ⟨liftStages tab.stages, tab.b.map .fin⟩

theorem fitRow_toFl (y : Fin n → K) : fitRow n (toFl y : Vec R) = .ok (toFl y) := by simp [fitRow]

section
variable {f : Rhs R} {F : K → (Fin n → K) → (Fin n → K)} {S : (Fin n → K) → Prop} {D : Submodule K (Fin n → K)}

theorem rkStagesFl_liftOn (hf : LiftsOn S f F) (hst : Stable F S D) (t h : K) (y : Fin n → K) (hy : S y)
    (st : List (K × List K)) (ks : List (Fin n → K)) (hk : ∀ k ∈ ks, k ∈ D) :
    rkStagesFl f (.fin t) (.fin h) (toFl y) (liftStages st) (ks.map toFl) = .ok ((rkStages F t h y st ks).map toFl) := by
  induction st generalizing ks with
  | nil => rfl
  | cons p st ih =>
    obtain ⟨c, row⟩ := p
    have hS : S (y + h • combo row ks) := hst.move _ _ hy (D.smul_mem _ (combo_mem D row ks hk))
    simp only [liftStages, List.map_cons, rkStagesFl, rkStages, toFl_length]
    rw [comboFl_lift, toFl_mul_right, toFl_add, Fl.fin_mul_fin, Fl.fin_add_fin, hf _ _ hS]
    simp only [bind, Except.bind]
    rw [fitRow_toFl]
    simp only
    have := ih (ks ++ [F (t + c * h) (y + h • combo row ks)]) (by
      intro k hk'
      rcases List.mem_append.1 hk' with h' | h'
      · exact hk k h'
      · simp at h'; subst h'; exact hst.field _ _ hS)
    rw [List.map_append] at this
    exact this

theorem rkStepFl_liftOn (hf : LiftsOn S f F) (hst : Stable F S D) (tab : KTab K) (t h : K) (y : Fin n → K) (hy : S y) :
    rkStepFl (liftTab tab) f (.fin t) (.fin h) (toFl y) = .ok (toFl (rkStep tab F t h y)) := by
  unfold rkStepFl rkStep
  rw [hf _ _ hy]
  simp only [bind, Except.bind, toFl_length]
  rw [fitRow_toFl]
  simp only
  have := rkStagesFl_liftOn hf hst t h y hy tab.stages [F t y] (by
    intro k hk; simp at hk; subst hk; exact hst.field _ _ hy)
  simp only [List.map_cons, List.map_nil] at this
  simp only [liftTab]
  rw [this]
  simp only [pure, Except.pure]
  rw [comboFl_lift, toFl_mul_left, toFl_add]

theorem rkChainFl_liftOn (hf : LiftsOn S f F) (hst : Stable F S D) (tab : KTab K) (t : K) (y : Fin n → K) (hy : S y)
    (hs : List K) :
    rkChainFl (liftTab tab) f (.fin t) (toFl y) (hs.map .fin) = .ok (toFl (rkChain tab F t y hs)) := by
  induction hs generalizing t y with
  | nil => rfl
  | cons h hs ih =>
    have := rkChain_inv tab F S D hst.field hst.move t y [h] hy
    simp only [List.map_cons, rkChainFl, rkChain]
    rw [rkStepFl_liftOn hf hst tab t h y hy]
    simp only [bind, Except.bind, Fl.fin_add_fin]
    exact ih _ _ this

theorem Lifts.on (hf : Lifts f F) (S : (Fin n → K) → Prop) : LiftsOn S f F := fun t y _ => hf t y

theorem rkChainFl_lift (hf : Lifts f F) (tab : KTab K) (t : K) (y : Fin n → K) (hs : List K) :
    rkChainFl (liftTab tab) f (.fin t) (toFl y) (hs.map .fin) = .ok (toFl (rkChain tab F t y hs)) :=
  rkChainFl_liftOn (hf.on _) (Stable.univ F) tab t y trivial hs

end

/-- Dormand-Prince over a field -/
def kdopri : KTab K where
  stages := [
    (1/5, [1/5]),
    (3/10, [3/40, 9/40]),
    (4/5, [44/45, -56/15, 32/9]),
    (8/9, [19372/6561, -25360/2187, 64448/6561, -212/729]),
    (1, [9017/3168, -355/33, 46732/5247, 49/176, -5103/18656])]
  b := [35/384, 0, 500/1113, 125/192, -2187/6784, 11/84]

section
variable [IsStrictOrderedRing K]

theorem div_lit (a b : ℕ) (hb : b ≠ 0) : (Fl.fin (a : K) / Fl.fin (b : K) : Fl R) = .fin ((a : K) / (b : K)) :=
  Fl.fin_div_fin _ _ (by exact_mod_cast hb)

theorem dopri_lift : (dopri : Tableau R) = liftTab (kdopri : KTab K) := by
  have e : ∀ a b : ℕ, b ≠ 0 → ∀ x : K, x = (a : K) / b → (Fl.fin (a : K) / Fl.fin (b : K) : Fl R) = .fin x := by
    intro a b hb x hx; rw [div_lit a b hb, hx]
  have e' : ∀ a b : ℕ, b ≠ 0 → ∀ x : K, x = -(a : K) / b → (-(Fl.fin (a : K)) / Fl.fin (b : K) : Fl R) = .fin x := by
    intro a b hb x hx; rw [Fl.neg_fin, Fl.fin_div_fin _ _ (by exact_mod_cast hb), hx]
  unfold dopri liftTab kdopri liftStages
  simp only [List.map_cons, List.map_nil, Tableau.mk.injEq, List.cons.injEq, Prod.mk.injEq, and_true]
  refine ⟨⟨⟨?_, ?_⟩, ⟨?_, ?_, ?_⟩, ⟨?_, ?_, ?_, ?_⟩, ⟨?_, ?_, ?_, ?_, ?_⟩, ⟨?_, ?_, ?_, ?_, ?_, ?_⟩⟩,
    ⟨?_, ?_, ?_, ?_, ?_, ?_⟩⟩ <;>
  first
    | exact Fl.one_fin
    | exact Fl.zero_fin
    | exact e _ _ (by norm_num) _ (by norm_num)
    | exact e' _ _ (by norm_num) _ (by norm_num)

theorem kdopri_consistent : (kdopri : KTab K).Consistent where
  rows := by simp [kdopri, RowsOk]; norm_num
  blen := by simp [kdopri]
  b1 := by simp [kdopri]; norm_num
  b2 := by simp [kdopri]; norm_num

/-- every `RK45` answer is a chain of steps of the field-level method -/
theorem isRk_lift {env : Env R} (henv : IsRk dopri env) {f : Rhs R} {F : K → (Fin n → K) → (Fin n → K)}
    {S : (Fin n → K) → Prop} {D : Submodule K (Fin n → K)} (hf : LiftsOn S f F) (hst : Stable F S D)
    {T : K} {y0 : Fin n → K} {te : Option (Vec R)} {sol : Sol R} (hte : ∀ ts, te = some ts → ts.getLast? = some (.fin T) ∧ ∀ x ∈ ts, x.isFin = true)
    (h : env.solveIvp f (.fin T) (toFl y0) te = .ok sol) :
    S y0 → ∃ hs : List K, hs.sum = T ∧ (0 ≤ T → ∀ h ∈ hs, 0 ≤ h) ∧ (T ≤ 0 → ∀ h ∈ hs, h ≤ 0) ∧
      sol.y.getLast? = some (toFl (rkChain kdopri F 0 y0 hs)) := by
  intro hy
  obtain ⟨hs, yf, h1, h1a, h1b, h2, h3⟩ := henv f T (toFl y0) te sol hte h
  rw [dopri_lift, Fl.zero_fin, rkChainFl_liftOn hf hst _ _ _ hy] at h2
  cases h2
  exact ⟨hs, h1, h1a, h1b, h3⟩

theorem absSum_pos (ws : List K) : 0 < ((1 :: ws).map (fun w => if w < 0 then -w else w)).sum := by
  have h : ∀ ws : List K, 0 ≤ (ws.map (fun w => if w < 0 then -w else w)).sum := by
    intro ws
    induction ws with
    | nil => simp
    | cons w ws ih =>
      simp only [List.map_cons, List.sum_cons]
      split <;> linarith
  have h1 : ¬ (1 : K) < 0 := not_lt.2 zero_le_one
  simp only [List.map_cons, List.sum_cons, h1, if_false]
  have := h ws
  linarith

theorem schedule_sum (T : K) (ws : List K) : (schedule T ws).sum = T := by
  unfold schedule
  have hp := absSum_pos ws
  generalize (1 :: ws) = l at *
  have : ∀ (l : List K) (S : K), (l.map (fun w => T * ((if w < 0 then -w else w) / S))).sum
      = T * ((l.map (fun w => if w < 0 then -w else w)).sum / S) := by
    intro l S
    induction l with
    | nil => simp
    | cons w l ih => simp only [List.map_cons, List.sum_cons, ih]; ring
  rw [this, div_self (ne_of_gt hp), mul_one]

theorem schedule_sign (T : K) (ws : List K) :
    (0 ≤ T → ∀ h ∈ schedule T ws, 0 ≤ h) ∧ (T ≤ 0 → ∀ h ∈ schedule T ws, h ≤ 0) := by
  have hp := absSum_pos ws
  have hw : ∀ w : K, 0 ≤ (if w < 0 then -w else w) / ((1 :: ws).map (fun w => if w < 0 then -w else w)).sum := by
    intro w
    apply div_nonneg _ hp.le
    split <;> linarith
  constructor
  · intro hT h hh
    obtain ⟨w, -, rfl⟩ := List.mem_map.1 hh
    exact mul_nonneg hT (hw w)
  · intro hT h hh
    obtain ⟨w, -, rfl⟩ := List.mem_map.1 hh
    exact mul_nonpos_of_nonpos_of_nonneg hT (hw w)

/-- the concrete solver qualifies -/
theorem rkEnv_isRk (policy : Rhs R → K → Vec R → List K) : IsRk dopri (rkEnv dopri policy) := by
  intro f T y0 te sol _ h
  unfold rkEnv at h
  simp only at h
  obtain ⟨y, hy, h⟩ := Except.bind_ok.1 h
  cases h
  obtain ⟨h1, h2⟩ := schedule_sign T (policy f T y0)
  exact ⟨_, y, schedule_sum _ _, h1, h2, hy, rfl⟩

/-- and its answer is always a chain -/
theorem rkEnv_solve (policy : Rhs R → K → Vec R → List K) {f : Rhs R} {F : K → (Fin n → K) → (Fin n → K)}
    {S : (Fin n → K) → Prop} {D : Submodule K (Fin n → K)} (hf : LiftsOn S f F) (hst : Stable F S D)
    (T : K) (y0 : Fin n → K) (hy : S y0) (te : Option (Vec R)) :
    (rkEnv dopri policy).solveIvp f (.fin T) (toFl y0) te =
      .ok ⟨[0, .fin T], [toFl y0, toFl (rkChain kdopri F 0 y0 (schedule T (policy f T (toFl y0))))], true⟩ := by
  simp only [rkEnv]
  rw [dopri_lift, Fl.zero_fin, rkChainFl_liftOn hf hst _ _ _ hy]
  rfl

end
end SAD
