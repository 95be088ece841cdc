import Verif.Lemmas.History
import Verif.Lemmas.Dubins

/-! # Affine symmetries of control systems and of the steps that integrate them -/

set_option linter.unusedSectionVars false

namespace SAD
open Spec

section chain
variable {K : Type} [Field K] {V W : Type} [AddCommGroup V] [Module K V] [AddCommGroup W] [Module K W]

theorem rkStages_shift (F : K → V → V) (c : V) (t h : K) (y : V) (st : List (K × List K)) (ks : List V) :
    rkStages F t h (y + c) st ks = rkStages (fun t z => F t (z + c)) t h y st ks := by
  induction st generalizing ks with
  | nil => rfl
  | cons p st ih =>
    obtain ⟨a, row⟩ := p
    simp only [rkStages]
    rw [ih, show y + c + h • combo row ks = y + h • combo row ks + c by abel]

theorem rkChain_shift (tab : KTab K) (F : K → V → V) (c : V) (hs : List K) : ∀ (t : K) (y : V),
    rkChain tab F t (y + c) hs = rkChain tab (fun t z => F t (z + c)) t y hs + c := by
  induction hs with
  | nil => intros; rfl
  | cons h hs ih =>
    intro t y
    have e : rkStep tab F t h (y + c) = rkStep tab (fun t z => F t (z + c)) t h y + c := by
      simp only [rkStep, rkStages_shift]
      abel
    simp only [rkChain]
    rw [e, ih]

/-- An affine map that carries one vector field to another carries the solutions of a method to solutions. -/
theorem rkChain_affine (tab : KTab K) (L : V →ₗ[K] W) (c : W) {F : K → V → V} {G : K → W → W}
    (hFG : ∀ t y, L (F t y) = G t (L y + c)) (t : K) (y : V) (hs : List K) :
    rkChain tab G t (L y + c) hs = L (rkChain tab F t y hs) + c := by
  rw [rkChain_shift, rkChain_map tab L F (fun t z => G t (z + c)) hFG]

end chain

variable {K : Type} {R : Fmt K} [Field K] [LinearOrder K] [IsStrictOrderedRing K] [FloorRing K] [Exact R] {n m : Nat}

/-- One step with a fixed schedule, where the intermediate states stay where the rates are finite or the method is Euler's. -/
theorem Realises.step_scheduled (ws : List K) (hpi : 0 < R.pi) {e : Entity R} {M : KModel K n m}
    (h : Realises e M) (hm : PlainMethod e.dynamics) {a : Action R} {u : Fin m → K} (ha : Asks (scheduled ws) e a u)
    {y : Fin n → K} (he : e.state = toFl y)
    (hd : (e.dynamics.integrationMethod = "Euler" ∧ M.dom y) ∨
      ∃ (S : (Fin n → K) → Prop) (D : Submodule K (Fin n → K)), (∀ y, S y → M.dom y) ∧ Stable (M.field (M.sat u)) S D ∧ S y) (T : K) :
    (e.step (scheduled ws) (.fin T) a).entity.state
      = toFl (M.post R.pi (rkChain (flowTab e.dynamics) (M.field (M.sat u)) 0 y (flowHs e.dynamics ws T))) := by
  rcases hd with ⟨hE, hy⟩ | ⟨S, D, h1, h2, h3⟩
  · obtain ⟨w, hstep⟩ := step_realised h ha (.fin T)
    have hs : e.dynamics.trajectorySamples ≤ 0 := by
      rcases hm with hm | hm
      · rw [hE] at hm; exact absurd hm (by decide)
      · exact hm.2
    have hr := rawStep_euler (S := fun z => z = y) (scheduled ws) h.dyn.custom hE hs
      (h.dyn.liftsOn (M.sat u) (by rintro z rfl; exact hy)) T y rfl
    have hd := dynStep_lift hpi h.dyn hr
    rw [hstep]
    rw [← he] at hd
    cases hds : e.dynamics.step (scheduled ws) (.fin T) e.state (toFl (M.sat u)) with
    | mk d r =>
      rw [hds] at hd
      simp only at hd
      subst hd
      simp only [flowTab, flowHs, hE, if_true, rkChain_keuler]
  · exact (h.step_fixed ws hpi hm ha h1 h2 he h3 T).2.1

/-- Two entities configured alike whose states are related. -/
def Paired (e0 : Entity R) (P : (Fin n → K) → (Fin n → K) → Prop) (e1 e2 : Entity R) : Prop :=
  SameConfig e0 e1 ∧ SameConfig e0 e2 ∧ ∃ y1 y2, e1.state = toFl y1 ∧ e2.state = toFl y2 ∧ P y1 y2

theorem Paired.run {e0 : Entity R} {M : KModel K n m} (hpi : 0 < R.pi) (hr : Realises e0 M) (hm : PlainMethod e0.dynamics)
    (P : (Fin n → K) → (Fin n → K) → Prop) (Q : (Fin m → K) → (Fin m → K) → Prop)
    (hdom : ∀ u1 u2, Q u1 u2 → ∀ y1 y2, P y1 y2 → ∀ u y, (u = u1 ∧ y = y1 ∨ u = u2 ∧ y = y2) →
      (e0.dynamics.integrationMethod = "Euler" ∧ M.dom y) ∨
      ∃ (S : (Fin n → K) → Prop) (D : Submodule K (Fin n → K)), (∀ y, S y → M.dom y) ∧ Stable (M.field (M.sat u)) S D ∧ S y)
    (hP : ∀ u1 u2, Q u1 u2 → ∀ ws T y1 y2, P y1 y2 →
      P (M.post R.pi (rkChain (flowTab e0.dynamics) (M.field (M.sat u1)) 0 y1 (flowHs e0.dynamics ws T)))
        (M.post R.pi (rkChain (flowTab e0.dynamics) (M.field (M.sat u2)) 0 y2 (flowHs e0.dynamics ws T))))
    (hist : List (List K × K × Action R × Action R)) : ∀ {e1 e2 : Entity R}, Paired e0 P e1 e2 →
      (∀ h ∈ hist, ∃ u1 u2, Asks (scheduled h.1) e0 h.2.2.1 u1 ∧ Asks (scheduled h.1) e0 h.2.2.2 u2 ∧ Q u1 u2) →
      Paired e0 P (runScheduled e1 (hist.map (fun h => (h.1, h.2.1, h.2.2.1))))
        (runScheduled e2 (hist.map (fun h => (h.1, h.2.1, h.2.2.2)))) := by
  induction hist with
  | nil => intro e1 e2 h _; exact h
  | cons h hist ih =>
    rintro e1 e2 ⟨c1, c2, y1, y2, s1, s2, hp⟩ hq
    obtain ⟨u1, u2, q1, q2, q⟩ := hq h (by simp)
    refine ih (e1 := (e1.step (scheduled h.1) (.fin h.2.1) h.2.2.1).entity) (e2 := (e2.step (scheduled h.1) (.fin h.2.1) h.2.2.2).entity)
      ⟨SAD.SameConfig.trans c1 (step_sameConfig _ e1 _ _), SAD.SameConfig.trans c2 (step_sameConfig _ e2 _ _), _, _, ?_, ?_, hP u1 u2 q h.1 h.2.1 y1 y2 hp⟩
      (fun g hg => hq g (by simp [hg]))
    · have m1 := (sameConfig_method c1).1
      have := (hr.congr c1).step_scheduled h.1 hpi (plain_congr c1 hm) (requests_congr c1 q1) s1
        (by rw [m1]; exact hdom u1 u2 q y1 y2 hp u1 y1 (.inl ⟨rfl, rfl⟩)) h.2.1
      rw [this]
      simp only [flowTab, flowHs, m1]
    · have m2 := (sameConfig_method c2).1
      have := (hr.congr c2).step_scheduled h.1 hpi (plain_congr c2 hm) (requests_congr c2 q2) s2
        (by rw [m2]; exact hdom u1 u2 q y1 y2 hp u2 y2 (.inr ⟨rfl, rfl⟩)) h.2.1
      rw [this]
      simp only [flowTab, flowHs, m2]

/-! ### reflected limits -/

theorem kclip_neg {r : K} (hr : 0 ≤ r) (x : K) : kclip (some (-r)) (some r) (-x) = -kclip (some (-r)) (some r) x := by
  simp only [kclip]
  rcases le_total x (-r) with h | h
  · rw [max_eq_right h, max_eq_left (by linarith), min_eq_right (by linarith), min_eq_left (by linarith), neg_neg]
  · rw [max_eq_left h]
    rcases le_total x r with h' | h'
    · rw [max_eq_left (by linarith), min_eq_left (by linarith), min_eq_left h']
    · rw [max_eq_right (by linarith), min_eq_left (by linarith), min_eq_right h']

theorem klimit_neg {r : K} (hr : 0 < r) (y v : K) :
    klimit (some (-r)) (some r) none none (-y) (-v) = -klimit (some (-r)) (some r) none none y v := by
  simp only [klimit, kclip, Option.some.injEq, exists_eq_left']
  by_cases h1 : r ≤ y
  · rw [if_pos h1, if_neg (by linarith), if_pos (by linarith)]
    rcases le_total v 0 with h | h <;> simp [h]
  · rw [if_neg h1]
    by_cases h2 : y ≤ -r
    · rw [if_pos h2, if_pos (by linarith)]
      rcases le_total v 0 with h | h <;> simp [h]
    · rw [if_neg h2, if_neg (by linarith), if_neg (by push Not at h1; linarith)]

end SAD
