import Verif.Lemmas.Flow

/-! # Histories of steps -/

set_option linter.unusedSectionVars false

namespace SAD
open Spec

variable {K : Type} {R : Fmt K} [Field K] [LinearOrder K] [IsStrictOrderedRing K] [FloorRing K] [Exact R] {n m : Nat}

theorem requests_congr {env : Env R} {e e' : Entity R} (hc : SameConfig e e') {a : Action R} {u : Fin m → K}
    (h : Asks env e a u) : Asks env e' a u := by
  obtain ⟨ty, h⟩ := asks_iff.1 h
  refine asks_iff.2 ⟨ty, ?_⟩
  rw [← h]
  obtain ⟨-, h2, -, -, h5, -⟩ := hc
  cases a <;> simp [Entity.resolve, h2, h5]

theorem sameConfig_method {e e' : Entity R} (hc : SameConfig e e') :
    e'.dynamics.integrationMethod = e.dynamics.integrationMethod ∧
    e'.dynamics.trajectorySamples = e.dynamics.trajectorySamples := by
  obtain ⟨-, -, -, -, -, h6⟩ := hc
  rw [← h6]
  exact ⟨rfl, rfl⟩

theorem plain_congr {e e' : Entity R} (hc : SameConfig e e') (h : PlainMethod e.dynamics) : PlainMethod e'.dynamics := by
  obtain ⟨h1, h2⟩ := sameConfig_method hc
  unfold PlainMethod
  rw [h1, h2]
  exact h

theorem run_congr_method {d d' : Dyn R} (h : d'.integrationMethod = d.integrationMethod) {T : K} {tab : KTab K} {hs : List K}
    (hr : Run d' T tab hs) : Run d T tab hs := ⟨hr.sum, hr.nonneg, hr.nonpos, by rw [← h]; exact hr.kind⟩

/-- An invariant of the system's runs is an invariant of every history, whatever the schedules and whichever steps raise. -/
theorem Realises.run_inv {env : Env R} (henv : IsRk dopri env) (hpi : 0 < R.pi) {M : KModel K n m}
    (P : (Fin n → K) → Prop) (Q : (Fin m → K) → Prop) {S : (Fin n → K) → Prop} {D : Submodule K (Fin n → K)}
    (hdom : ∀ y, S y → M.dom y) (hst : ∀ u, Q u → Stable (M.field (M.sat u)) S D) (hPS : ∀ y, P y → S y)
    {d : Dyn R}
    (hP : ∀ u, Q u → ∀ T tab hs y, Run d T tab hs → P y → P (M.post R.pi (rkChain tab (M.field (M.sat u)) 0 y hs)))
    (hist : List (K × Action R)) : ∀ {e : Entity R}, Realises e M → PlainMethod e.dynamics →
      d.integrationMethod = e.dynamics.integrationMethod →
      (∀ h ∈ hist, ∃ u, Asks env e h.2 u ∧ Q u) → ∀ {y : Fin n → K}, e.state = toFl y → P y →
      ∃ y', (e.run env (stepsOf hist)).state = toFl y' ∧ P y' := by
  induction hist with
  | nil => intro e _ _ _ _ y he hy; exact ⟨y, he, hy⟩
  | cons h hist ih =>
    intro e hr hm hd hq y he hy
    have hc : SameConfig e (e.step env (.fin h.1) h.2).entity := step_sameConfig env e _ _
    obtain ⟨u, hu, hQ⟩ := hq h (by simp)
    have hstep : ∃ y1, (e.step env (.fin h.1) h.2).entity.state = toFl y1 ∧ P y1 := by
      cases ho : (e.step env (.fin h.1) h.2).outcome with
      | error x => exact ⟨y, by rw [(step_error ho).1, he], hy⟩
      | ok _ =>
        obtain ⟨tab, hs, h1, h2, -⟩ := hr.step henv hpi hm hu hdom (hst u hQ) he (hPS y hy) ho
        exact ⟨_, h2, hP u hQ _ tab hs y (run_congr_method hd.symm h1) hy⟩
    obtain ⟨y1, e1, p1⟩ := hstep
    exact ih (hr.congr hc) (plain_congr hc hm) (hd.trans (sameConfig_method hc).1.symm)
      (fun g hg => by
        obtain ⟨u, h1, h2⟩ := hq g (by simp [hg])
        exact ⟨u, requests_congr hc h1, h2⟩) e1 p1

/-- Two entities of the same system, stepped side by side, each step with the same schedule for both. -/
theorem Realises.run_pair (hpi : 0 < R.pi) {M : KModel K n m} {d : Dyn R} (hm : PlainMethod d)
    (P : (Fin n → K) → (Fin n → K) → Prop) (Q : (Fin m → K) → (Fin m → K) → Prop)
    {S : (Fin n → K) → Prop} {D : Submodule K (Fin n → K)}
    (hdom : ∀ y, S y → M.dom y) (hst : ∀ u, Stable (M.field (M.sat u)) S D) (hPS : ∀ y1 y2, P y1 y2 → S y1 ∧ S y2)
    (hP : ∀ u1 u2, Q u1 u2 → ∀ ws T y1 y2, P y1 y2 →
      P (M.post R.pi (rkChain (flowTab d) (M.field (M.sat u1)) 0 y1 (flowHs d ws T)))
        (M.post R.pi (rkChain (flowTab d) (M.field (M.sat u2)) 0 y2 (flowHs d ws T))))
    (hist : List (List K × K × Action R × Action R)) : ∀ {e1 e2 : Entity R}, Realises e1 M → Realises e2 M →
      PlainMethod e1.dynamics → PlainMethod e2.dynamics →
      e1.dynamics.integrationMethod = d.integrationMethod → e2.dynamics.integrationMethod = d.integrationMethod →
      (∀ h ∈ hist, ∃ u1 u2, Asks (scheduled h.1) e1 h.2.2.1 u1 ∧
        Asks (scheduled h.1) e2 h.2.2.2 u2 ∧ Q u1 u2) →
      ∀ {y1 y2 : Fin n → K}, e1.state = toFl y1 → e2.state = toFl y2 → P y1 y2 →
      ∃ z1 z2, (runScheduled e1 (hist.map (fun h => (h.1, h.2.1, h.2.2.1)))).state = toFl z1 ∧
        (runScheduled e2 (hist.map (fun h => (h.1, h.2.1, h.2.2.2)))).state = toFl z2 ∧ P z1 z2 := by
  induction hist with
  | nil => intro e1 e2 _ _ _ _ _ _ _ y1 y2 h1 h2 h3; exact ⟨y1, y2, h1, h2, h3⟩
  | cons h hist ih =>
    intro e1 e2 r1 r2 m1 m2 d1 d2 hq y1 y2 h1 h2 hp
    have c1 : SameConfig e1 (e1.step (scheduled h.1) (.fin h.2.1) h.2.2.1).entity := step_sameConfig _ e1 _ _
    have c2 : SameConfig e2 (e2.step (scheduled h.1) (.fin h.2.1) h.2.2.2).entity := step_sameConfig _ e2 _ _
    obtain ⟨u1, u2, q1, q2, q⟩ := hq h (by simp)
    have s1 := (r1.step_fixed h.1 hpi m1 q1 hdom (hst u1) h1 (hPS y1 y2 hp).1 h.2.1).2.1
    have s2 := (r2.step_fixed h.1 hpi m2 q2 hdom (hst u2) h2 (hPS y1 y2 hp).2 h.2.1).2.1
    have t1 : (flowTab e1.dynamics : KTab K) = flowTab d := by unfold flowTab; rw [d1]
    have t2 : (flowTab e2.dynamics : KTab K) = flowTab d := by unfold flowTab; rw [d2]
    have g1 : ∀ ws T, flowHs e1.dynamics ws T = flowHs d ws T := by intro ws T; unfold flowHs; rw [d1]
    have g2 : ∀ ws T, flowHs e2.dynamics ws T = flowHs d ws T := by intro ws T; unfold flowHs; rw [d2]
    rw [t1, g1] at s1
    rw [t2, g2] at s2
    exact ih (r1.congr c1) (r2.congr c2) (plain_congr c1 m1) (plain_congr c2 m2) ((sameConfig_method c1).1.trans d1)
      ((sameConfig_method c2).1.trans d2)
      (fun g hg => by
        obtain ⟨u1, u2, a1, a2, a⟩ := hq g (by simp [hg])
        exact ⟨u1, u2, requests_congr c1 a1, requests_congr c2 a2, a⟩) s1 s2 (hP u1 u2 q h.1 h.2.1 y1 y2 hp)

/-- Uniform motion: when the field is the constant direction `w` along the line through the state, and limits and wrapping
leave that line alone, every history moves the state along it by the time elapsed. -/
theorem Realises.run_line {env : Env R} (henv : IsRk dopri env) (hpi : 0 < R.pi) {M : KModel K n m} {y0 w : Fin n → K}
    (hdom : ∀ c : K, M.dom (y0 + c • w)) (hpost : ∀ c : K, M.post R.pi (y0 + c • w) = y0 + c • w)
    (hist : List (K × Action R)) : ∀ {e : Entity R}, Realises e M → PlainMethod e.dynamics →
      (∀ h ∈ hist, ∃ u, Asks env e h.2 u ∧ ∀ t (c : K), M.field (M.sat u) t (y0 + c • w) = w) → ∀ (c : K), e.state = toFl (y0 + c • w) →
      (e.run env (stepsOf hist)).state = toFl (y0 + (c + elapsed env e hist) • w) := by
  induction hist with
  | nil => intro e _ _ _ c he; simpa [stepsOf, Entity.run, elapsed] using he
  | cons x hist ih =>
    intro e hr hm hq c he
    obtain ⟨T, a⟩ := x
    have hc : SameConfig e (e.step env (.fin T) a).entity := step_sameConfig env e _ _
    have hrun : e.run env (stepsOf ((T, a) :: hist)) = (e.step env (.fin T) a).entity.run env (stepsOf hist) := rfl
    have hq' : ∀ h ∈ hist, ∃ u, Asks env (e.step env (.fin T) a).entity h.2 u ∧ ∀ t (c : K), M.field (M.sat u) t (y0 + c • w) = w := by
      intro g hg
      obtain ⟨u, h1, h2⟩ := hq g (by simp [hg])
      exact ⟨u, requests_congr hc h1, h2⟩
    rw [hrun]
    cases ho : (e.step env (.fin T) a).outcome with
    | error x =>
      rw [ih (hr.congr hc) (plain_congr hc hm) hq' c (by rw [(step_error ho).1, he])]
      simp [elapsed, ho]
    | ok _ =>
      obtain ⟨u, hu, hF⟩ := hq (T, a) (by simp)
      have hst : Stable (M.field (M.sat u)) (fun y => ∃ c : K, y = y0 + c • w) (Submodule.span K {w}) := by
        constructor
        · rintro t z ⟨c, rfl⟩; rw [hF]; exact Submodule.subset_span rfl
        · rintro y d ⟨c, rfl⟩ hd
          obtain ⟨r, rfl⟩ := Submodule.mem_span_singleton.1 hd
          exact ⟨c + r, by rw [add_smul, add_assoc]⟩
      obtain ⟨tab, hs, h1, h2, -⟩ := hr.step henv hpi hm hu (S := fun y => ∃ c : K, y = y0 + c • w)
        (by rintro y ⟨c, rfl⟩; exact hdom c) hst he ⟨c, rfl⟩ ho
      have hline := rkChain_line tab h1.b.1 h1.b.2 (F := M.field (M.sat u)) (y := y0 + c • w) (w := w)
        (by intro t c'; rw [add_assoc, ← add_smul]; exact hF _ _) 0 hs
      rw [hline, h1.sum, add_assoc, ← add_smul, hpost] at h2
      rw [ih (hr.congr hc) (plain_congr hc hm) hq' (c + T) h2]
      simp [elapsed, ho, add_assoc]

end SAD
