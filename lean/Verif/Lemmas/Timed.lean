import Verif.Lemmas.History

/-! # Histories and the time elapsed -/

set_option linter.unusedSectionVars false

namespace SAD
open Spec

variable {K : Type} {R : Fmt K} [Field K] [LinearOrder K] [IsStrictOrderedRing K] [FloorRing K] [Exact R] {n m : Nat}

/-- A relation between the time elapsed and the state kept by every run of the system is kept by every history. -/
theorem Realises.run_timed {env : Env R} (henv : IsRk dopri env) (hpi : 0 < R.pi) {M : KModel K n m}
    (P : K → (Fin n → K) → Prop) (Q : K → (Fin m → K) → Prop) {S : (Fin n → K) → Prop} {D : Submodule K (Fin n → K)}
    (hdom : ∀ y, S y → M.dom y) (hst : ∀ T u, Q T u → Stable (M.field (M.sat u)) S D) (hPS : ∀ τ y, P τ y → S y) {d : Dyn R}
    (hP : ∀ τ T u, Q T u → ∀ tab hs y, Run d T tab hs → P τ y → P (τ + T) (M.post R.pi (rkChain tab (M.field (M.sat u)) 0 y hs)))
    (hist : List (K × Action R)) : ∀ {e : Entity R}, Realises e M → PlainMethod e.dynamics →
      d.integrationMethod = e.dynamics.integrationMethod →
      (∀ h ∈ hist, ∃ u, Asks env e h.2 u ∧ Q h.1 u) → ∀ {τ : K} {y : Fin n → K}, e.state = toFl y → P τ y →
      ∃ y', (e.run env (stepsOf hist)).state = toFl y' ∧ P (τ + elapsed env e hist) y' := by
  induction hist with
  | nil => intro e _ _ _ _ τ y he hy; exact ⟨y, he, by simpa [elapsed] using hy⟩
  | cons h hist ih =>
    intro e hr hm hd hq τ y he hy
    obtain ⟨T, a⟩ := h
    have hc : SameConfig e (e.step env (.fin T) a).entity := step_sameConfig env e _ _
    have hq' : ∀ h ∈ hist, ∃ u, Asks env (e.step env (.fin T) a).entity h.2 u ∧ Q h.1 u := by
      intro g hg
      obtain ⟨u, h1, h2⟩ := hq g (by simp [hg])
      exact ⟨u, requests_congr hc h1, h2⟩
    have hrun : e.run env (stepsOf ((T, a) :: hist)) = (e.step env (.fin T) a).entity.run env (stepsOf hist) := rfl
    rw [hrun]
    have hd' := hd.trans (sameConfig_method hc).1.symm
    cases ho : (e.step env (.fin T) a).outcome with
    | error x =>
      obtain ⟨y', g1, g2⟩ := ih (hr.congr hc) (plain_congr hc hm) hd' hq' (τ := τ) (by rw [(step_error ho).1, he]) hy
      exact ⟨y', g1, by simpa [elapsed, ho] using g2⟩
    | ok _ =>
      obtain ⟨u, hu, hQ⟩ := hq (T, a) (by simp)
      obtain ⟨tab, hs, h1, h2, -⟩ := hr.step henv hpi hm hu hdom (hst T u hQ) he (hPS τ y hy) ho
      obtain ⟨y', g1, g2⟩ := ih (hr.congr hc) (plain_congr hc hm) hd' hq' h2
        (hP τ T u hQ tab hs y (run_congr_method hd.symm h1) hy)
      exact ⟨y', g1, by simpa [elapsed, ho, add_assoc] using g2⟩

end SAD
