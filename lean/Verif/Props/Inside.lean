import Verif.Lemmas.Inside
import Verif.Props.Converge
import Mathlib.Topology.MetricSpace.Thickening
import Mathlib.Topology.Algebra.MetricSpace.Lipschitz
import Mathlib.Analysis.Calculus.ContDiff.RCLike
import Mathlib.Analysis.SpecialFunctions.Trigonometric.Deriv
import Verif.Lemmas.Dubins
import Verif.Lemmas.SixDof
import Verif.Props.JaxEnds

/-!
# C99: within its limits every model converges to the solution of its differential equation
-/

set_option linter.unusedSectionVars false

namespace SAD
open Spec Real

/-- the same state up to whole turns of the components in `w` -/
def Spec.Turned {n : Nat} (w : Set (Fin n)) (y y' : Fin n → ℝ) : Prop := ∀ i, y' i = y i ∨ (i ∈ w ∧ ∃ k : ℤ, y' i = y i + k * (2 * π))

/-- In the region `S` the dynamics move with `f` under the control `u`: no limit is active, and wrapping, if any, only turns components that
the motion does not depend on up to whole turns. -/
structure Spec.MovesWith {n m : Nat} (d : Dyn realFmt) (u : Fin m → ℝ) (w : Set (Fin n)) (S : Set (Fin n → ℝ)) (f : (Fin n → ℝ) → Fin n → ℝ) : Prop where
  rate : ∀ t, ∀ y ∈ S, d.computeStateDot (.fin t) (toFl y) (toFl u) = .ok (toFl (f y))
  limits : ∀ y ∈ S, npClip (toFl y) d.stateMin d.stateMax = .ok (toFl y)
  wrap : ∀ y ∈ S, ∃ y', d.wrapAngles (toFl y) = .ok (toFl y') ∧ Turned w y y'
  turned : ∀ y ∈ S, ∀ y', Turned w y y' → y' ∈ S ∧ f y' = f y

/-- **Simulations track the motion `φ`** under the control `u`, for `Tm` seconds: for every tolerance there are a longest duration of calls and a largest initial
error such that an entity configured as `e`, after any history of such calls that apply `u`, is within the tolerance of `φ` at the time elapsed, up to whole
turns of the angles in `w`. Calls may fail. -/
def Spec.Tracks {n m : Nat} (env : Env realFmt) (e : Entity realFmt) (u : Fin m → ℝ) (w : Set (Fin n)) (Tm : ℝ) (φ : ℝ → Fin n → ℝ) : Prop :=
  ∀ ε > 0, ∃ η > 0, ∃ δ > 0, ∀ (e' : Entity realFmt) (hist : List (ℝ × Action realFmt)), SameConfig e e' →
    (∀ h ∈ hist, 0 ≤ h.1 ∧ h.1 ≤ η ∧ Applied env e h.2 (toFl u)) → elapsed env e' hist ≤ Tm →
    ∀ y x : Fin n → ℝ, e'.state = toFl y → Turned w x y → ‖x - φ 0‖ ≤ δ →
    ∃ y' x' : Fin n → ℝ, (e'.run env (stepsOf hist)).state = toFl y' ∧ Turned w x' y' ∧ ‖x' - φ (elapsed env e' hist)‖ ≤ ε

theorem Spec.Turned.refl {n : Nat} (w : Set (Fin n)) (y : Fin n → ℝ) : Turned w y y := fun _ => .inl rfl

theorem Spec.Turned.trans {n : Nat} {w : Set (Fin n)} {a b c : Fin n → ℝ} (h1 : Turned w a b) (h2 : Turned w b c) : Turned w a c := by
  intro i
  rcases h1 i with h | ⟨hw, k, h⟩ <;> rcases h2 i with h' | ⟨hw', k', h'⟩
  · exact .inl (h'.trans h)
  · exact .inr ⟨hw', k', by rw [h', h]⟩
  · exact .inr ⟨hw, k, by rw [h', h]⟩
  · exact .inr ⟨hw, k + k', by rw [h', h]; push_cast; ring⟩

theorem Spec.Turned.shift {n : Nat} {w : Set (Fin n)} {a b : Fin n → ℝ} (h : Turned w a b) (z : Fin n → ℝ) : Turned w z (z + (b - a)) := by
  intro i
  rcases h i with h | ⟨hw, k, h⟩
  · exact .inl (by simp [h])
  · exact .inr ⟨hw, k, by simp [h]⟩

/-- one call inside the tube -/
theorem step_inside {n m : Nat} {env : Env realFmt} (henv : IsRk dopri env) {e : Entity realFmt} (hc : e.dynamics.custom = none)
    (hm : PlainMethod e.dynamics) {u : Fin m → ℝ} {w : Set (Fin n)} {S : Set (Fin n → ℝ)} {f : (Fin n → ℝ) → Fin n → ℝ} (hF : MovesWith e.dynamics u w S f)
    {a : Action realFmt} (ha : Applied env e a (toFl u)) {g : (Fin n → ℝ) → Fin n → ℝ} {L B Tm ρ η δ : ℝ} {φ : ℝ → Fin n → ℝ} (ht : Tube g L B Tm ρ η δ φ)
    (hS : ∀ τ z, 0 ≤ τ → τ ≤ Tm → ‖z - φ τ‖ ≤ ρ → z ∈ S ∧ f z = g z) {T : ℝ} (hT0 : 0 ≤ T) (hTη : T ≤ η) (ho : (e.step env (.fin T) a).outcome = .ok ())
    {y x : Fin n → ℝ} (hs : e.state = toFl y) (hx : Turned w x y) {τ : ℝ} (hτ : 0 ≤ τ) (hτT : τ + T ≤ Tm) (he : ‖x - φ τ‖ ≤ allowed L B η δ τ) :
    ∃ y' x' : Fin n → ℝ, (e.step env (.fin T) a).entity.state = toFl y' ∧ Turned w x' y' ∧ ‖x' - φ (τ + T)‖ ≤ allowed L B η δ (τ + T) := by
  obtain ⟨ty, u', v, d, s, sd, h1, h2, h3, h4⟩ := step_ok ho
  have hv : v = toFl u := applied_unique (applied_of h1 h2) ha
  subst hv
  obtain ⟨next, c, g1, g2, g3⟩ := dynStep_parts (show (e.dynamics.step env (.fin T) e.state (toFl u)).2 = .ok (s, sd) by rw [h3])
  rw [hs] at g1
  have hρ := ht.rho_nonneg (by linarith)
  have hf : ∀ t τ z, 0 ≤ τ → τ ≤ Tm → ‖z - φ τ‖ ≤ ρ → e.dynamics.field (toFl u) (.fin t) (toFl (z + (y - x))) = .ok (toFl (g z)) := by
    intro t τ z h0 hτ hz
    obtain ⟨z1, z2⟩ := hS τ z h0 hτ hz
    obtain ⟨z3, z4⟩ := hF.turned z z1 _ (hx.shift z)
    rw [← z2, ← z4]
    exact hF.rate t _ z3
  have hy : y = x + (y - x) := by abel
  obtain ⟨x', k1, k2⟩ : ∃ x' : Fin n → ℝ, next = toFl (x' + (y - x)) ∧ ‖x' - φ (τ + T)‖ ≤ allowed L B η δ (τ + T) := by
    rcases hm with hm | ⟨hm, htr⟩
    · rw [rawStep_ode hc] at g1
      obtain ⟨sol, q1, q2, q3, -⟩ := odeStep_rk45_ok hm g1
      obtain ⟨hs', yf, r1, r2, r3, r4, r5⟩ := henv _ T _ _ sol (tEval_last e.dynamics T) q1
      have hb : ∀ k ∈ hs', 0 ≤ k ∧ k ≤ η := fun k hk =>
        ⟨r2 hT0 k hk, (List.single_le_sum (r2 hT0) k hk).trans (r1.le.trans hTη)⟩
      obtain ⟨z, z1, z2⟩ := ht.chain hf hs' (τ := τ) (t := 0) (y := x) hτ hb (by rw [r1]; exact hτT) he
      rw [hy, dopri_lift, Fl.zero_fin] at r4
      have := z1.symm.trans r4
      cases this
      rw [q2] at r5
      cases r5
      exact ⟨z, rfl, by rwa [r1] at z2⟩
    · have hxy := hf 0 τ x hτ (by linarith) (he.trans ((ht.allowed_le (by linarith) hτ).trans (by linarith)))
      have := rawStep_euler env hc hm htr (u := toFl u) (F := fun _ _ => g x) (S := fun z => z = y) (fun t z hz => by
        rw [hz, hy]; exact hf t τ x hτ (by linarith) (he.trans ((ht.allowed_le (by linarith) hτ).trans (by linarith)))) T y rfl
      rw [this] at g1
      cases g1
      refine ⟨rkStep keuler (fun _ => g) 0 T x, ?_, ht.error (.inr rfl) hτ hT0 hτT hTη he 0⟩
      have e1 : rkStep keuler (fun _ => g) 0 T x = x + T • g x := by simp [rkStep, keuler, rkStages, combo]
      rw [e1]
      congr 1
      abel
  obtain ⟨z1, -⟩ := hS (τ + T) x' (by linarith) hτT (k2.trans ((ht.allowed_le hτT (by linarith)).trans (by linarith)))
  obtain ⟨z3, -⟩ := hF.turned x' z1 _ (hx.shift x')
  rw [k1, hF.limits _ z3] at g2
  cases g2
  obtain ⟨y', w1, w2⟩ := hF.wrap _ z3
  rw [w1] at g3
  cases g3
  exact ⟨y', x', h4 ▸ rfl, (hx.shift x').trans w2, k2⟩

theorem movesWith_congr {n m : Nat} {e e' : Entity realFmt} (hsc : SameConfig e e') {u : Fin m → ℝ} {w : Set (Fin n)} {S : Set (Fin n → ℝ)}
    {f : (Fin n → ℝ) → Fin n → ℝ} (hF : MovesWith e.dynamics u w S f) : MovesWith e'.dynamics u w S f := by
  obtain ⟨h1, h2, h3, h4⟩ := hF
  obtain ⟨-, -, -, -, -, h6⟩ := hsc
  rw [← h6] at h1 h2 h3
  exact ⟨h1, h2, h3, h4⟩

theorem custom_congr {e e' : Entity realFmt} (hsc : SameConfig e e') (h : e.dynamics.custom = none) : e'.dynamics.custom = none := by
  obtain ⟨-, -, -, -, -, h6⟩ := hsc
  rw [← h6] at h
  exact h

/-- any number of calls inside the tube, some of which may fail -/
theorem run_inside {n m : Nat} {env : Env realFmt} (henv : IsRk dopri env) {u : Fin m → ℝ} {w : Set (Fin n)} {S : Set (Fin n → ℝ)}
    {f g : (Fin n → ℝ) → Fin n → ℝ} {L B Tm ρ η δ : ℝ} {φ : ℝ → Fin n → ℝ} (ht : Tube g L B Tm ρ η δ φ)
    (hS : ∀ τ z, 0 ≤ τ → τ ≤ Tm → ‖z - φ τ‖ ≤ ρ → z ∈ S ∧ f z = g z) (hist : List (ℝ × Action realFmt)) :
    ∀ {e : Entity realFmt}, e.dynamics.custom = none → PlainMethod e.dynamics → MovesWith e.dynamics u w S f →
      (∀ h ∈ hist, 0 ≤ h.1 ∧ h.1 ≤ η ∧ Applied env e h.2 (toFl u)) → ∀ {y x : Fin n → ℝ} {τ : ℝ}, e.state = toFl y → Turned w x y → 0 ≤ τ →
      τ + elapsed env e hist ≤ Tm → ‖x - φ τ‖ ≤ allowed L B η δ τ →
      ∃ y' x' : Fin n → ℝ, (e.run env (stepsOf hist)).state = toFl y' ∧ Turned w x' y' ∧
        ‖x' - φ (τ + elapsed env e hist)‖ ≤ allowed L B η δ (τ + elapsed env e hist) := by
  induction hist with
  | nil =>
    intro e _ _ _ _ y x τ hs hx _ _ he
    exact ⟨y, x, hs, hx, by simpa [elapsed] using he⟩
  | cons h hist ih =>
    intro e hc hm hF hh y x τ hs hx hτ hT he
    obtain ⟨T, a⟩ := h
    obtain ⟨hT0, hTη, ha⟩ := hh (T, a) (by simp)
    have hsc : SameConfig e (e.step env (.fin T) a).entity := step_sameConfig env e _ _
    have hrun : e.run env (stepsOf ((T, a) :: hist)) = (e.step env (.fin T) a).entity.run env (stepsOf hist) := rfl
    have hh' : ∀ h ∈ hist, 0 ≤ h.1 ∧ h.1 ≤ η ∧ Applied env (e.step env (.fin T) a).entity h.2 (toFl u) := fun h hm =>
      have := hh h (by simp [hm]); ⟨this.1, this.2.1, (applied_congr hsc).2 this.2.2⟩
    have ih' := @ih _ (custom_congr hsc hc) (plain_congr hsc hm) (movesWith_congr hsc hF) hh'
    have hpos := elapsed_nonneg env hist (e.step env (.fin T) a).entity (fun h hm => (hh' h hm).1)
    rw [hrun]
    rw [elapsed] at hT ⊢
    cases ho : (e.step env (.fin T) a).outcome with
    | error _ =>
      simp only [ho, zero_add] at hT ⊢
      exact ih' (by rw [(step_error ho).1, hs]) hx hτ hT he
    | ok _ =>
      simp only [ho] at hT ⊢
      obtain ⟨y', x', g1, g2, g3⟩ := step_inside henv hc hm hF ha ht hS hT0 hTη ho hs hx hτ (by linarith) he
      obtain ⟨y'', x'', k1, k2, k3⟩ := ih' g1 g2 (add_nonneg hτ hT0) (by linarith) g3
      exact ⟨y'', x'', k1, k2, by rwa [add_assoc] at k3⟩

/-- C99: **convergence within the limits**. Take an exact solution of the differential equation that a model obeys in an open region where none of its limits
is active, for a constant control. With RK45 (whatever steps the solver takes) or Euler, simulations track it. -/
theorem C99_tracks {n m : Nat} (env : Env realFmt) (henv : IsRk dopri env) (e : Entity realFmt) (hc : e.dynamics.custom = none)
    (hm : PlainMethod e.dynamics) (u : Fin m → ℝ) (w : Set (Fin n)) (S : Set (Fin n → ℝ)) (hS : IsOpen S) (f : (Fin n → ℝ) → Fin n → ℝ)
    (hF : MovesWith e.dynamics u w S f) (hf : LocallyLipschitzOn S f) (Tm : ℝ) (φ : ℝ → Fin n → ℝ)
    (hφ : ∀ t ∈ Set.Icc 0 Tm, HasDerivWithinAt φ (f (φ t)) (Set.Icc 0 Tm) t ∧ φ t ∈ S) : Tracks env e u w Tm φ := by
  intro ε hε
  have hcont : ContinuousOn φ (Set.Icc 0 Tm) := fun t ht => (hφ t ht).1.continuousWithinAt
  have hK : IsCompact (φ '' Set.Icc 0 Tm) := isCompact_Icc.image_of_continuousOn hcont
  obtain ⟨ρ, hρ, hsub⟩ := hK.exists_cthickening_subset_open hS (by rintro _ ⟨t, ht, rfl⟩; exact (hφ t ht).2)
  obtain ⟨L, hL⟩ := (hf.mono hsub).exists_lipschitzOnWith_of_compact hK.cthickening
  obtain ⟨g, hg, hfg⟩ := hL.extend_pi
  obtain ⟨B, hB⟩ := isCompact_Icc.exists_bound_of_continuousOn (hg.continuous.comp_continuousOn hcont)
  have hin : ∀ τ z, 0 ≤ τ → τ ≤ Tm → ‖z - φ τ‖ ≤ ρ → z ∈ S ∧ f z = g z := by
    intro τ z h0 h1 hz
    have hz' : z ∈ Metric.cthickening ρ (φ '' Set.Icc 0 Tm) :=
      Metric.closedBall_subset_cthickening (Set.mem_image_of_mem φ (show τ ∈ Set.Icc 0 Tm from ⟨h0, h1⟩)) ρ (mem_closedBall_iff_norm.2 hz)
    exact ⟨hsub hz', hfg hz'⟩
  obtain ⟨l, hl⟩ : ∃ l : ℝ, l = L := ⟨_, rfl⟩
  have hl0 : 0 ≤ l := hl ▸ L.coe_nonneg
  obtain ⟨b, hb⟩ : ∃ b : ℝ, b = |B| := ⟨_, rfl⟩
  have hb0 : 0 ≤ b := hb ▸ abs_nonneg B
  obtain ⟨E, hE⟩ : ∃ E : ℝ, E = exp (2 * l * |Tm|) := ⟨_, rfl⟩
  have hE1 : 0 < E := hE ▸ exp_pos _
  obtain ⟨r, hr⟩ : ∃ r : ℝ, r = min (ρ / 2) ε := ⟨_, rfl⟩
  have hr0 : 0 < r := by rw [hr]; positivity
  -- the largest duration and initial error
  obtain ⟨η, hη⟩ : ∃ η : ℝ, η = min (1 / (25 * (l + 1))) (min (ρ / 2 / (25 * (l * ρ + b + 1))) (r / 2 / (18 * l * b * |Tm| * E + 1))) := ⟨_, rfl⟩
  have hη0 : 0 < η := by rw [hη]; positivity
  have q1 : η * l ≤ 1 / 25 := by
    have : η ≤ 1 / (25 * (l + 1)) := hη ▸ min_le_left _ _
    rw [le_div_iff₀ (by positivity)] at this
    nlinarith
  have q2 : 25 * η * (l * ρ + b) ≤ ρ / 2 := by
    have : η ≤ ρ / 2 / (25 * (l * ρ + b + 1)) := hη ▸ (min_le_right _ _).trans (min_le_left _ _)
    rw [le_div_iff₀ (by positivity)] at this
    nlinarith
  have q3 : η * (18 * l * b * |Tm| * E) ≤ r / 2 := by
    have : η ≤ r / 2 / (18 * l * b * |Tm| * E + 1) := hη ▸ (min_le_right _ _).trans (min_le_right _ _)
    rw [le_div_iff₀ (by positivity)] at this
    nlinarith
  have q4 : (r / 2 / E + 18 * l * b * η * |Tm|) * E ≤ r := by
    have : r / 2 / E * E = r / 2 := div_mul_cancel₀ _ hE1.ne'
    nlinarith
  refine ⟨η, hη0, r / 2 / E, by positivity, fun e' hist hsc hh hT y x hs hx h0 => ?_⟩
  have hh' : ∀ h ∈ hist, 0 ≤ h.1 ∧ h.1 ≤ η ∧ Applied env e' h.2 (toFl u) := fun h hm => ⟨(hh h hm).1, (hh h hm).2.1, (applied_congr hsc).2 (hh h hm).2.2⟩
  have hpos := elapsed_nonneg env hist e' (fun h hm => (hh' h hm).1)
  have hTm0 := hpos.trans hT
  have hTm : |Tm| = Tm := abs_of_nonneg hTm0
  rw [hTm] at q4 hE
  have ht : Tube g l b Tm ρ η (r / 2 / E) φ := by
    refine ⟨⟨hl0, fun y z _ _ => ?_, fun _ _ => trivial, fun _ _ _ _ => trivial⟩, ⟨fun t ht => ?_, fun t ht => ?_, fun _ _ => trivial⟩, hb0, by positivity,
      hη0.le, q1, ?_, q2⟩
    · rw [hl, ← dist_eq_norm, ← dist_eq_norm]; exact hg.dist_le_mul y z
    · have := (hφ t ht).1
      rwa [(hin t (φ t) ht.1 ht.2 (by simpa using hρ.le)).2] at this
    · rw [hb]; exact (hB t ht).trans (le_abs_self B)
    · rw [← hE]
      exact q4.trans (hr ▸ min_le_left _ _)
  obtain ⟨y', x', g1, g2, g3⟩ := run_inside henv ht hin hist (custom_congr hsc hc) (plain_congr hsc hm) (movesWith_congr hsc hF) hh' hs hx le_rfl
    (by simpa using hT) (by simpa [allowed] using h0)
  rw [zero_add] at g3
  refine ⟨y', x', g1, g2, g3.trans (le_trans ?_ (q4.trans (hr ▸ min_le_right _ _)))⟩
  rw [allowed, hE]
  gcongr

/-! ## the library's models -/

theorem locallyLipschitzOn_of_contDiffOn {n : Nat} {f : (Fin n → ℝ) → Fin n → ℝ} {S : Set (Fin n → ℝ)} (hS : IsOpen S) (hf : ∀ x ∈ S, ContDiffAt ℝ 1 f x) :
    LocallyLipschitzOn S f := by
  intro x hx
  obtain ⟨K, t, ht, hl⟩ := (hf x hx).exists_lipschitzOnWith
  exact ⟨K, t, mem_nhdsWithin_of_mem_nhds ht, hl⟩

theorem kclip_id {lo hi : Option ℝ} {x : ℝ} (h1 : ∀ l, lo = some l → l ≤ x) (h2 : ∀ h, hi = some h → x ≤ h) : kclip lo hi x = x := by
  cases lo <;> cases hi <;> simp_all [kclip]

theorem klimit_within_id {lo hi dlo dhi : Option ℝ} {y v : ℝ} (h1 : ∀ l, lo = some l → l < y) (h2 : ∀ h, hi = some h → y < h)
    (h3 : ∀ l, dlo = some l → l ≤ v) (h4 : ∀ h, dhi = some h → v ≤ h) : klimit lo hi dlo dhi y v = v := by
  unfold klimit
  rw [if_neg, if_neg]
  · exact kclip_id h3 h4
  · rintro ⟨l, hl, h⟩; exact absurd (h1 l hl) (not_lt.2 h)
  · rintro ⟨l, hl, h⟩; exact absurd (h2 l hl) (not_lt.2 h)

/-- a model moves with its rates wherever its limits are not reached -/
theorem Realises.movesWith {n m : Nat} {e : Entity realFmt} {M : KModel ℝ n m} (h : Realises e M) (u : Fin m → ℝ) (w : Set (Fin n)) {S : Set (Fin n → ℝ)}
    {f : (Fin n → ℝ) → Fin n → ℝ} (hdom : ∀ y ∈ S, M.dom y) (hlim : ∀ y ∈ S, ∀ i, (∀ l, M.lo i = some l → l < y i) ∧ (∀ l, M.hi i = some l → y i < l))
    (hrate : ∀ y ∈ S, ∀ t, M.rate t y u = f y ∧ ∀ i, (∀ l, M.dlo i = some l → l ≤ f y i) ∧ (∀ l, M.dhi i = some l → f y i ≤ l))
    (hcent : ∀ i, M.centre i = none ∨ (M.centre i = some 0 ∧ (i ∈ w ∨ ∀ y ∈ S, -π ≤ y i ∧ y i < π)))
    (hturn : ∀ y ∈ S, ∀ y', Turned w y y' → y' ∈ S ∧ f y' = f y) : MovesWith e.dynamics u w S f := by
  have hclip : ∀ y ∈ S, (fun i => kclip (M.lo i) (M.hi i) (y i)) = y := fun y hy =>
    funext fun i => kclip_id (fun l hl => ((hlim y hy i).1 l hl).le) (fun l hl => ((hlim y hy i).2 l hl).le)
  refine ⟨fun t y hy => ?_, fun y hy => ?_, fun y hy => ?_, hturn⟩
  · have := h.dyn.liftsOn u (S := fun y => y ∈ S) hdom t y hy
    have e1 : M.field u t y = f y := by
      funext i
      obtain ⟨g1, g2⟩ := hrate y hy t
      simp only [KModel.field, g1]
      exact klimit_within_id (hlim y hy i).1 (hlim y hy i).2 (g2 i).1 (g2 i).2
    rw [e1] at this
    exact this
  · rw [npClip_toFl y h.dyn.lo h.dyn.hi, hclip y hy]
  · refine ⟨M.post π y, ?_, fun i => ?_⟩
    · have := wrap_lift pi_pos h.dyn y
      rw [hclip y hy] at this
      exact this
    · have e1 : kclip (M.lo i) (M.hi i) (y i) = y i := congrFun (hclip y hy) i
      rcases hcent i with hc | ⟨hc, hw⟩
      · left; simp [KModel.post, hc, e1]
      · have e2 : M.post π y i = y i + (-⌊(y i + π) / (2 * π)⌋ : ℤ) * (2 * π) := by
          simp only [KModel.post, hc, e1]; push_cast; ring
        rcases hw with hw | hw
        · exact .inr ⟨hw, _, e2⟩
        · left
          obtain ⟨b1, b2⟩ := hw y hy
          have : ⌊(y i + π) / (2 * π)⌋ = 0 := by
            rw [Int.floor_eq_zero_iff]
            exact ⟨div_nonneg (by linarith) (by linarith [pi_pos]), by rw [div_lt_one (by linarith [pi_pos])]; linarith⟩
          rw [e2, this]; simp

theorem Spec.Turned.eq {n : Nat} {w : Set (Fin n)} {y y' : Fin n → ℝ} (h : Turned w y y') {i : Fin n} (hi : i ∉ w) : y' i = y i := by
  rcases h i with h | ⟨h, -⟩
  · exact h
  · exact absurd h hi

theorem Spec.Turned.cos_sin {n : Nat} {w : Set (Fin n)} {y y' : Fin n → ℝ} (h : Turned w y y') (i : Fin n) : cos (y' i) = cos (y i) ∧ sin (y' i) = sin (y i) := by
  rcases h i with h | ⟨-, k, h⟩
  · rw [h]; exact ⟨rfl, rfl⟩
  · rw [h]; exact ⟨cos_add_int_mul_two_pi _ _, sin_add_int_mul_two_pi _ _⟩

/-- C99: **the Dubins aircraft** follows every solution of its equations of motion that stays strictly within its speed limits. -/
theorem C99_dubins2d (env : Env realFmt) (henv : IsRk dopri env) (args : Dubins2dArgs realFmt) (p : Dubins2dParams ℝ) (hp : p.Of args) (e : Entity realFmt)
    (h0 : newDubins2d env args = .ok e) (hm : PlainMethod e.dynamics) (u : Fin 2 → ℝ) (Tm : ℝ) (φ : ℝ → Fin 4 → ℝ)
    (hφ : ∀ t ∈ Set.Icc 0 Tm, HasDerivWithinAt φ ![φ t 3 * cos (φ t 2), φ t 3 * sin (φ t 2), u 0, u 1] (Set.Icc 0 Tm) t ∧ p.vMin < φ t 3 ∧ φ t 3 < p.vMax) :
    Tracks env e u {2} Tm φ := by
  have hr := dubins2d_realised hp h0
  have hS : IsOpen {y : Fin 4 → ℝ | p.vMin < y 3 ∧ y 3 < p.vMax} :=
    (isOpen_lt continuous_const (continuous_apply 3)).inter (isOpen_lt (continuous_apply 3) continuous_const)
  refine C99_tracks env henv e hr.dyn.custom hm u {2} {y | p.vMin < y 3 ∧ y 3 < p.vMax} hS
    (fun y => ![y 3 * cos (y 2), y 3 * sin (y 2), u 0, u 1]) (hr.movesWith u {2} ?_ ?_ ?_ ?_ ?_) (locallyLipschitzOn_of_contDiffOn hS fun x _ => ?_) Tm φ hφ
  · intro y _; trivial
  · intro y hy i
    fin_cases i <;> simp [dubins2dModel]
    exact hy
  · intro y _ t
    refine ⟨rfl, fun i => ?_⟩
    simp [dubins2dModel]
  · intro i
    fin_cases i <;> simp [dubins2dModel]
  · intro y hy y' hw
    have e3 : y' 3 = y 3 := hw.eq (by simp)
    obtain ⟨c, s⟩ := hw.cos_sin 2
    refine ⟨?_, by simp only [e3, c, s]⟩
    simpa only [Set.mem_setOf_eq, e3] using hy
  · apply ContDiff.contDiffAt
    rw [contDiff_pi]
    intro i
    fin_cases i <;> simp <;> fun_prop

/-- C99: **the 3D Dubins aircraft** follows every solution of its equations of motion that stays strictly within its limits of speed, flight path angle and
roll (where they are angles between `-π` and `π`), at speeds other than zero and rolls other than a right angle. -/
theorem C99_dubins3d (env : Env realFmt) (henv : IsRk dopri env) (args : Dubins3dArgs realFmt) (p : Dubins3dParams ℝ) (hp : p.Of args)
    (hg : -π ≤ p.gammaMin ∧ p.gammaMax ≤ π) (hro : -π ≤ p.rollMin ∧ p.rollMax ≤ π) (e : Entity realFmt) (h0 : newDubins3d env args = .ok e)
    (hm : PlainMethod e.dynamics) (u : Fin 3 → ℝ) (Tm : ℝ) (φ : ℝ → Fin 7 → ℝ)
    (hφ : ∀ t ∈ Set.Icc 0 Tm, HasDerivWithinAt φ ![φ t 6 * cos (φ t 3) * cos (φ t 4), φ t 6 * sin (φ t 3) * cos (φ t 4), -(φ t 6 * sin (φ t 4)),
        32.17 / φ t 6 * tan (φ t 5), u 0, u 1, u 2] (Set.Icc 0 Tm) t ∧
      (p.gammaMin < φ t 4 ∧ φ t 4 < p.gammaMax) ∧ (p.rollMin < φ t 5 ∧ φ t 5 < p.rollMax) ∧ (p.vMin < φ t 6 ∧ φ t 6 < p.vMax) ∧
      φ t 6 ≠ 0 ∧ cos (φ t 5) ≠ 0) : Tracks env e u {3} Tm φ := by
  have hr := dubins3d_realised hp h0
  have hS : IsOpen {y : Fin 7 → ℝ | (p.gammaMin < y 4 ∧ y 4 < p.gammaMax) ∧ (p.rollMin < y 5 ∧ y 5 < p.rollMax) ∧ (p.vMin < y 6 ∧ y 6 < p.vMax) ∧
      y 6 ≠ 0 ∧ cos (y 5) ≠ 0} := by
    have hb : ∀ (i : Fin 7) (a b : ℝ), IsOpen {y : Fin 7 → ℝ | a < y i ∧ y i < b} := fun i a b =>
      (isOpen_lt continuous_const (continuous_apply i)).inter (isOpen_lt (continuous_apply i) continuous_const)
    exact (hb 4 _ _).inter ((hb 5 _ _).inter ((hb 6 _ _).inter ((isOpen_ne_fun (continuous_apply 6) continuous_const).inter
      (isOpen_ne_fun (continuous_cos.comp (continuous_apply 5)) continuous_const))))
  refine C99_tracks env henv e hr.dyn.custom hm u {3} _ hS
    (fun y => ![y 6 * cos (y 3) * cos (y 4), y 6 * sin (y 3) * cos (y 4), -(y 6 * sin (y 4)), 32.17 / y 6 * tan (y 5), u 0, u 1, u 2])
    (hr.movesWith u {3} ?_ ?_ ?_ ?_ ?_) (locallyLipschitzOn_of_contDiffOn hS fun x hx => ?_) Tm φ hφ
  · intro y hy; exact hy.2.2.2.1
  · intro y hy i
    obtain ⟨h4, h5, h6, -⟩ := hy
    fin_cases i <;> simp [dubins3dModel] <;> assumption
  · intro y _ t
    refine ⟨?_, fun i => ?_⟩
    · have : (32.17 : ℝ) = 3217 / 100 := by norm_num
      rw [this]; rfl
    · simp [dubins3dModel]
  · intro i
    fin_cases i <;> simp [dubins3dModel]
    · intros; exact ⟨by linarith, by linarith⟩
    · intros; exact ⟨by linarith, by linarith⟩
  · intro y hy y' hw
    have e4 : y' 4 = y 4 := hw.eq (by simp)
    have e5 : y' 5 = y 5 := hw.eq (by simp)
    have e6 : y' 6 = y 6 := hw.eq (by simp)
    obtain ⟨c, s⟩ := hw.cos_sin 3
    refine ⟨?_, by simp only [e4, e5, e6, c, s]⟩
    simpa only [Set.mem_setOf_eq, e4, e5, e6] using hy
  · obtain ⟨-, -, -, h6, hc⟩ := hx
    rw [contDiffAt_pi]
    intro i
    have ht : ContDiffAt ℝ 1 (fun y : Fin 7 → ℝ => tan (y 5)) x := 
      ContDiffAt.comp (g := tan) (f := fun y : Fin 7 → ℝ => y 5) x (contDiffAt_tan.2 hc) (by fun_prop)
    fin_cases i <;> simp
    · fun_prop
    · fun_prop
    · fun_prop
    · exact ContDiffAt.mul (ContDiffAt.div contDiffAt_const (by fun_prop) h6) ht
    · fun_prop
    · fun_prop
    · fun_prop

/-- C99: **the rotating 2D spacecraft** follows every solution of its equations of motion that stays strictly within its limit of angular velocity, for every
control within its limits. -/
theorem C99_rot2d (env : Env realFmt) (henv : IsRk dopri env) (args : Rot2dArgs realFmt) (p : Rot2dParams ℝ) (hp : p.Of args) (e : Entity realFmt)
    (h0 : newRot2d env args = .ok e) (hm : PlainMethod e.dynamics) (u : Fin 3 → ℝ) (hu : |u 2 / p.inertia| ≤ p.accLimit) (Tm : ℝ) (φ : ℝ → Fin 6 → ℝ)
    (hφ : ∀ t ∈ Set.Icc 0 Tm, HasDerivWithinAt φ ![φ t 3, φ t 4, φ t 5,
        3 * p.n ^ 2 * φ t 0 + 2 * p.n * φ t 4 + (cos (φ t 2) * u 0 - sin (φ t 2) * u 1) / p.m,
        -2 * p.n * φ t 3 + (sin (φ t 2) * u 0 + cos (φ t 2) * u 1) / p.m, u 2 / p.inertia] (Set.Icc 0 Tm) t ∧
      |φ t 5| < p.velLimit) : Tracks env e u {2} Tm φ := by
  obtain ⟨hr, -⟩ := rot2d_realised hp h0
  have hS : IsOpen {y : Fin 6 → ℝ | |y 5| < p.velLimit} := isOpen_lt (by fun_prop) continuous_const
  refine C99_tracks env henv e hr.dyn.custom hm u {2} _ hS
    (fun y => ![y 3, y 4, y 5, 3 * p.n ^ 2 * y 0 + 2 * p.n * y 4 + (cos (y 2) * u 0 - sin (y 2) * u 1) / p.m,
      -2 * p.n * y 3 + (sin (y 2) * u 0 + cos (y 2) * u 1) / p.m, u 2 / p.inertia])
    (hr.movesWith u {2} ?_ ?_ ?_ ?_ ?_) (locallyLipschitzOn_of_contDiffOn hS fun x _ => ?_) Tm φ hφ
  · intro y _; trivial
  · intro y hy i
    have := abs_lt.1 (show |y 5| < p.velLimit from hy)
    fin_cases i <;> simp [rot2dModel] <;> assumption
  · intro y hy t
    have h5 := abs_lt.1 (show |y 5| < p.velLimit from hy)
    have h2 := abs_le.1 hu
    refine ⟨rfl, fun i => ?_⟩
    fin_cases i <;> simp [rot2dModel]
    · exact ⟨h5.1.le, h5.2.le⟩
    · exact h2
  · intro i
    fin_cases i <;> simp [rot2dModel]
  · intro y hy y' hw
    have e0 : y' 0 = y 0 := hw.eq (by simp)
    have e3 : y' 3 = y 3 := hw.eq (by simp)
    have e4 : y' 4 = y 4 := hw.eq (by simp)
    have e5 : y' 5 = y 5 := hw.eq (by simp)
    obtain ⟨c, s⟩ := hw.cos_sin 2
    refine ⟨?_, by simp only [e0, e3, e4, e5, c, s]⟩
    simpa only [Set.mem_setOf_eq, e5] using hy
  · apply ContDiff.contDiffAt
    rw [contDiff_pi]
    intro i
    fin_cases i <;> simp <;> fun_prop

/-- the thrust vector `f`, turned by the quaternion `q` (scalar last) from the body frame to Hill's frame -/
def Spec.turnedThrust (q0 q1 q2 q3 f0 f1 f2 : ℝ) : Fin 3 → ℝ :=
  ![(q3 ^ 2 + q0 ^ 2 - q1 ^ 2 - q2 ^ 2) * f0 + 2 * (q0 * q1 - q2 * q3) * f1 + 2 * (q0 * q2 + q1 * q3) * f2,
    2 * (q0 * q1 + q2 * q3) * f0 + (q3 ^ 2 - q0 ^ 2 + q1 ^ 2 - q2 ^ 2) * f1 + 2 * (q1 * q2 - q0 * q3) * f2,
    2 * (q0 * q2 - q1 * q3) * f0 + 2 * (q1 * q2 + q0 * q3) * f1 + (q3 ^ 2 - q0 ^ 2 - q1 ^ 2 + q2 ^ 2) * f2]

/-- Clohessy-Wiltshire motion, quaternion kinematics and Euler's equations of a rigid body with principal moments `I`, thrust in Hill's frame or the body frame -/
noncomputable def Spec.rigidBody (m n : ℝ) (I : Fin 3 → ℝ) (body : Bool) (u : Fin 6 → ℝ) (y : Fin 13 → ℝ) : Fin 13 → ℝ :=
  let F : Fin 3 → ℝ := if body then turnedThrust (y 3) (y 4) (y 5) (y 6) (u 0) (u 1) (u 2) else ![u 0, u 1, u 2]
  ![y 7, y 8, y 9,
    (y 6 * y 10 - y 5 * y 11 + y 4 * y 12) / 2, (y 5 * y 10 + y 6 * y 11 - y 3 * y 12) / 2,
    (-y 4 * y 10 + y 3 * y 11 + y 6 * y 12) / 2, (-y 3 * y 10 - y 4 * y 11 - y 5 * y 12) / 2,
    3 * n ^ 2 * y 0 + 2 * n * y 8 + F 0 / m, -2 * n * y 7 + F 1 / m, -n ^ 2 * y 2 + F 2 / m,
    ((I 1 - I 2) * y 11 * y 12 + u 3) / I 0, ((I 2 - I 0) * y 10 * y 12 + u 4) / I 1, ((I 0 - I 1) * y 10 * y 11 + u 5) / I 2]

/-- C99: **the 6DOF spacecraft** follows every solution of its equations of motion that stays strictly within its limits of angular velocity. -/
theorem C99_sixdof (env : Env realFmt) (henv : IsRk dopri env) (uninit : List Nat → Vec realFmt) (args : SixDofArgs realFmt) (p : SixDofParams ℝ)
    (hp : p.Of args) (hI : ∀ i, p.inertia i i ≠ 0) (e : Entity realFmt) (h0 : newSixDof env uninit args = .ok e) (hm : PlainMethod e.dynamics)
    (u : Fin 6 → ℝ) (Tm : ℝ) (φ : ℝ → Fin 13 → ℝ)
    (hφ : ∀ t ∈ Set.Icc 0 Tm, HasDerivWithinAt φ (rigidBody p.m p.n (fun i => p.inertia i i) args.bodyFrameThrust u (φ t)) (Set.Icc 0 Tm) t ∧
      |φ t 10| < p.velLimit 0 ∧ |φ t 11| < p.velLimit 1 ∧ |φ t 12| < p.velLimit 2) : Tracks env e u ∅ Tm φ := by
  obtain ⟨hr, -⟩ := sixDof_realised hp hI h0
  have hb : ∀ (i : Fin 13) (a : ℝ), IsOpen {y : Fin 13 → ℝ | |y i| < a} := fun i a => isOpen_lt (by fun_prop) continuous_const
  have hS : IsOpen {y : Fin 13 → ℝ | |y 10| < p.velLimit 0 ∧ |y 11| < p.velLimit 1 ∧ |y 12| < p.velLimit 2} :=
    (hb 10 _).inter ((hb 11 _).inter (hb 12 _))
  have hF : MovesWith e.dynamics u ∅ {y : Fin 13 → ℝ | |y 10| < p.velLimit 0 ∧ |y 11| < p.velLimit 1 ∧ |y 12| < p.velLimit 2}
      (rigidBody p.m p.n (fun i => p.inertia i i) args.bodyFrameThrust u) := by
    refine hr.movesWith u ∅ ?_ ?_ ?_ ?_ ?_
    · intro y _; trivial
    · intro y hy i
      obtain ⟨h1, h2, h3⟩ := hy
      have h1 := abs_lt.1 h1
      have h2 := abs_lt.1 h2
      have h3 := abs_lt.1 h3
      fin_cases i <;> simp [sixDofModel] <;> assumption
    · intro y hy t
      refine ⟨?_, fun i => by simp [sixDofModel]⟩
      rw [show (sixDofModel p args.bodyFrameThrust).rate t y u = sixDofRate p.m p.n (fun i => p.inertia i i) args.bodyFrameThrust y u from rfl]
      simp only [sixDofRate, rigidBody, hillThrust, krot, turnedThrust]
      cases args.bodyFrameThrust <;> simp
    · intro i; exact .inl rfl
    · intro y hy y' hw
      have : y' = y := funext fun i => hw.eq (by simp)
      rw [this]; exact ⟨hy, rfl⟩
  refine C99_tracks env henv e hr.dyn.custom hm u ∅ _ hS _ hF (locallyLipschitzOn_of_contDiffOn hS fun x _ => ?_) Tm φ hφ
  apply ContDiff.contDiffAt
  rw [contDiff_pi]
  intro i
  cases args.bodyFrameThrust <;> fin_cases i <;> simp [rigidBody, turnedThrust] <;> fun_prop

/-! ## controls that change -/

/-- a stretch of a flight: the control, how long it is held, and the motion meanwhile -/
structure Spec.Stretch (n m : Nat) where
  control : Fin m → ℝ
  time : ℝ
  motion : ℝ → Fin n → ℝ

/-- the stretches follow each other, from `a` to `b` -/
def Spec.Joined {n m : Nat} : List (Stretch n m) → (Fin n → ℝ) → (Fin n → ℝ) → Prop
  | [], a, b => b = a
  | p :: ps, a, b => p.motion 0 = a ∧ Joined ps (p.motion p.time) b

/-- an entity is flown along the stretches, in calls of at most `η` seconds: for each a history of calls that apply its control and take its time -/
def Spec.Flown {n m : Nat} (env : Env realFmt) (η : ℝ) : Entity realFmt → List (Stretch n m) → List (List (ℝ × Action realFmt)) → Prop
  | _, [], [] => True
  | e, p :: ps, h :: hs => (∀ c ∈ h, 0 ≤ c.1 ∧ c.1 ≤ η ∧ Applied env e c.2 (toFl p.control)) ∧ elapsed env e h = p.time ∧
      Flown env η (e.run env (stepsOf h)) ps hs
  | _, _, _ => False

theorem sameConfig_trans {a b c : Entity realFmt} (h1 : SameConfig a b) (h2 : SameConfig b c) : SameConfig a c := by
  obtain ⟨a1, a2, a3, a4, a5, a6⟩ := h1
  obtain ⟨b1, b2, b3, b4, b5, b6⟩ := h2
  refine ⟨b1.trans a1, b2.trans a2, b3.trans a3, b4.trans a4, b5.trans a5, ?_⟩
  rw [← a6, ← b6]

theorem flown_mono {n m : Nat} {env : Env realFmt} {η η' : ℝ} (hη : η ≤ η') : ∀ {ps : List (Stretch n m)} {hs : List (List (ℝ × Action realFmt))}
    {e : Entity realFmt}, Flown env η e ps hs → Flown env η' e ps hs
  | [], [], _, _ => trivial
  | [], _ :: _, _, h => h.elim
  | _ :: _, [], _, h => h.elim
  | p :: ps, h :: hs, e, ⟨h1, h2, h3⟩ => ⟨fun c hc => ⟨(h1 c hc).1, (h1 c hc).2.1.trans hη, (h1 c hc).2.2⟩, h2, flown_mono hη h3⟩

theorem run_stepsOf_append (env : Env realFmt) (e : Entity realFmt) (a b : List (ℝ × Action realFmt)) :
    e.run env (stepsOf (a ++ b)) = (e.run env (stepsOf a)).run env (stepsOf b) := by
  simp [stepsOf, Entity.run, List.foldl_append]

/-- C99: so, for any number of changes of the control: for every tolerance, short enough calls that start near enough end within it. -/
theorem C99_stretches {n m : Nat} (env : Env realFmt) (e : Entity realFmt) (w : Set (Fin n)) (ps : List (Stretch n m)) (a b : Fin n → ℝ)
    (hj : Joined ps a b) (hp : ∀ p ∈ ps, Tracks env e p.control w p.time p.motion) (ε : ℝ) (hε : 0 < ε) :
    ∃ η > 0, ∃ δ > 0, ∀ (e' : Entity realFmt) (hists : List (List (ℝ × Action realFmt))), SameConfig e e' → Flown env η e' ps hists →
      ∀ y x : Fin n → ℝ, e'.state = toFl y → Turned w x y → ‖x - a‖ ≤ δ →
      ∃ y' x' : Fin n → ℝ, (e'.run env (stepsOf hists.flatten)).state = toFl y' ∧ Turned w x' y' ∧ ‖x' - b‖ ≤ ε := by
  induction ps generalizing a with
  | nil =>
    refine ⟨1, one_pos, ε, hε, fun e' hists _ hf y x hs hx h => ?_⟩
    cases hists with
    | nil => exact ⟨y, x, hs, hx, by rw [show b = a from hj]; exact h⟩
    | cons _ _ => exact hf.elim
  | cons p ps ih =>
    obtain ⟨ha, hj⟩ := hj
    obtain ⟨η2, hη2, δ2, hδ2, h2⟩ := ih _ hj (fun q hq => hp q (by simp [hq]))
    obtain ⟨η1, hη1, δ1, hδ1, h1⟩ := hp p (by simp) δ2 hδ2
    refine ⟨min η1 η2, lt_min hη1 hη2, δ1, hδ1, fun e' hists hsc hf y x hs hx h => ?_⟩
    cases hists with
    | nil => exact hf.elim
    | cons hh hists =>
      obtain ⟨f1, f2, f3⟩ := hf
      obtain ⟨y1, x1, g1, g2, g3⟩ := h1 e' hh hsc (fun c hc => ⟨(f1 c hc).1, (f1 c hc).2.1.trans (min_le_left _ _), (applied_congr hsc).1 (f1 c hc).2.2⟩)
        f2.le y x hs hx (by rw [ha]; exact h)
      rw [f2] at g3
      have hsc' := sameConfig_trans hsc (run_sameConfig env (stepsOf hh) e')
      obtain ⟨y2, x2, k1, k2, k3⟩ := h2 _ hists hsc' (flown_mono (min_le_right _ _) f3) y1 x1 g1 g2 g3
      exact ⟨y2, x2, by rw [List.flatten_cons, run_stepsOf_append]; exact k1, k2, k3⟩

/-! ## examples -/

/-- an aircraft that circles at 300 ft/s: the hypotheses of `C99_dubins2d` are met, and so are those of `C99_tracks` -/
example : ∃ (e : Entity realFmt) (φ : ℝ → Fin 4 → ℝ), newDubins2d (rkEnv dopri (fun _ _ _ => [1, 2]))
      { headingRateMin := -1, headingRateMax := 1, accMin := -96, accMax := 96, kwargs := [("name", .str "a"), ("heading", .num 1)] } = .ok e ∧
    PlainMethod e.dynamics ∧ (∀ t, φ t = ![300 * sin t, -300 * cos t, t, 300]) ∧ Applied (rkEnv dopri (fun _ _ _ => [1, 2])) e (.ndarray .f64 [.fin 1, .fin 0]) (toFl ![1, 0]) ∧
    ∀ t ∈ Set.Icc (0 : ℝ) 100, HasDerivWithinAt φ ![φ t 3 * cos (φ t 2), φ t 3 * sin (φ t 2), (![1, 0] : Fin 2 → ℝ) 0, (![1, 0] : Fin 2 → ℝ) 1] (Set.Icc 0 100) t ∧
      200 < φ t 3 ∧ φ t 3 < 400 := by
  refine ⟨_, fun t => ![300 * sin t, -300 * cos t, t, 300], rfl, .inl rfl, fun _ => rfl, ?_, fun t _ => ⟨?_, by simp; norm_num, by simp; norm_num⟩⟩
  · refine applied_iff.2 ⟨.f64, [.fin 1, .fin 0], rfl, ?_⟩
    have h96 : (96 : Fl realFmt) = .fin 96 := Fl.ofNat_fin 96
    have h1 : (1 : Fl realFmt) = .fin 1 := Fl.one_fin
    show npClip [.fin 1, .fin 0] (.vec [-1, -96]) (.vec [1, 96]) = _
    rw [h96, h1]
    have := npClip_toFl (R := realFmt) (lo := .vec [-.fin 1, -.fin 96]) (hi := .vec [.fin 1, .fin 96]) (l := ![some (-1), some (-96)]) (h := ![some 1, some 96])
      ![1, 0] (.inl (by simp [loFl, List.ofFn_succ])) (.inl (by simp [hiFl, List.ofFn_succ]))
    rw [show ([.fin 1, .fin 0] : Vec realFmt) = toFl ![1, 0] by simp [toFl, List.ofFn_succ], this]
    congr 2
    funext i
    fin_cases i <;> simp [kclip]
  · apply HasDerivAt.hasDerivWithinAt
    rw [hasDerivAt_pi]
    intro i
    fin_cases i <;> simp
    · exact (hasDerivAt_sin t).const_mul 300
    · exact ((hasDerivAt_cos t).const_mul 300).neg.congr_deriv (by ring)
    · exact hasDerivAt_id t
    · exact hasDerivAt_const t _

/-- a banked aircraft in a level turn: the hypotheses of `C99_dubins3d` -/
example : ∃ (e : Entity realFmt) (φ : ℝ → Fin 7 → ℝ) (ω : ℝ), ω ≠ 0 ∧ newDubins3d (rkEnv dopri (fun _ _ _ => [1, 2]))
      { gammaMin := -1, gammaMax := 1, rollMin := -2, rollMax := 2, gammaRateMin := -1, gammaRateMax := 1
        rollRateMin := -1, rollRateMax := 1, accMin := -1, accMax := 1, kwargs := [("name", .str "a")] } = .ok e ∧
    PlainMethod e.dynamics ∧ (∀ t, φ t = ![300 / ω * sin (ω * t), -300 / ω * cos (ω * t), 0, ω * t, 0, 1, 300]) ∧ -π ≤ -2 ∧ 2 ≤ π ∧
    ∀ t ∈ Set.Icc (0 : ℝ) 100, HasDerivWithinAt φ ![φ t 6 * cos (φ t 3) * cos (φ t 4), φ t 6 * sin (φ t 3) * cos (φ t 4), -(φ t 6 * sin (φ t 4)),
        32.17 / φ t 6 * tan (φ t 5), (0 : Fin 3 → ℝ) 0, (0 : Fin 3 → ℝ) 1, (0 : Fin 3 → ℝ) 2] (Set.Icc 0 100) t ∧
      (-1 < φ t 4 ∧ φ t 4 < 1) ∧ (-2 < φ t 5 ∧ φ t 5 < 2) ∧ (200 < φ t 6 ∧ φ t 6 < 400) ∧ φ t 6 ≠ 0 ∧ cos (φ t 5) ≠ 0 := by
  have h3 := pi_gt_three
  have ht : 0 < tan 1 := tan_pos_of_pos_of_lt_pi_div_two (by norm_num) (by linarith)
  obtain ⟨ω, hω⟩ : ∃ ω : ℝ, ω = 32.17 / 300 * tan 1 := ⟨_, rfl⟩
  have hω0 : ω ≠ 0 := by rw [hω]; positivity
  refine ⟨_, fun t => ![300 / ω * sin (ω * t), -300 / ω * cos (ω * t), 0, ω * t, 0, 1, 300], ω, hω0, rfl, .inl rfl, fun _ => rfl, by linarith, by linarith,
    fun t _ => ⟨?_, by simp, by simp; norm_num, by simp; norm_num, by simp, ?_⟩⟩
  · apply HasDerivAt.hasDerivWithinAt
    rw [hasDerivAt_pi]
    have hid : HasDerivAt (fun t : ℝ => ω * t) ω t := by simpa using (hasDerivAt_id t).const_mul ω
    intro i
    fin_cases i <;> simp
    · refine (((hasDerivAt_sin (ω * t)).comp t hid).const_mul (300 / ω)).congr_deriv ?_
      field_simp
    · refine (((hasDerivAt_cos (ω * t)).comp t hid).const_mul (-300 / ω)).congr_deriv ?_
      field_simp
    · exact hasDerivAt_const t _
    · rw [← hω]; exact hid
    · exact hasDerivAt_const t _
    · exact hasDerivAt_const t _
    · exact hasDerivAt_const t _
  · simp
    exact (cos_pos_of_mem_Ioo ⟨by linarith, by linarith⟩).ne'

/-- a spacecraft that starts to turn: the hypotheses of `C99_rot2d` -/
example : ∃ (e : Entity realFmt) (φ : ℝ → Fin 6 → ℝ), newRot2d (rkEnv dopri (fun _ _ _ => [1])) (Demo.jaxArgs "RK45" false) = .ok e ∧
    Demo.jaxParams.Of (Demo.jaxArgs "RK45" false) ∧ PlainMethod e.dynamics ∧ (∀ t, φ t = ![0, 0, t ^ 2 / 4, 0, 0, t / 2]) ∧
    |(![0, 0, 1 / 2] : Fin 3 → ℝ) 2 / Demo.jaxParams.inertia| ≤ Demo.jaxParams.accLimit ∧
    ∀ t ∈ Set.Icc (0 : ℝ) 1, HasDerivWithinAt φ ![φ t 3, φ t 4, φ t 5,
        3 * Demo.jaxParams.n ^ 2 * φ t 0 + 2 * Demo.jaxParams.n * φ t 4 + (cos (φ t 2) * (![0, 0, 1 / 2] : Fin 3 → ℝ) 0 - sin (φ t 2) * (![0, 0, 1 / 2] : Fin 3 → ℝ) 1) / Demo.jaxParams.m,
        -2 * Demo.jaxParams.n * φ t 3 + (sin (φ t 2) * (![0, 0, 1 / 2] : Fin 3 → ℝ) 0 + cos (φ t 2) * (![0, 0, 1 / 2] : Fin 3 → ℝ) 1) / Demo.jaxParams.m,
        (![0, 0, 1 / 2] : Fin 3 → ℝ) 2 / Demo.jaxParams.inertia] (Set.Icc 0 1) t ∧ |φ t 5| < Demo.jaxParams.velLimit := by
  obtain ⟨e, h⟩ := Demo.jax_rot2d (rkEnv dopri (fun _ _ _ => [1])) false rfl "RK45"
  obtain ⟨-, -, -, hm, -⟩ := rot2d_realised (Demo.jaxParams_of _ _) h
  have hv : Demo.jaxParams.velLimit = 1 := by simp [Demo.jaxParams, Rot2dParams.velLimit]
  have ha : Demo.jaxParams.accLimit = 1 := by simp [Demo.jaxParams, Rot2dParams.accLimit]
  refine ⟨e, fun t => ![0, 0, t ^ 2 / 4, 0, 0, t / 2], h, Demo.jaxParams_of _ _, .inl hm, fun _ => rfl, ?_, fun t ht => ⟨?_, ?_⟩⟩
  · rw [ha]; simp [Demo.jaxParams]; norm_num
  · apply HasDerivAt.hasDerivWithinAt
    rw [hasDerivAt_pi]
    intro i
    fin_cases i <;> simp [Demo.jaxParams]
    · exact hasDerivAt_const t _
    · exact hasDerivAt_const t _
    · exact (((hasDerivAt_id t).pow 2).div_const 4).congr_deriv (by simp; ring)
    · exact hasDerivAt_const t _
    · exact hasDerivAt_const t _
    · exact ((hasDerivAt_id t).div_const 2).congr_deriv (by simp)
  · rw [hv]
    simp only [Matrix.cons_val]
    rw [abs_lt]
    exact ⟨by linarith [ht.1], by linarith [ht.2]⟩

/-- a spacecraft that spins about its first axis and drifts ahead in its orbit: the differential equation of `C99_sixdof` -/
example (m n ω : ℝ) (I : Fin 3 → ℝ) (body : Bool) (t : ℝ) :
    HasDerivAt (fun t => ![0, 7, 0, sin (ω / 2 * t), 0, 0, cos (ω / 2 * t), 0, 0, 0, ω, 0, 0])
      (rigidBody m n I body 0 ![0, 7, 0, sin (ω / 2 * t), 0, 0, cos (ω / 2 * t), 0, 0, 0, ω, 0, 0]) t := by
  have hid : HasDerivAt (fun t : ℝ => ω / 2 * t) (ω / 2) t := by simpa using (hasDerivAt_id t).const_mul (ω / 2)
  rw [hasDerivAt_pi]
  intro i
  have hF : (if body then turnedThrust (sin (ω / 2 * t)) 0 0 (cos (ω / 2 * t)) 0 0 0 else ![0, 0, 0]) = (0 : Fin 3 → ℝ) := by
    funext j
    cases body <;> fin_cases j <;> simp [turnedThrust]
  fin_cases i <;> simp [rigidBody, hF] <;> try exact hasDerivAt_const t _
  · exact ((hasDerivAt_sin _).comp t hid).congr_deriv (by ring)
  · exact ((hasDerivAt_cos _).comp t hid).congr_deriv (by ring)

/-- a flight of two stretches: straight ahead for a second, then a turn -/
example : Joined [⟨![0, 0], 1, fun t => ![300 * t, 0, 0, 300]⟩, ⟨![1, 0], 2, fun t => ![300 + 300 * sin t, 300 - 300 * cos t, t, 300]⟩]
    (![0, 0, 0, 300] : Fin 4 → ℝ) ![300 + 300 * sin 2, 300 - 300 * cos 2, 2, 300] := by
  simp [Spec.Joined]

end SAD
