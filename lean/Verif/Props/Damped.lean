import Verif.Props.Reach
import Mathlib.Tactic.LinearCombination
import Mathlib.Algebra.Order.Archimedean.Basic

/-!
# C101: damped integrators
-/

set_option linter.unusedSectionVars false

namespace SAD
open Spec

section
variable {K : Type} {R : Fmt K} [Field K] [LinearOrder K] [IsStrictOrderedRing K] [FloorRing K] [Exact R] {n m : Nat}

/-- what one Runge–Kutta step makes of a decaying quantity -/
def decay (x : K) : K := 1 - x + x ^ 2 / 2 - x ^ 3 / 6 + x ^ 4 / 24 - x ^ 5 / 120 + x ^ 6 / 600

theorem kdopri_decay (c a t h v : K) (hc : c ≠ 0) :
    rkStep kdopri (fun _ v => -c * v + a) t h v = a / c + decay (c * h) * (v - a / c) := by
  obtain ⟨w, rfl⟩ : ∃ w, a = c * w := ⟨a / c, by field_simp⟩
  rw [mul_div_cancel_left₀ _ hc]
  simp only [rkStep, kdopri, rkStages, combo, List.zip_cons_cons, List.zip_nil_right, List.foldl_cons, List.foldl_nil, List.cons_append, List.nil_append,
    smul_eq_mul, decay]
  ring

theorem keuler_decay (c a t h v : K) (hc : c ≠ 0) :
    rkStep keuler (fun _ v => -c * v + a) t h v = a / c + (1 - c * h) * (v - a / c) := by
  obtain ⟨w, rfl⟩ : ∃ w, a = c * w := ⟨a / c, by field_simp⟩
  rw [mul_div_cancel_left₀ _ hc]
  simp only [rkStep, keuler, rkStages, combo, List.zip_cons_cons, List.zip_nil_right, List.foldl_cons, List.foldl_nil, smul_eq_mul]
  ring

theorem decay_nonneg {x : K} (h0 : 0 ≤ x) (h2 : x ≤ 2) : 0 ≤ decay x := by
  unfold decay
  nlinarith [sq_nonneg (x ^ 3 - 5 / 2 * x ^ 2), sq_nonneg (x ^ 2 - 2 * x), sq_nonneg (x - 1), mul_nonneg h0 (sub_nonneg.2 h2), sq_nonneg (x ^ 2),
    mul_nonneg (mul_nonneg h0 h0) (sub_nonneg.2 h2), sq_nonneg x]

theorem decay_le {x : K} (h0 : 0 ≤ x) (h2 : x ≤ 2) : decay x * (1 + x) ≤ 1 := by
  have e : decay x * (1 + x) = 1 - x ^ 2 * (1 / 2 - x / 3 + x ^ 2 / 8 - x ^ 3 / 30 + x ^ 4 / 150 - x ^ 5 / 600) := by unfold decay; ring
  rw [e]
  have : 0 ≤ x ^ 2 * (1 / 2 - x / 3 + x ^ 2 / 8 - x ^ 3 / 30 + x ^ 4 / 150 - x ^ 5 / 600) := by
    apply mul_nonneg (sq_nonneg x)
    have h4 : 0 ≤ x ^ 4 / 150 - x ^ 5 / 600 := by
      have : x ^ 4 / 150 - x ^ 5 / 600 = x ^ 4 * (4 - x) / 600 := by ring
      rw [this]
      have : 0 ≤ 4 - x := by linarith
      positivity
    nlinarith [mul_nonneg h0 (sub_nonneg.2 h2), mul_nonneg (mul_nonneg h0 h0) (sub_nonneg.2 h2), sq_nonneg (x - 1), sq_nonneg (x - 2), sq_nonneg x]
  linarith

/-- successive decays -/
theorem decay_mul {q1 q2 a b : K} (ha : 0 ≤ a) (hb : 0 ≤ b) (h1 : 0 ≤ q1) (h2 : q1 * (1 + a) ≤ 1) (h3 : 0 ≤ q2) (h4 : q2 * (1 + b) ≤ 1) :
    0 ≤ q2 * q1 ∧ q2 * q1 * (1 + (a + b)) ≤ 1 := by
  refine ⟨mul_nonneg h3 h1, ?_⟩
  have e := mul_le_mul h2 h4 (by positivity) zero_le_one
  have : 0 ≤ q2 * q1 * (a * b) := by positivity
  linarith

/-- a decaying quantity over a list of steps: the factor does not depend on the rate it settles at -/
theorem chain_decay {tab : KTab K} {c : K} (ρ : K → K)
    (hstep : ∀ a t h v, rkStep tab (fun _ v => -c * v + a) t h v = a / c + ρ (c * h) * (v - a / c))
    (hc : 0 ≤ c) (hs : List K) : (∀ h ∈ hs, 0 ≤ h ∧ 0 ≤ ρ (c * h) ∧ ρ (c * h) * (1 + c * h) ≤ 1) →
    ∃ q, 0 ≤ q ∧ q * (1 + c * hs.sum) ≤ 1 ∧ ∀ a t v, rkChain tab (fun _ v => -c * v + a) t v hs = a / c + q * (v - a / c) := by
  induction hs with
  | nil => intro _; exact ⟨1, zero_le_one, by simp, fun a t v => by simp [rkChain]⟩
  | cons h hs ih =>
    intro hh
    obtain ⟨q, q0, q1, hq⟩ := ih (fun g hg => hh g (by simp [hg]))
    obtain ⟨p0, p1, p2⟩ := hh h (by simp)
    have hsum : 0 ≤ hs.sum := List.sum_nonneg (fun g hg => (hh g (by simp [hg])).1)
    obtain ⟨m1, m2⟩ := decay_mul (mul_nonneg hc p0) (mul_nonneg hc hsum) p1 p2 q0 q1
    refine ⟨_, m1, by rw [List.sum_cons, mul_add c]; exact m2, fun a t v => ?_⟩
    simp only [rkChain]
    rw [hq, hstep]
    ring

/-- the steps of one call are short enough for the damping `c` -/
def Gentle (R : Fmt K) (d : Dyn R) (c T : K) : Prop := 0 ≤ T ∧ c * T ≤ if d.integrationMethod = "Euler" then 1 else 2

theorem run_short {d : Dyn R} {T : K} {tab : KTab K} {hs : List K} (hr : Run d T tab hs) (hT : 0 ≤ T) : ∀ h ∈ hs, 0 ≤ h ∧ h ≤ T := by
  intro h hh
  refine ⟨hr.nonneg hT h hh, ?_⟩
  rw [← hr.sum]
  exact List.single_le_sum (hr.nonneg hT) h hh

/-- one call of a damped point mass -/
theorem damped_call (k : Nat) (m c : K) (hc : 0 < c) (u : Fin k → K) {d : Dyn R} {T : K} {tab : KTab K} {hs : List K} (hr : Run d T tab hs)
    (hT : Gentle R d c T) : ∃ q, 0 ≤ q ∧ q * (1 + c * T) ≤ 1 ∧ ∀ (y : Fin (k + k) → K) (i : Fin k),
      rkChain tab ((pointModel k m c).field u) 0 y hs (Fin.natAdd k i) = u i / (m * c) + q * (y (Fin.natAdd k i) - u i / (m * c)) := by
  have hx : ∀ h ∈ hs, 0 ≤ c * h ∧ c * h ≤ c * T := fun h hh =>
    ⟨mul_nonneg hc.le (run_short hr hT.1 h hh).1, mul_le_mul_of_nonneg_left (run_short hr hT.1 h hh).2 hc.le⟩
  have key : ∃ ρ : K → K, (∀ a t h v, rkStep tab (fun _ v => -c * v + a) t h v = a / c + ρ (c * h) * (v - a / c)) ∧
      ∀ h ∈ hs, 0 ≤ ρ (c * h) ∧ ρ (c * h) * (1 + c * h) ≤ 1 := by
    rcases hr.kind with ⟨hk, rfl⟩ | ⟨hk, rfl, rfl⟩
    · have h2 := hT.2
      rw [if_neg (by rw [hk]; decide)] at h2
      exact ⟨decay, fun a t h v => kdopri_decay c a t h v hc.ne', fun h hh =>
        ⟨decay_nonneg (hx h hh).1 ((hx h hh).2.trans h2), decay_le (hx h hh).1 ((hx h hh).2.trans h2)⟩⟩
    · have h2 := hT.2
      rw [if_pos hk] at h2
      refine ⟨fun x => 1 - x, fun a t h v => keuler_decay c a t h v hc.ne', fun h hh => ?_⟩
      obtain ⟨e1, e2⟩ := hx h hh
      exact ⟨by linarith, by nlinarith⟩
  obtain ⟨ρ, h1, h2⟩ := key
  obtain ⟨q, q0, q1, hq⟩ := chain_decay ρ h1 hc.le hs (fun h hh => ⟨(run_short hr hT.1 h hh).1, h2 h hh⟩)
  refine ⟨q, q0, by rwa [hr.sum] at q1, fun y i => ?_⟩
  have := rkChain_map tab (LinearMap.proj (R := K) (φ := fun _ : Fin (k + k) => K) (Fin.natAdd k i)) ((pointModel k m c).field u)
    (fun _ v => -c * v + u i / m) (fun t y => by rw [pointModel_field]; simp [-Fin.natAdd_eq_addNat]) 0 y hs
  simp only [LinearMap.proj_apply] at this
  rw [this, hq, div_div]

/-- what damping and thrust do to position plus velocity over damping: the same by any method -/
theorem damped_drift (k : Nat) (m c : K) (hc : c ≠ 0) (u : Fin k → K) {d : Dyn R} {T : K} {tab : KTab K} {hs : List K} (hr : Run d T tab hs)
    (y : Fin (k + k) → K) (i : Fin k) :
    rkChain tab ((pointModel k m c).field u) 0 y hs (Fin.castAdd k i) + rkChain tab ((pointModel k m c).field u) 0 y hs (Fin.natAdd k i) / c
      = y (Fin.castAdd k i) + y (Fin.natAdd k i) / c + u i / (m * c) * T := by
  have := rkChain_const_rate tab hr.b.1 hr.b.2 ((pointModel k m c).field u)
    (LinearMap.proj (R := K) (φ := fun _ : Fin (k + k) => K) (Fin.castAdd k i) + c⁻¹ • LinearMap.proj (R := K) (φ := fun _ : Fin (k + k) => K) (Fin.natAdd k i))
    (u i / (m * c)) (fun t y => by
      rw [pointModel_field]
      simp [-Fin.natAdd_eq_addNat]
      field_simp
      ring) 0 y hs
  simp only [LinearMap.add_apply, LinearMap.smul_apply, LinearMap.proj_apply, smul_eq_mul, hr.sum] at this
  simpa [div_eq_inv_mul, mul_comm] using this

/-- a state from its positions and velocities -/
theorem append_halves {k : Nat} (y : Fin (k + k) → K) :
    y = Fin.append (fun i => y (Fin.castAdd k i)) (fun i => y (Fin.natAdd k i)) := by
  funext j
  refine Fin.addCases (fun i => ?_) (fun i => ?_) j <;> simp [-Fin.natAdd_eq_addNat]

theorem split_state {k : Nat} {s : Vec R} {P : (Fin (k + k) → K) → Prop} (h : ∃ y, s = toFl y ∧ P y) :
    ∃ x v : Fin k → K, s = toFl (Fin.append x v) ∧ P (Fin.append x v) := by
  obtain ⟨y, h1, h2⟩ := h
  exact ⟨_, _, append_halves y ▸ h1, append_halves y ▸ h2⟩

/-- C101: a damped integrator under constant thrust settles at its terminal velocity `thrust / (m damping)`. After any history of
calls that ask for the same thrust, none too long for the damping, the distance of the velocity from the terminal one has shrunk
on all axes by the same factor, at most `1 / (1 + damping time)`, without changing sign. The position is where that puts it. -/
theorem C101_terminal (hpi : 0 < R.pi) (env : Env R) (henv : IsRk dopri env) (k : Nat) (args : IntegratorArgs R) (m c : K)
    (hm : args.m = .fin m) (hc : args.damping = .fin c) (hpos : 0 < c) (e0 : Entity R)
    (h0 : initIntegrator env args k = .ok e0) (hp : PlainMethod e0.dynamics) (x v u : Fin k → K)
    (hs : e0.state = toFl (Fin.append x v)) (hist : List (K × Action R))
    (hT : ∀ h ∈ hist, 0 ≤ h.1 ∧ c * h.1 ≤ if e0.dynamics.integrationMethod = "Euler" then 1 else 2)
    (ha : ∀ h ∈ hist, Asks env e0 h.2 u) :
    ∃ (x' v' : Fin k → K) (q : K), (e0.run env (stepsOf hist)).state = toFl (Fin.append x' v') ∧
      0 ≤ q ∧ q ≤ 1 / (1 + c * elapsed env e0 hist) ∧ ∀ i,
      v' i - min (max (u i) (-1)) 1 / (m * c) = q * (v i - min (max (u i) (-1)) 1 / (m * c)) ∧
      x' i = x i + min (max (u i) (-1)) 1 / (m * c) * elapsed env e0 hist + (v i - v' i) / c := by
  obtain ⟨r, -, -⟩ := integratorEntity_realised hm hc h0
  obtain ⟨w, hw⟩ : ∃ w : Fin k → K, w = fun i => min (max (u i) (-1)) 1 := ⟨_, rfl⟩
  obtain ⟨x', v', g1, τ0, q, q0, q1, g2⟩ := split_state (Realises.run_timed henv hpi (M := pointModel k m c) (d := e0.dynamics)
    (fun τ y => 0 ≤ τ ∧ ∃ q, 0 ≤ q ∧ q * (1 + c * τ) ≤ 1 ∧ ∀ i, y (Fin.natAdd k i) - w i / (m * c) = q * (v i - w i / (m * c)) ∧
      y (Fin.castAdd k i) + y (Fin.natAdd k i) / c = x i + v i / c + w i / (m * c) * τ)
    (fun T u' => u' = u ∧ Gentle R e0.dynamics c T) (S := fun _ => True) (D := ⊤) (fun _ _ => trivial) (fun _ _ _ => Stable.univ _) (fun _ _ _ => trivial)
    (by
      rintro τ T u' ⟨rfl, hT⟩ tab hs y hr ⟨hτ, q, q0, q1, hy⟩
      have hsat : (pointModel k m c).sat u' = w := by rw [hw]; rfl
      rw [pointModel_post, hsat]
      obtain ⟨p, p0, p1, hv⟩ := damped_call k m c hpos w hr hT
      obtain ⟨m1, m2⟩ := decay_mul (mul_nonneg hpos.le hτ) (mul_nonneg hpos.le hT.1) q0 q1 p0 p1
      refine ⟨add_nonneg hτ hT.1, p * q, m1, by rw [mul_add c]; exact m2, fun i => ?_⟩
      obtain ⟨y1, y2⟩ := hy i
      rw [damped_drift k m c hpos.ne' w hr y i, hv, y1, y2]
      constructor <;> ring)
    hist r hp rfl (fun h hh => ⟨u, ha h hh, rfl, hT h hh⟩) (τ := 0) hs
    ⟨le_rfl, 1, zero_le_one, by simp, fun i => by simp [-Fin.natAdd_eq_addNat]⟩)
  rw [zero_add] at τ0 q1 g2
  have hd : 0 < 1 + c * elapsed env e0 hist := by positivity
  refine ⟨x', v', q, g1, q0, by rwa [le_div_iff₀ hd], fun i => ?_⟩
  obtain ⟨k1, k2⟩ := g2 i
  subst hw
  simp only [Fin.append_left, Fin.append_right] at k1 k2
  refine ⟨k1, ?_⟩
  rw [sub_div]
  linarith

/-- C101: damping bounds the speed whatever the thrusts: over any history of calls, none too long for the damping, by either
method, each velocity stays within the larger of its first value and the terminal speed `1 / (m damping)`, and position plus
velocity over damping changes by at most the terminal speed times the time. -/
theorem C101_bounded (hpi : 0 < R.pi) (env : Env R) (henv : IsRk dopri env) (k : Nat) (args : IntegratorArgs R) (m c : K)
    (hm : args.m = .fin m) (hmpos : 0 < m) (hc : args.damping = .fin c) (hpos : 0 < c) (e0 : Entity R)
    (h0 : initIntegrator env args k = .ok e0) (hp : PlainMethod e0.dynamics) (x v : Fin k → K)
    (hs : e0.state = toFl (Fin.append x v)) (hist : List (K × Action R))
    (hT : ∀ h ∈ hist, 0 ≤ h.1 ∧ c * h.1 ≤ if e0.dynamics.integrationMethod = "Euler" then 1 else 2)
    (ha : ∀ h ∈ hist, ∃ u : Fin k → K, Asks env e0 h.2 u) :
    ∃ x' v' : Fin k → K, (e0.run env (stepsOf hist)).state = toFl (Fin.append x' v') ∧ ∀ i,
      |v' i| ≤ max |v i| (1 / (m * c)) ∧
      |(x' i + v' i / c) - (x i + v i / c)| ≤ 1 / (m * c) * elapsed env e0 hist := by
  obtain ⟨r, -, -⟩ := integratorEntity_realised hm hc h0
  obtain ⟨x', v', g1, g2⟩ := split_state (Realises.run_timed henv hpi (M := pointModel k m c) (d := e0.dynamics)
    (fun τ y => ∀ i, |y (Fin.natAdd k i)| ≤ max |v i| (1 / (m * c)) ∧
      |(y (Fin.castAdd k i) + y (Fin.natAdd k i) / c) - (x i + v i / c)| ≤ 1 / (m * c) * τ)
    (fun T _ => Gentle R e0.dynamics c T) (S := fun _ => True) (D := ⊤) (fun _ _ => trivial) (fun _ _ _ => Stable.univ _) (fun _ _ _ => trivial)
    (by
      intro τ T u hT tab hs y hr hy i
      obtain ⟨h1, h2⟩ := hy i
      rw [pointModel_post]
      obtain ⟨p, p0, p1, hv⟩ := damped_call k m c hpos ((pointModel k m c).sat u) hr hT
      rw [damped_drift k m c hpos.ne' _ hr y i, hv]
      simp only [pointModel_sat]
      have hw := sat_abs (u i)
      generalize min (max (u i) (-1)) 1 = w at hw
      have hmc : 0 < m * c := mul_pos hmpos hpos
      have hb : |w / (m * c)| ≤ 1 / (m * c) := by
        rw [abs_div, abs_of_pos hmc]
        gcongr
      generalize w / (m * c) = b at hb
      have hle : p ≤ 1 := by nlinarith [mul_nonneg p0 (mul_nonneg hpos.le hT.1)]
      constructor
      · have e : b + p * (y (Fin.natAdd k i) - b) = (1 - p) * b + p * y (Fin.natAdd k i) := by ring
        rw [e]
        refine (abs_add_le _ _).trans ?_
        rw [abs_mul, abs_mul, abs_of_nonneg p0, abs_of_nonneg (sub_nonneg.2 hle)]
        have t1 := mul_le_mul_of_nonneg_left (hb.trans (le_max_right |v i| _)) (sub_nonneg.2 hle)
        have t2 := mul_le_mul_of_nonneg_left h1 p0
        linarith
      · have e : y (Fin.castAdd k i) + y (Fin.natAdd k i) / c + b * T - (x i + v i / c) =
            (y (Fin.castAdd k i) + y (Fin.natAdd k i) / c - (x i + v i / c)) + b * T := by ring
        rw [e, mul_add]
        refine (abs_add_le _ _).trans (add_le_add h2 ?_)
        rw [abs_mul, abs_of_nonneg hT.1]
        exact mul_le_mul_of_nonneg_right hb hT.1)
    hist r hp rfl (fun h hh => by obtain ⟨u, hu⟩ := ha h hh; exact ⟨u, hu, hT h hh⟩) (τ := 0) hs
    (fun i => by simp [-Fin.natAdd_eq_addNat]))
  refine ⟨x', v', g1, fun i => ?_⟩
  simpa [-Fin.natAdd_eq_addNat] using g2 i

/-- C101: a coasting damped integrator comes to rest within `speed / damping` of where it was: special case of no thrust. -/
theorem C101_coast (hpi : 0 < R.pi) (env : Env R) (henv : IsRk dopri env) (k : Nat) (args : IntegratorArgs R) (m c : K)
    (hm : args.m = .fin m) (hc : args.damping = .fin c) (hpos : 0 < c) (e0 : Entity R)
    (h0 : initIntegrator env args k = .ok e0) (hp : PlainMethod e0.dynamics) (x v : Fin k → K)
    (hs : e0.state = toFl (Fin.append x v)) (hist : List (K × Action R))
    (hT : ∀ h ∈ hist, 0 ≤ h.1 ∧ c * h.1 ≤ if e0.dynamics.integrationMethod = "Euler" then 1 else 2)
    (ha : ∀ h ∈ hist, Asks env e0 h.2 (fun _ : Fin k => (0 : K))) :
    ∃ x' v' : Fin k → K, (e0.run env (stepsOf hist)).state = toFl (Fin.append x' v') ∧ ∀ i,
      |v' i| ≤ |v i| / (1 + c * elapsed env e0 hist) ∧ 0 ≤ v' i * v i ∧ |x' i - x i| ≤ |v i| / c ∧ 0 ≤ (x' i - x i) * v i := by
  obtain ⟨x', v', q, g1, q0, q1, g2⟩ := C101_terminal hpi env henv k args m c hm hc hpos e0 h0 hp x v _ hs hist hT ha
  refine ⟨x', v', g1, fun i => ?_⟩
  obtain ⟨h1, h2⟩ := g2 i
  have hz : min (max (0 : K) (-1)) 1 = 0 := sat_id (by simp)
  rw [hz] at h1 h2
  simp only [zero_div, sub_zero, zero_mul, add_zero] at h1 h2
  have hτ : 0 ≤ elapsed env e0 hist := by
    have : ∀ (l : List (K × Action R)) (e : Entity R), (∀ h ∈ l, 0 ≤ h.1) → 0 ≤ elapsed env e l := by
      intro l
      induction l with
      | nil => intro e _; simp [elapsed]
      | cons h l ih =>
        intro e hl
        have := ih (e.step env (.fin h.1) h.2).entity (fun g hg => hl g (by simp [hg]))
        have h3 := hl h (by simp)
        simp only [elapsed]
        split <;> linarith
    exact this hist e0 (fun h hh => (hT h hh).1)
  have hle : q ≤ 1 := q1.trans ((div_le_one (by positivity)).2 (by nlinarith [mul_nonneg hpos.le hτ]))
  have e : x' i - x i = (1 - q) * v i / c := by rw [h2, h1]; ring
  rw [e, h1]
  refine ⟨?_, ?_, ?_, ?_⟩
  · rw [abs_mul, abs_of_nonneg q0]
    calc q * |v i| ≤ 1 / (1 + c * elapsed env e0 hist) * |v i| := by gcongr
      _ = _ := by ring
  · have : q * v i * v i = q * (v i * v i) := by ring
    rw [this]
    exact mul_nonneg q0 (mul_self_nonneg _)
  · rw [abs_div, abs_mul, abs_of_nonneg (sub_nonneg.2 hle), abs_of_pos hpos]
    gcongr
    nlinarith [abs_nonneg (v i)]
  · have : (1 - q) * v i / c * v i = (1 - q) / c * (v i * v i) := by ring
    rw [this]
    exact mul_nonneg (div_nonneg (sub_nonneg.2 hle) hpos.le) (mul_self_nonneg _)

/-- an Euler step of a model without a domain always succeeds -/
theorem Realises.step_euler (env : Env R) (hpi : 0 < R.pi) {e : Entity R} {M : KModel K n m} (h : Realises e M)
    (hm : e.dynamics.integrationMethod = "Euler") (hs : e.dynamics.trajectorySamples ≤ 0) {a : Action R} {u : Fin m → K} (ha : Asks env e a u)
    (hdom : ∀ y, M.dom y) {y : Fin n → K} (he : e.state = toFl y) (T : K) :
    (e.step env (.fin T) a).outcome = .ok () ∧
    (e.step env (.fin T) a).entity.state = toFl (M.post R.pi (y + T • M.field (M.sat u) 0 y)) := by
  obtain ⟨w, hstep⟩ := step_realised h ha (.fin T)
  have hr := rawStep_euler env h.dyn.custom hm hs (h.dyn.liftsOn (S := fun _ => True) (M.sat u) (fun y _ => hdom y)) T y trivial
  have hd := dynStep_lift hpi h.dyn hr
  rw [hstep]
  rw [← he] at hd
  cases hds : e.dynamics.step env (.fin T) e.state (toFl (M.sat u)) with
  | mk d r =>
    rw [hds] at hd
    simp only at hd
    subst hd
    exact ⟨rfl, rfl⟩

/-- C101: what Euler's method makes of a coasting damped integrator in any number of equal calls of any length: every call
multiplies the velocities by `1 - damping length`. -/
theorem C101_euler (hpi : 0 < R.pi) (env : Env R) (k : Nat) (args : IntegratorArgs R) (m c : K)
    (hm : args.m = .fin m) (hc : args.damping = .fin c) (e0 : Entity R)
    (h0 : initIntegrator env args k = .ok e0) (he : e0.dynamics.integrationMethod = "Euler") (hsm : e0.dynamics.trajectorySamples ≤ 0)
    (x v : Fin k → K) (hs : e0.state = toFl (Fin.append x v)) (T : K) (a : Action R) (ha : Asks env e0 a (fun _ : Fin k => (0 : K))) (j : Nat) :
    ∃ x' v' : Fin k → K, (e0.run env (stepsOf (List.replicate j (T, a)))).state = toFl (Fin.append x' v') ∧ ∀ i,
      v' i = (1 - c * T) ^ j * v i ∧ c * (x' i - x i) = v i - v' i := by
  obtain ⟨r, -, -⟩ := integratorEntity_realised hm hc h0
  have main : ∀ (j : Nat) (e : Entity R), SameConfig e0 e → ∀ x v : Fin k → K, e.state = toFl (Fin.append x v) →
      ∃ x' v' : Fin k → K, (e.run env (stepsOf (List.replicate j (T, a)))).state = toFl (Fin.append x' v') ∧ ∀ i,
        v' i = (1 - c * T) ^ j * v i ∧ c * (x' i - x i) = v i - v' i := by
    intro j
    induction j with
    | zero => intro e _ x v hs; exact ⟨x, v, hs, fun i => by simp⟩
    | succ j ih =>
      intro e hcfg x v hs
      obtain ⟨h6, h7⟩ := sameConfig_method hcfg
      have hst := ((r.congr hcfg).step_euler env hpi (h6.trans he) (h7 ▸ hsm) (requests_congr hcfg ha) (fun _ => trivial) hs T).2
      have hz : (pointModel k m c).sat (fun _ => 0) = fun _ => 0 := by
        funext i; rw [pointModel_sat]; exact sat_id (by simp)
      rw [pointModel_post, hz, pointModel_field, append_halves (_ + _)] at hst
      obtain ⟨x', v', g1, g2⟩ := ih _ (SameConfig.trans hcfg (step_sameConfig env e (.fin T) a)) _ _ hst
      refine ⟨x', v', g1, fun i => ?_⟩
      obtain ⟨g3, g4⟩ := g2 i
      simp [-Fin.natAdd_eq_addNat] at g3 g4
      constructor
      · rw [g3]; ring
      · linear_combination g4
  exact main j e0 (SameConfig.refl e0) x v hs

/-- C101: with Euler's method the damping must not be too strong for the calls: when `damping length` exceeds two, a coasting
integrator that moves at all gets faster without bound. -/
theorem C101_unstable (hpi : 0 < R.pi) (env : Env R) (k : Nat) (args : IntegratorArgs R) (m c : K)
    (hm : args.m = .fin m) (hc : args.damping = .fin c) (e0 : Entity R)
    (h0 : initIntegrator env args k = .ok e0) (he : e0.dynamics.integrationMethod = "Euler") (hsm : e0.dynamics.trajectorySamples ≤ 0)
    (x v : Fin k → K) (hs : e0.state = toFl (Fin.append x v)) (T : K) (hT : 2 < c * T) (a : Action R)
    (ha : Asks env e0 a (fun _ : Fin k => (0 : K))) (i : Fin k) (hv : v i ≠ 0) (B : K) :
    ∃ N : Nat, ∀ j ≥ N, ∃ x' v' : Fin k → K, (e0.run env (stepsOf (List.replicate j (T, a)))).state = toFl (Fin.append x' v') ∧ B < |v' i| := by
  have h1 : 1 < |1 - c * T| := by rw [abs_sub_comm, abs_of_nonneg (by linarith)]; linarith
  obtain ⟨N, hN⟩ := pow_unbounded_of_one_lt (B / |v i|) h1
  refine ⟨N, fun j hj => ?_⟩
  obtain ⟨x', v', g1, g2⟩ := C101_euler hpi env k args m c hm hc e0 h0 he hsm x v hs T a ha j
  refine ⟨x', v', g1, ?_⟩
  rw [(g2 i).1, abs_mul, abs_pow]
  rw [div_lt_iff₀ (abs_pos.2 hv)] at hN
  exact hN.trans_le (mul_le_mul_of_nonneg_right (pow_le_pow_right₀ h1.le hj) (abs_nonneg _))

/-- a damped 2-d integrator that meets the hypotheses of the first three, and one by Euler's method for the others -/
example : ∃ e0 : Entity ratFmt, initIntegrator (R := ratFmt) (rkEnv dopri (fun _ _ _ => [3])) { m := 2, damping := 1, kwargs := [("name", .str "a"), ("xdot", .num 1)] } 2 = .ok e0 ∧
    PlainMethod e0.dynamics ∧ e0.state = toFl (Fin.append ![0, 0] ![1, 0]) ∧
    Asks (rkEnv dopri (fun _ _ _ => [3])) e0 (.ndarray .f64 [.fin 2, .fin 1]) ![2, 1] ∧
    Asks (rkEnv dopri (fun _ _ _ => [3])) e0 (.ndarray .f64 [.fin 0, .fin 0]) (fun _ : Fin 2 => (0 : ℚ)) ∧
    (0 ≤ (2 : ℚ) ∧ 1 * (2 : ℚ) ≤ if e0.dynamics.integrationMethod = "Euler" then 1 else 2) ∧
    elapsed (rkEnv dopri (fun _ _ _ => [3])) e0 [(2, .ndarray .f64 [.fin 2, .fin 1])] = 2 :=
  ⟨_, rfl, .inl rfl, by decide +kernel, ⟨.f64, .array _ _⟩, ⟨.f64, .array _ _⟩, by decide +kernel, by decide +kernel⟩

example : ∃ e0 : Entity ratFmt, initIntegrator (R := ratFmt) (rkEnv dopri (fun _ _ _ => [3])) { m := 2, damping := 1, integrationMethod := "Euler", kwargs := [("name", .str "a"), ("xdot", .num 1)] } 2 = .ok e0 ∧
    e0.dynamics.integrationMethod = "Euler" ∧ e0.dynamics.trajectorySamples ≤ 0 ∧ e0.state = toFl (Fin.append ![0, 0] ![1, 0]) ∧
    Asks (rkEnv dopri (fun _ _ _ => [3])) e0 (.ndarray .f64 [.fin 0, .fin 0]) (fun _ : Fin 2 => (0 : ℚ)) ∧ (2 : ℚ) < 1 * 3 ∧
    (e0.run (rkEnv dopri (fun _ _ _ => [3])) (stepsOf (List.replicate 2 (3, .ndarray .f64 [.fin 0, .fin 0])))).state = toFl (Fin.append ![-3, 0] ![4, 0]) :=
  ⟨_, rfl, rfl, by decide +kernel, by decide +kernel, ⟨.f64, .array _ _⟩, by decide +kernel, by decide +kernel⟩

end
end SAD
