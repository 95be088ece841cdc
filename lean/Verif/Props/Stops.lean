import Verif.Lemmas.Stops
import Verif.Lemmas.Dubins
import Verif.Lemmas.Rotational
import Verif.Lemmas.SciPyStep
import Verif.Props.PlanarSpin
import Verif.Props.DubinsReach

/-! # C122: pressing against a limit -/

set_option linter.unusedSectionVars false

namespace SAD
open Spec Real

/-- the two methods -/
theorem stops_both {env : Env realFmt} (henv : IsRk dopri env) {e : Entity realFmt} (hc : e.dynamics.custom = none) {n i : Nat} (hi : i < n) (hn : 2 ≤ n)
    {lo hi' : ℝ} (hlim : lo < hi') (hw : WrapsOutside e.dynamics i lo hi') {x : ℝ} (hx : At n i e.state x) (hx' : lo ≤ x ∧ x ≤ hi')
    {hist : List (ℝ × Action realFmt)} {rate : Action realFmt → ℝ} {A η : ℝ} (hA : 0 ≤ A) (hη : 0 ≤ η)
    (hist_ok : ∀ h ∈ hist, 0 ≤ h.1 ∧ h.1 ≤ η ∧ |rate h.2| ≤ A)
    (hS : ∀ h ∈ hist, ∀ v, Applied env e h.2 v → Stops e.dynamics n i lo hi' v (rate h.2)) :
    (e.dynamics.integrationMethod = "RK45" → ∃ w, At n i (e.run env (stepsOf hist)).state w ∧ lo ≤ w ∧ w ≤ hi' ∧
      |w - stopping env lo hi' rate e hist x| ≤ 4 / 3 * (A * η)) ∧
    (e.dynamics.integrationMethod = "Euler" → At n i (e.run env (stepsOf hist)).state (stopping env lo hi' rate e hist x)) := by
  constructor
  · intro hm
    obtain ⟨w, w1, w2, w3⟩ := Stops.run henv hi hn hlim hist (e := e) (rate := rate) (E := 4 / 3 * (A * η)) (x := x) (z := x) hw hc
      (fun h hh => ⟨(hist_ok h hh).1, .inl ⟨hm, by
        obtain ⟨q1, q2, q3⟩ := hist_ok h hh
        have := mul_le_mul q3 q2 q1 hA
        linarith⟩, hS h hh⟩) hx hx' hx' (by
          have := mul_nonneg hA hη
          simpa using this)
    exact ⟨w, w1, w2.1, w2.2, w3⟩
  · intro hm
    obtain ⟨w, w1, w2, w3⟩ := Stops.run henv hi hn hlim hist (e := e) (rate := rate) (E := 0) (x := x) (z := x) hw hc
      (fun h hh => ⟨(hist_ok h hh).1, .inr hm, hS h hh⟩) hx hx' hx' (by simp)
    have : w = stopping env lo hi' rate e hist x := by
      have := abs_nonpos_iff.1 w3
      linarith
    rw [← this]; exact w1

/-- C122 for users' models: an element whose rate of change is constant in each call, and which has a lower and an upper limit, is after every
history the number that moves at these rates and stops at the limits: exactly with Euler's method, and with RK45, whatever steps the solver takes,
up to 4/3 of the greatest distance it moves in one call. The error does not grow with the number of calls. -/
theorem C122_user (env : Env realFmt) (henv : IsRk dopri env) (e : Entity realFmt) (hc : e.dynamics.custom = none) (n i : Nat) (hi : i < n) (hn : 2 ≤ n)
    (lo hi' : ℝ) (hlim : lo < hi') (hmin : e.dynamics.stateMin.at i = some (.fin lo)) (hmax : e.dynamics.stateMax.at i = some (.fin hi'))
    (hw : NotWrapped e.dynamics i) (x : ℝ) (hs : e.state.length = n) (hx : e.state[i]? = some (.fin x)) (hx' : lo ≤ x ∧ x ≤ hi')
    (hist : List (ℝ × Action realFmt)) (rate : Action realFmt → ℝ) (A η : ℝ) (hA : 0 ≤ A) (hη : 0 ≤ η)
    (hist_ok : ∀ h ∈ hist, 0 ≤ h.1 ∧ h.1 ≤ η ∧ |rate h.2| ≤ A)
    (hrate : ∀ h ∈ hist, ∀ v, Applied env e h.2 v → ∀ t s raw, s.length = n → e.dynamics.rhs t s v = .ok raw →
      raw.length = n ∧ raw[i]? = some (.fin (rate h.2)))
    (hdot : ∀ h ∈ hist, ∀ l b, e.dynamics.stateDotMin.at i = some l → e.dynamics.stateDotMax.at i = some b → l ≤ .fin (rate h.2) ∧ .fin (rate h.2) ≤ b) :
    (e.dynamics.integrationMethod = "RK45" → ∃ w, (e.run env (stepsOf hist)).state[i]? = some (.fin w) ∧ lo ≤ w ∧ w ≤ hi' ∧
      |w - stopping env lo hi' rate e hist x| ≤ 4 / 3 * (A * η)) ∧
    (e.dynamics.integrationMethod = "Euler" → (e.run env (stepsOf hist)).state[i]? = some (.fin (stopping env lo hi' rate e hist x))) := by
  have hS : ∀ h ∈ hist, ∀ v, Applied env e h.2 v → Stops e.dynamics n i lo hi' v (rate h.2) := fun h hh v hv =>
    ⟨hmin, hmax, fun t s raw h1 h2 => bget_of_get (hrate h hh v hv t s raw h1 h2).2, hdot h hh⟩
  obtain ⟨h1, h2⟩ := stops_both henv hc hi hn hlim (.inl hw) ⟨hs, hx⟩ hx' hA hη hist_ok hS
  exact ⟨fun hm => by obtain ⟨w, w1, w2⟩ := h1 hm; exact ⟨w, w1.2, w2⟩, fun hm => (h2 hm).2⟩

/-- C122 for the speed of the two-dimensional aircraft, whatever its heading rate -/
theorem C122_dubins2d_speed (env : Env realFmt) (henv : IsRk dopri env) (args : Dubins2dArgs realFmt) (p : Dubins2dParams ℝ) (hp : p.Of args)
    (hlim : p.vMin < p.vMax) (e0 : Entity realFmt) (h0 : newDubins2d env args = .ok e0) (ops : List (Op realFmt)) (e : Entity realFmt)
    (he : e = e0.run env ops) (x y heading : Fl realFmt) (v : ℝ) (hs : e.state = [x, y, heading, .fin v]) (hv : p.vMin ≤ v ∧ v ≤ p.vMax)
    (hist : List (ℝ × Action realFmt)) (acc : Action realFmt → ℝ) (hu : ∀ h ∈ hist, ∃ ω : ℝ, Asks env e h.2 ![ω, acc h.2])
    (rate : Action realFmt → ℝ) (hrate : ∀ a, rate a = min (max (acc a) p.accMin) p.accMax) (A η : ℝ) (hA : 0 ≤ A) (hη : 0 ≤ η)
    (hist_ok : ∀ h ∈ hist, 0 ≤ h.1 ∧ h.1 ≤ η ∧ |rate h.2| ≤ A) :
    (args.integrationMethod = "RK45" → ∃ x' y' heading' w, (e.run env (stepsOf hist)).state = [x', y', heading', .fin w] ∧ p.vMin ≤ w ∧ w ≤ p.vMax ∧
      |w - stopping env p.vMin p.vMax rate e hist v| ≤ 4 / 3 * (A * η)) ∧
    (args.integrationMethod = "Euler" → ∃ x' y' heading', (e.run env (stepsOf hist)).state =
      [x', y', heading', .fin (stopping env p.vMin p.vMax rate e hist v)]) := by
  have hc := run_sameConfig env ops e0
  have hr := (dubins2d_realised hp h0).congr hc
  obtain ⟨c1, c2, c3, c4, c5, c6, c7, -, c9, -⟩ := dubins2d_config h0
  have h6 := hc.2.2.2.2.2
  rw [← he] at hr h6
  rw [← h6] at c1 c2 c3 c4 c5 c6 c7 c9
  simp only at c1 c2 c3 c4 c5 c6 c7 c9
  have hS : ∀ h ∈ hist, ∀ w, Applied env e h.2 w → Stops e.dynamics 4 3 p.vMin p.vMax w (rate h.2) := by
    intro h hh w hw
    obtain ⟨ω, hω⟩ := hu h hh
    have := hr.applied hω hw
    subst this
    refine ⟨by rw [c1, hp.vMin]; simp [Arr.at], by rw [c2, hp.vMax]; simp [Arr.at], ?_, ?_⟩
    · intro t s raw hl hraw
      rw [c6, toFl2] at hraw
      match s, hl with
      | [a, b, c, d], _ =>
        have e1 : (dubins2dModel realFmt p).sat ![ω, acc h.2] 1 = rate h.2 := by
          rw [hrate]; simp [KModel.sat, dubins2dModel, kclip]
        simp [affineRhs, dubins2dF, dubins2dG, matVec, dot, bind, Except.bind, vadd, bcast2, e1] at hraw
        subst hraw
        simp [bget]
    · intro l b hl hb
      rw [c3] at hl
      rw [c4] at hb
      cases hl; cases hb
      simp
  obtain ⟨h1, h2⟩ := stops_both henv (i := 3) (n := 4) c7 (by norm_num) (by norm_num) hlim
    (.inl (by intro cs hcs; rw [c5] at hcs; cases hcs; rfl)) (x := v) ⟨by rw [hs]; rfl, by rw [hs]; rfl⟩ hv hA hη hist_ok hS
  have key : ∀ {st : Vec realFmt} {w : ℝ}, At 4 3 st w → ∃ x' y' heading', st = [x', y', heading', .fin w] := by
    rintro st w ⟨l1, l2⟩
    match st, l1 with
    | [a, b, c, d], _ =>
      have : d = .fin w := by simpa using l2
      exact ⟨a, b, c, by rw [this]⟩
  rw [c9] at h1 h2
  refine ⟨fun hm => ?_, fun hm => key (h2 hm)⟩
  obtain ⟨w, w1, w2⟩ := h1 hm
  obtain ⟨x', y', z', hst⟩ := key w1
  exact ⟨x', y', z', w, hst, w2⟩

/-- C122 for the flight path angle, the roll angle and the speed of the three-dimensional aircraft, whose angle limits are less than half a turn -/
theorem C122_dubins3d (env : Env realFmt) (henv : IsRk dopri env) (args : Dubins3dArgs realFmt) (p : Dubins3dParams ℝ) (hp : p.Of args)
    (hv : p.vMin < p.vMax) (hγ : -π ≤ p.gammaMin ∧ p.gammaMin < p.gammaMax ∧ p.gammaMax < π) (hφ : -π ≤ p.rollMin ∧ p.rollMin < p.rollMax ∧ p.rollMax < π)
    (e0 : Entity realFmt) (h0 : newDubins3d env args = .ok e0) (ops : List (Op realFmt)) (e : Entity realFmt)
    (he : e = e0.run env ops) (x y z heading : Fl realFmt) (γ φ v : ℝ) (hs : e.state = [x, y, z, heading, .fin γ, .fin φ, .fin v])
    (hγ0 : p.gammaMin ≤ γ ∧ γ ≤ p.gammaMax) (hφ0 : p.rollMin ≤ φ ∧ φ ≤ p.rollMax) (hv0 : p.vMin ≤ v ∧ v ≤ p.vMax)
    (hist : List (ℝ × Action realFmt)) (gr rr acc : Action realFmt → ℝ) (hu : ∀ h ∈ hist, Asks env e h.2 ![gr h.2, rr h.2, acc h.2])
    (rateγ rateφ ratev : Action realFmt → ℝ) (hrγ : ∀ a, rateγ a = min (max (gr a) p.gammaRateMin) p.gammaRateMax)
    (hrφ : ∀ a, rateφ a = min (max (rr a) p.rollRateMin) p.rollRateMax) (hrv : ∀ a, ratev a = min (max (acc a) p.accMin) p.accMax)
    (Aγ Aφ Av η : ℝ) (hA : 0 ≤ Aγ ∧ 0 ≤ Aφ ∧ 0 ≤ Av) (hη : 0 ≤ η)
    (hist_ok : ∀ h ∈ hist, 0 ≤ h.1 ∧ h.1 ≤ η ∧ |rateγ h.2| ≤ Aγ ∧ |rateφ h.2| ≤ Aφ ∧ |ratev h.2| ≤ Av) :
    (args.integrationMethod = "RK45" → ∃ x' y' z' heading' γ' φ' v',
      (e.run env (stepsOf hist)).state = [x', y', z', heading', .fin γ', .fin φ', .fin v'] ∧
      |γ' - stopping env p.gammaMin p.gammaMax rateγ e hist γ| ≤ 4 / 3 * (Aγ * η) ∧
      |φ' - stopping env p.rollMin p.rollMax rateφ e hist φ| ≤ 4 / 3 * (Aφ * η) ∧
      |v' - stopping env p.vMin p.vMax ratev e hist v| ≤ 4 / 3 * (Av * η)) ∧
    (args.integrationMethod = "Euler" → ∃ x' y' z' heading', (e.run env (stepsOf hist)).state =
      [x', y', z', heading', .fin (stopping env p.gammaMin p.gammaMax rateγ e hist γ), .fin (stopping env p.rollMin p.rollMax rateφ e hist φ),
        .fin (stopping env p.vMin p.vMax ratev e hist v)]) := by
  have hc := run_sameConfig env ops e0
  have hr := (dubins3d_realised hp h0).congr hc
  obtain ⟨c1, c2, c3, c4, c5, c6, c7, -, c9, -⟩ := dubins3d_config h0
  have h6 := hc.2.2.2.2.2
  rw [← he] at hr h6
  rw [← h6] at c1 c2 c3 c4 c5 c6 c7 c9
  simp only at c1 c2 c3 c4 c5 c6 c7 c9
  have hS : ∀ h ∈ hist, ∀ w, Applied env e h.2 w → Stops e.dynamics 7 4 p.gammaMin p.gammaMax w (rateγ h.2) ∧
      Stops e.dynamics 7 5 p.rollMin p.rollMax w (rateφ h.2) ∧ Stops e.dynamics 7 6 p.vMin p.vMax w (ratev h.2) := by
    intro h hh w hw
    have := hr.applied (hu h hh) hw
    subst this
    have hraw : ∀ t s raw, s.length = 7 → e.dynamics.rhs t s (toFl ((dubins3dModel realFmt p).sat ![gr h.2, rr h.2, acc h.2])) = .ok raw →
        bget raw 4 = some (.fin (rateγ h.2)) ∧ bget raw 5 = some (.fin (rateφ h.2)) ∧ bget raw 6 = some (.fin (ratev h.2)) := by
      intro t s raw hl hraw
      rw [c6, toFl3] at hraw
      match s, hl with
      | [a, b, c, d, e, f, g], _ =>
        have e0 : (dubins3dModel realFmt p).sat ![gr h.2, rr h.2, acc h.2] 0 = rateγ h.2 := by
          rw [hrγ]; simp [KModel.sat, dubins3dModel, kclip]
        have e1 : (dubins3dModel realFmt p).sat ![gr h.2, rr h.2, acc h.2] 1 = rateφ h.2 := by
          rw [hrφ]; simp [KModel.sat, dubins3dModel, kclip]
        have e2 : (dubins3dModel realFmt p).sat ![gr h.2, rr h.2, acc h.2] 2 = ratev h.2 := by
          rw [hrv]; simp [KModel.sat, dubins3dModel, kclip]
        simp [affineRhs, dubins3dF, dubins3dG, matVec, dot, bind, Except.bind, vadd, bcast2, e0, e1, e2] at hraw
        subst hraw
        simp [bget]
    have hdot : ∀ (i : Nat) (r : ℝ) (l b : Fl realFmt), e.dynamics.stateDotMin.at i = some l → e.dynamics.stateDotMax.at i = some b →
        l ≤ .fin r ∧ .fin r ≤ b := by
      intro i r l b hl hb
      rw [c3] at hl
      rw [c4] at hb
      cases hl; cases hb
      simp
    exact ⟨⟨by rw [c1, hp.gammaMin]; simp [Arr.at], by rw [c2, hp.gammaMax]; simp [Arr.at], fun t s raw a b => (hraw t s raw a b).1, hdot 4 _⟩,
      ⟨by rw [c1, hp.rollMin]; simp [Arr.at], by rw [c2, hp.rollMax]; simp [Arr.at], fun t s raw a b => (hraw t s raw a b).2.1, hdot 5 _⟩,
      ⟨by rw [c1, hp.vMin]; simp [Arr.at], by rw [c2, hp.vMax]; simp [Arr.at], fun t s raw a b => (hraw t s raw a b).2.2, hdot 6 _⟩⟩
  obtain ⟨h1, h2⟩ := stops_both henv (i := 4) (n := 7) c7 (by norm_num) (by norm_num) hγ.2.1
    (.inr ⟨⟨_, c5, by simp [bget], by simp⟩, hγ.1, hγ.2.2⟩) (x := γ) ⟨by rw [hs]; rfl, by rw [hs]; rfl⟩ hγ0 hA.1 hη
    (fun h hh => ⟨(hist_ok h hh).1, (hist_ok h hh).2.1, (hist_ok h hh).2.2.1⟩) (fun h hh w hw => (hS h hh w hw).1)
  obtain ⟨h3, h4⟩ := stops_both henv (i := 5) (n := 7) c7 (by norm_num) (by norm_num) hφ.2.1
    (.inr ⟨⟨_, c5, by simp [bget], by simp⟩, hφ.1, hφ.2.2⟩) (x := φ) ⟨by rw [hs]; rfl, by rw [hs]; rfl⟩ hφ0 hA.2.1 hη
    (fun h hh => ⟨(hist_ok h hh).1, (hist_ok h hh).2.1, (hist_ok h hh).2.2.2.1⟩) (fun h hh w hw => (hS h hh w hw).2.1)
  obtain ⟨h5, h6⟩ := stops_both henv (i := 6) (n := 7) c7 (by norm_num) (by norm_num) hv
    (.inl (by intro cs hcs; rw [c5] at hcs; cases hcs; rfl)) (x := v) ⟨by rw [hs]; rfl, by rw [hs]; rfl⟩ hv0 hA.2.2 hη
    (fun h hh => ⟨(hist_ok h hh).1, (hist_ok h hh).2.1, (hist_ok h hh).2.2.2.2⟩) (fun h hh w hw => (hS h hh w hw).2.2)
  have key : ∀ {st : Vec realFmt} {a b c : ℝ}, At 7 4 st a → At 7 5 st b → At 7 6 st c →
      ∃ x' y' z' heading', st = [x', y', z', heading', .fin a, .fin b, .fin c] := by
    rintro st a b c ⟨l1, l2⟩ ⟨-, l3⟩ ⟨-, l4⟩
    match st, l1 with
    | [q0, q1, q2, q3, q4, q5, q6], _ =>
      have e4 : q4 = .fin a := by simpa using l2
      have e5 : q5 = .fin b := by simpa using l3
      have e6 : q6 = .fin c := by simpa using l4
      exact ⟨q0, q1, q2, q3, by rw [e4, e5, e6]⟩
  rw [c9] at h1 h2 h3 h4 h5 h6
  refine ⟨fun hm => ?_, fun hm => key (h2 hm) (h4 hm) (h6 hm)⟩
  obtain ⟨a, a1, -, -, a2⟩ := h1 hm
  obtain ⟨b, b1, -, -, b2⟩ := h3 hm
  obtain ⟨c, d1, -, -, d2⟩ := h5 hm
  obtain ⟨x', y', z', q, hst⟩ := key a1 b1 d1
  exact ⟨x', y', z', q, a, b, c, hst, a2, b2, d2⟩

theorem rot2d_affine {env : Env realFmt} {a : Rot2dArgs realFmt} {e : Entity realFmt} (h : newRot2d env a = .ok e) :
    ∃ B, e.dynamics.rhs = affineRhs (rot2dF B) (rot2dG a.m a.inertia) ∧ e.dynamics.integrationMethod = a.integrationMethod := by
  have h := instantiate_ok h
  unfold initRot2d at h
  obtain ⟨⟨acc, vel⟩, hl, h⟩ := Except.bind_ok.1 h
  obtain ⟨d, hd, h⟩ := Except.bind_ok.1 h
  obtain ⟨g1, -⟩ := baseInit_ok h
  unfold mkRot2dDynamics at hd
  obtain ⟨d', hd', hd⟩ := Except.bind_ok.1 hd
  obtain ⟨⟨A, B⟩, hAB, hd⟩ := Except.bind_ok.1 hd
  obtain ⟨k, hk, -, rfl⟩ := mkOdeDyn_ok hd'
  cases hd
  rw [g1]
  exact ⟨A, rfl, rfl⟩

/-- C122 for the angular velocity of the planar spacecraft, whatever the thrusters do -/
theorem C122_rot2d (env : Env realFmt) (henv : IsRk dopri env) (args : Rot2dArgs realFmt) (p : Rot2dParams ℝ) (hp : p.Of args)
    (hI : 0 < p.inertia) (hacc : 0 ≤ p.accLimit) (hvel : 0 < p.velLimit) (e0 : Entity realFmt) (h0 : newRot2d env args = .ok e0)
    (ops : List (Op realFmt)) (e : Entity realFmt) (he : e = e0.run env ops)
    (x y θ vx vy : Fl realFmt) (ω : ℝ) (hs : e.state = [x, y, θ, vx, vy, .fin ω]) (hω : -p.velLimit ≤ ω ∧ ω ≤ p.velLimit)
    (hist : List (ℝ × Action realFmt)) (mz : Action realFmt → ℝ) (hu : ∀ h ∈ hist, ∃ fx fy : ℝ, Asks env e h.2 ![fx, fy, mz h.2])
    (rate : Action realFmt → ℝ) (hrate : ∀ a, rate a = min (max (mz a) (-(p.accLimit * p.inertia))) (p.accLimit * p.inertia) / p.inertia)
    (A η : ℝ) (hA : 0 ≤ A) (hη : 0 ≤ η) (hist_ok : ∀ h ∈ hist, 0 ≤ h.1 ∧ h.1 ≤ η ∧ |rate h.2| ≤ A) :
    (args.integrationMethod = "RK45" → ∃ x' y' θ' vx' vy' w, (e.run env (stepsOf hist)).state = [x', y', θ', vx', vy', .fin w] ∧
      -p.velLimit ≤ w ∧ w ≤ p.velLimit ∧ |w - stopping env (-p.velLimit) p.velLimit rate e hist ω| ≤ 4 / 3 * (A * η)) ∧
    (args.integrationMethod = "Euler" → ∃ x' y' θ' vx' vy', (e.run env (stepsOf hist)).state =
      [x', y', θ', vx', vy', .fin (stopping env (-p.velLimit) p.velLimit rate e hist ω)]) := by
  have hc := run_sameConfig env ops e0
  have hr0 := (rot2d_realised hp h0).1
  have hr := hr0.congr hc
  obtain ⟨B, c6, c9⟩ := rot2d_affine h0
  have c7 := hr.dyn.custom
  have h6 := hc.2.2.2.2.2
  rw [← he] at hr h6 c7
  rw [← h6] at c6 c9
  simp only at c6 c9
  have hat : ∀ {l : Arr realFmt} {f : Fin 6 → Fl realFmt}, ArrIs l f → l.at 5 = some (f 5) := by
    intro l f h
    rcases h with rfl | ⟨q, rfl, hq⟩
    · simp [Arr.at, List.ofFn_succ]
    · simp [Arr.at, hq]
  have hS : ∀ h ∈ hist, ∀ w, Applied env e h.2 w → Stops e.dynamics 6 5 (-p.velLimit) p.velLimit w (rate h.2) := by
    intro h hh w hw
    obtain ⟨fx, fy, hf⟩ := hu h hh
    have := hr.applied hf hw
    subst this
    have e2 : (rot2dModel realFmt p.m p.inertia p.n p.accLimit p.velLimit).sat ![fx, fy, mz h.2] 2 = moment p (mz h.2) := sat_moment p _
    have e3 : rate h.2 = moment p (mz h.2) / p.inertia := hrate _
    refine ⟨hat hr.dyn.lo, hat hr.dyn.hi, ?_, ?_⟩
    · intro t s raw hl hraw
      rw [c6, toFl3, e2] at hraw
      match s, hl with
      | [a, b, c, d, e, f], _ =>
        unfold affineRhs at hraw
        obtain ⟨r1, g1, hraw⟩ := Except.bind_ok.1 hraw
        obtain ⟨G, g2, hraw⟩ := Except.bind_ok.1 hraw
        obtain ⟨r2, g3, hraw⟩ := Except.bind_ok.1 hraw
        have hr1 : ∃ d0 d1 d2 d3 d4, r1 = [d0, d1, d2, d3, d4, Fl.cast32 0] := by
          unfold rot2dF at g1
          obtain ⟨d, -, g1⟩ := Except.bind_ok.1 g1
          split at g1
          · cases g1; exact ⟨_, _, _, _, _, rfl⟩
          · cases g1
        obtain ⟨d0, d1, d2, d3, d4, rfl⟩ := hr1
        have hk : pyDiv (1 : Fl realFmt) args.inertia = .ok (.fin (1 / p.inertia)) := by
          rw [hp.inertia, Fl.one_fin]; unfold pyDiv; rw [if_neg (by simpa [Fl.eqb] using hI.ne'), Fl.fin_div_fin _ _ hI.ne']
        simp only [rot2dG, getIdx, List.getElem?_cons_succ, List.getElem?_cons_zero, hk, bind, Except.bind, pure, Except.pure, Except.ok.injEq] at g2
        subst g2
        simp [matVec, dot] at g3
        subst g3
        simp [vadd, bcast2] at hraw
        subst hraw
        simp [bget, e3]
        ring
    · intro l b hl hb
      rw [hat hr.dyn.dlo] at hl
      rw [hat hr.dyn.dhi] at hb
      cases hl; cases hb
      obtain ⟨a1, a2⟩ := moment_acc p hI hacc (mz h.2)
      rw [e3]
      exact ⟨by simpa [rot2dModel, loFl] using a1, by simpa [rot2dModel, hiFl] using a2⟩
  obtain ⟨h1, h2⟩ := stops_both henv (i := 5) (n := 6) c7 (by norm_num) (by norm_num) (by linarith)
    (.inl (by
      intro cs hcs
      rcases hr.dyn.centre with ⟨q, -⟩ | q
      · rw [q] at hcs; cases hcs
      · rw [q] at hcs; cases hcs; simp [bget, List.ofFn_succ, rot2dModel, centreFl])) (x := ω) ⟨by rw [hs]; rfl, by rw [hs]; rfl⟩ hω hA hη hist_ok hS
  have key : ∀ {st : Vec realFmt} {w : ℝ}, At 6 5 st w → ∃ x' y' θ' vx' vy', st = [x', y', θ', vx', vy', .fin w] := by
    rintro st w ⟨l1, l2⟩
    match st, l1 with
    | [a, b, c, d, e, f], _ =>
      have : f = .fin w := by simpa using l2
      exact ⟨a, b, c, d, e, by rw [this]⟩
  rw [c9] at h1 h2
  refine ⟨fun hm => ?_, fun hm => key (h2 hm)⟩
  obtain ⟨w, w1, w2⟩ := h1 hm
  obtain ⟨x', y', z', q, r, hst⟩ := key w1
  exact ⟨x', y', z', q, r, w, hst, w2⟩

/-- one Dormand-Prince step whose last stage alone is at or past the limit -/
theorem kdopri_last (g : ℝ → ℝ) (a m v T : ℝ) (hg : ∀ w, v ≤ w → w < m → g w = a) (hg' : ∀ w, m ≤ w → g w = 0)
    (h1 : v + 8 / 9 * (a * T) < m) (h2 : m ≤ v + a * T) : rkStep kdopri (fun _ => g) 0 T v = v + 73 / 84 * (a * T) := by
  have e1 : g v = a := hg _ le_rfl (by linarith)
  have e2 : g (v + T * (1 / 5 * a)) = a := hg _ (by linarith) (by linarith)
  have e3 : g (v + T * (3 / 40 * a + 9 / 40 * a)) = a := hg _ (by linarith) (by linarith)
  have e4 : g (v + T * (44 / 45 * a + -56 / 15 * a + 32 / 9 * a)) = a := hg _ (by linarith) (by linarith)
  have e5 : g (v + T * (19372 / 6561 * a + -25360 / 2187 * a + 64448 / 6561 * a + -212 / 729 * a)) = a := hg _ (by linarith) (by linarith)
  have e6 : g (v + T * (9017 / 3168 * a + -355 / 33 * a + 46732 / 5247 * a + 49 / 176 * a + -5103 / 18656 * a)) = 0 := hg' _ (by linarith)
  simp only [rkStep, kdopri, rkStages, combo, List.zip_cons_cons, List.foldl_cons, List.zip_nil_right, List.foldl_nil, zero_add,
    List.cons_append, List.nil_append, smul_eq_mul, e1, e2, e3, e4, e5, e6]
  ring

/-- C122: with RK45 the quantity need not be the one that stops at the limits: if the speed of the aircraft reaches its maximum in the last ninth of a
single solver step, the step ends at `v + 73/84 a T`, short of the maximum that Euler's method and the exact motion reach. -/
theorem C122_short (args : Dubins2dArgs realFmt) (p : Dubins2dParams ℝ) (hp : p.Of args) (e0 : Entity realFmt)
    (h0 : newDubins2d (rkEnv dopri (fun _ _ _ => [])) args = .ok e0) (hm : args.integrationMethod = "RK45")
    (ops : List (Op realFmt)) (e : Entity realFmt) (he : e = e0.run (rkEnv dopri (fun _ _ _ => [])) ops) (x y heading v ω acc a T : ℝ)
    (hs : e.state = [.fin x, .fin y, .fin heading, .fin v]) (ha : a = min (max acc p.accMin) p.accMax) (ha0 : 0 < a) (hT : 0 < T)
    (hv : p.vMin ≤ v) (hnot : v + 8 / 9 * (a * T) < p.vMax) (hreach : p.vMax ≤ v + a * T) (act : Action realFmt)
    (hu : Asks (rkEnv dopri (fun _ _ _ => [])) e act ![ω, acc]) :
    stopping (rkEnv dopri (fun _ _ _ => [])) p.vMin p.vMax (fun _ => a) e [(T, act)] v = p.vMax ∧
    (∃ x' y' heading' : ℝ, (e.step (rkEnv dopri (fun _ _ _ => [])) (.fin T) act).entity.state =
      [.fin x', .fin y', .fin heading', .fin (v + 73 / 84 * (a * T))]) ∧
    v + 73 / 84 * (a * T) < p.vMax := by
  have hc := run_sameConfig (rkEnv dopri (fun _ _ _ => [])) ops e0
  have hr := (dubins2d_realised hp h0).congr hc
  obtain ⟨k1, -⟩ := sameConfig_method hc
  obtain ⟨-, -, -, -, -, -, -, -, c9, -⟩ := dubins2d_config h0
  rw [← he] at hr k1
  rw [c9] at k1
  have haT : 0 < a * T := mul_pos ha0 hT
  obtain ⟨h1, h2, -⟩ := Realises.step_fixed (R := realFmt) [] pi_pos hr (.inl (k1.trans hm)) hu (S := fun _ => True) (D := ⊤) (fun _ _ => trivial)
      ⟨fun _ _ _ => trivial, fun _ _ _ _ => trivial⟩ (y := ![x, y, heading, v]) (by rw [hs, toFl4]; rfl) trivial T
  refine ⟨?_, ?_, by linarith⟩
  · simp only [stopping, h1]
    rw [max_eq_left (by linarith), min_eq_right hreach]
  have hne : e.dynamics.integrationMethod ≠ "Euler" := by rw [k1, hm]; simp
  simp only [flowTab, flowHs, if_neg hne, schedule, List.map_cons, List.map_nil, List.sum_cons, List.sum_nil] at h2
  norm_num at h2
  have hsat : (dubins2dModel realFmt p).sat ![ω, acc] 1 = a := by simp [KModel.sat, dubins2dModel, kclip, ha]
  have hmap := rkChain_map kdopri (LinearMap.proj (R := ℝ) (φ := fun _ : Fin 4 => ℝ) 3)
    ((dubins2dModel realFmt p).field ((dubins2dModel realFmt p).sat ![ω, acc]))
    (fun _ w => klimit (some p.vMin) (some p.vMax) none none w a) (by
      intro t w
      rw [← hsat]
      simp [KModel.field, dubins2dModel]) 0 ![x, y, heading, v] [T]
  obtain ⟨w, hw⟩ : ∃ w, w = rkChain kdopri ((dubins2dModel realFmt p).field ((dubins2dModel realFmt p).sat ![ω, acc])) 0 ![x, y, heading, v] [T] := ⟨_, rfl⟩
  rw [← hw] at hmap h2
  have w3 : w 3 = v + 73 / 84 * (a * T) := by
    have hl := kdopri_last (fun w => klimit (some p.vMin) (some p.vMax) none none w a) a p.vMax v T (by
      intro w _ hw
      simp [klimit, kclip, not_le.2 hw]
      intro _; exact ha0.le) (by
      intro w hw
      simp [klimit, kclip, hw, ha0.le]) hnot hreach
    rw [← hl]
    exact hmap
  have p3 : (dubins2dModel realFmt p).post realFmt.pi w 3 = v + 73 / 84 * (a * T) := by
    rw [← w3]
    simpa [KModel.post, dubins2dModel] using kclip_within (l := p.vMin) (h := p.vMax) (x := w 3) (by rw [w3]; linarith) (by rw [w3]; linarith)
  exact ⟨_, _, _, by rw [h2, toFl4, p3]⟩

/-! ### the hypotheses are met -/

/-- the last element of an array action -/
noncomputable def Demo.lastOf : Action realFmt → ℝ
  | .ndarray _ xs => match xs.getLast? with | some (.fin x) => x | _ => 0
  | _ => 0

/-- an aircraft that accelerates to its maximum speed, is asked to accelerate further, and brakes -/
example (method : String) (hm : method = "RK45" ∨ method = "Euler") : ∃ e0 : Entity realFmt, newDubins2d (rkEnv dopri (fun _ _ _ => [1, 2]))
      { headingRateMin := -1, headingRateMax := 1, accMin := -96, accMax := 96, integrationMethod := method, kwargs := [("name", .str "a")] } = .ok e0 ∧
    ∃ x y heading w, (e0.run (rkEnv dopri (fun _ _ _ => [1, 2])) (stepsOf [((3 : ℝ), .ndarray .f64 [.fin 1, .fin 5000]),
        (2, .ndarray .f64 [.fin (1 / 2), .fin 7]), (1 / 2, .ndarray .f64 [.fin 0, .fin (-40)])])).state = [x, y, heading, .fin w] ∧
      |w - stopping (rkEnv dopri (fun _ _ _ => [1, 2])) 200 400 (fun a => min (max (Demo.lastOf a) (-96)) 96) e0
        [((3 : ℝ), .ndarray .f64 [.fin 1, .fin 5000]), (2, .ndarray .f64 [.fin (1 / 2), .fin 7]), (1 / 2, .ndarray .f64 [.fin 0, .fin (-40)])] 200|
        ≤ 4 / 3 * (96 * 3) := by
  have hp : Dubins2dParams.Of (R := realFmt) ⟨200, 400, -1, 1, -96, 96⟩
      { headingRateMin := -1, headingRateMax := 1, accMin := -96, accMax := 96, integrationMethod := method, kwargs := [("name", .str "a")] } :=
    ⟨Fl.ofNat_fin 200, Fl.ofNat_fin 400, congrArg Fl.neg Fl.one_fin, Fl.one_fin, congrArg Fl.neg (Fl.ofNat_fin 96), Fl.ofNat_fin 96⟩
  have hnew : ∃ e0 : Entity realFmt, newDubins2d (rkEnv dopri (fun _ _ _ => [1, 2]))
      { headingRateMin := -1, headingRateMax := 1, accMin := -96, accMax := 96, integrationMethod := method, kwargs := [("name", .str "a")] } = .ok e0 ∧
      e0.state = [0, 0, 0, 200] := by
    rcases hm with rfl | rfl <;> exact ⟨_, rfl, rfl⟩
  obtain ⟨e0, h0, hst⟩ := hnew
  refine ⟨e0, h0, ?_⟩
  have hh : ∀ h ∈ [((3 : ℝ), (.ndarray .f64 [.fin 1, .fin 5000] : Action realFmt)), (2, .ndarray .f64 [.fin (1 / 2), .fin 7]),
      (1 / 2, .ndarray .f64 [.fin 0, .fin (-40)])], (∃ ω : ℝ, Asks (rkEnv dopri (fun _ _ _ => [1, 2])) e0 h.2 ![ω, Demo.lastOf h.2]) ∧
      0 ≤ h.1 ∧ h.1 ≤ 3 ∧ |min (max (Demo.lastOf h.2) (-96)) 96| ≤ 96 := by
    intro h hh
    simp only [List.mem_cons, List.not_mem_nil, or_false] at hh
    rcases hh with rfl | rfl | rfl
    · exact ⟨⟨1, .f64, .array _ _⟩, by norm_num, by norm_num, by norm_num [Demo.lastOf]⟩
    · exact ⟨⟨1 / 2, .f64, .array _ _⟩, by norm_num, by norm_num, by norm_num [Demo.lastOf]⟩
    · exact ⟨⟨0, .f64, .array _ _⟩, by norm_num, by norm_num, by norm_num [Demo.lastOf]⟩
  obtain ⟨h1, h2⟩ := C122_dubins2d_speed _ (rkEnv_isRk _) _ _ hp (by norm_num) e0 h0 [] e0 rfl 0 0 0 200
    (by rw [hst, show (200 : Fl realFmt) = .fin 200 from Fl.ofNat_fin 200]) (by norm_num) _ Demo.lastOf (fun h k => (hh h k).1)
    (fun a => min (max (Demo.lastOf a) (-96)) 96) (fun _ => rfl) 96 3 (by norm_num) (by norm_num) (fun h k => (hh h k).2)
  rcases hm with rfl | rfl
  · obtain ⟨x, y, z, w, q1, -, -, q2⟩ := h1 rfl
    exact ⟨x, y, z, w, q1, q2⟩
  · obtain ⟨x, y, z, q1⟩ := h2 rfl
    exact ⟨x, y, z, _, q1, by rw [sub_self, abs_zero]; norm_num⟩

/-- from 352 feet per second, asked for 50 more, a single RK45 step of one second ends below the 400 that the aircraft reaches -/
example : ∃ e0 : Entity realFmt, newDubins2d (rkEnv dopri (fun _ _ _ => []))
      { headingRateMin := -1, headingRateMax := 1, accMin := -96, accMax := 96, kwargs := [("name", .str "a")] } = .ok e0 ∧
    ∃ x' y' heading' : ℝ, ((e0.run (rkEnv dopri (fun _ _ _ => [])) [.setState [.fin 0, .fin 0, .fin 1, .fin 352]]).step (rkEnv dopri (fun _ _ _ => []))
      (.fin 1) (.ndarray .f64 [.fin 0, .fin 50])).entity.state = [.fin x', .fin y', .fin heading', .fin (352 + 73 / 84 * (50 * 1))] := by
  have hp : Dubins2dParams.Of (R := realFmt) ⟨200, 400, -1, 1, -96, 96⟩
      { headingRateMin := -1, headingRateMax := 1, accMin := -96, accMax := 96, kwargs := [("name", .str "a")] } :=
    ⟨Fl.ofNat_fin 200, Fl.ofNat_fin 400, congrArg Fl.neg Fl.one_fin, Fl.one_fin, congrArg Fl.neg (Fl.ofNat_fin 96), Fl.ofNat_fin 96⟩
  refine ⟨_, rfl, ?_⟩
  exact (C122_short _ _ hp _ rfl rfl [.setState [.fin 0, .fin 0, .fin 1, .fin 352]] _ rfl 0 0 1 352 0 50 50 1 rfl (by norm_num) (by norm_num) (by norm_num)
    (by norm_num) (by norm_num) (by norm_num) _ ⟨.f64, .array _ _⟩).2.1

/-- a three-dimensional aircraft that pitches up and rolls -/
example : ∃ e0 : Entity realFmt, newDubins3d (rkEnv dopri (fun _ _ _ => []))
      { gammaMin := -1, gammaMax := 1, rollMin := -1, rollMax := 1, gammaRateMin := -1, gammaRateMax := 1,
        rollRateMin := -1, rollRateMax := 1, accMin := -1, accMax := 1, kwargs := [("name", .str "a")] } = .ok e0 ∧
    Dubins3dParams.Of (R := realFmt) ⟨200, 400, -1, 1, -1, 1, -1, 1, -1, 1, -1, 1⟩
      { gammaMin := -1, gammaMax := 1, rollMin := -1, rollMax := 1, gammaRateMin := -1, gammaRateMax := 1,
        rollRateMin := -1, rollRateMax := 1, accMin := -1, accMax := 1, kwargs := [("name", .str "a")] } ∧
    (-π ≤ (-1 : ℝ) ∧ (-1 : ℝ) < 1 ∧ (1 : ℝ) < π) ∧
    (e0.run (rkEnv dopri (fun _ _ _ => [])) [.setState [.fin 0, .fin 0, .nan, .fin 2, .fin (1 / 2), .fin (-1), .fin 300]]).state
      = [.fin 0, .fin 0, .nan, .fin 2, .fin (1 / 2), .fin (-1), .fin 300] ∧
    Asks (rkEnv dopri (fun _ _ _ => [])) e0 (.ndarray .f64 [.fin 1, .fin 2, .fin 3]) ![1, 2, 3] := by
  have := Real.pi_gt_three
  exact ⟨_, rfl, ⟨Fl.ofNat_fin 200, Fl.ofNat_fin 400, congrArg Fl.neg Fl.one_fin, Fl.one_fin, congrArg Fl.neg Fl.one_fin, Fl.one_fin,
    congrArg Fl.neg Fl.one_fin, Fl.one_fin, congrArg Fl.neg Fl.one_fin, Fl.one_fin, congrArg Fl.neg Fl.one_fin, Fl.one_fin⟩,
    ⟨by linarith, by norm_num, by linarith⟩, rfl, ⟨.f64, .array _ _⟩⟩

/-- a planar spacecraft with limits 1, turning at 1/4, whose wheel is asked for more moment than it has -/
example (method : String) : ∃ e0 : Entity realFmt, newRot2d (rkEnv dopri (fun _ _ _ => [1, 2])) (Demo.jaxArgs method false) = .ok e0 ∧
    Demo.jaxParams.Of (Demo.jaxArgs method false) ∧ 0 < Demo.jaxParams.inertia ∧ 0 ≤ Demo.jaxParams.accLimit ∧ 0 < Demo.jaxParams.velLimit ∧
    (e0.run (rkEnv dopri (fun _ _ _ => [1, 2])) [.setState [.fin 5, .fin 0, .fin 2, .fin 1, .fin 0, .fin (1 / 4)]]).state
      = [.fin 5, .fin 0, .fin 2, .fin 1, .fin 0, .fin (1 / 4)] ∧ -Demo.jaxParams.velLimit ≤ 1 / 4 ∧ 1 / 4 ≤ Demo.jaxParams.velLimit ∧
    Asks (rkEnv dopri (fun _ _ _ => [1, 2])) e0 (.ndarray .f64 [.fin (1 / 3), .fin 0, .fin 7]) ![1 / 3, 0, 7] := by
  obtain ⟨e, h⟩ := Demo.jax_rot2d (rkEnv dopri (fun _ _ _ => [1, 2])) false rfl method
  have hv : Demo.jaxParams.velLimit = 1 := by simp [Demo.jaxParams, Rot2dParams.velLimit]
  have ha : Demo.jaxParams.accLimit = 1 := by simp [Demo.jaxParams, Rot2dParams.accLimit]
  have hi : Demo.jaxParams.inertia = 1 := rfl
  exact ⟨e, h, Demo.jaxParams_of _ _, by rw [hi]; norm_num, by rw [ha]; norm_num, by rw [hv]; norm_num, rfl, by rw [hv]; norm_num, by rw [hv]; norm_num,
    ⟨.f64, .array _ _⟩⟩

/-- a tank that is filled at the constant rate 1 up to 10, and a clock -/
noncomputable def Demo.tank (method : String) : Entity realFmt where
  name := "tank"
  dynamics := {
    stateMin := .vec [.fin 0, .fin 0], stateMax := .vec [.fin 10, .pinf], angleWrapCenters := none, useJax := false, trajectorySamples := 0
    stateDotMin := .scalar .ninf, stateDotMax := .scalar .pinf, integrationMethod := method, custom := none, trajectory := none, trajectoryT := none
    rhs := fun _ _ _ => .ok [.fin 1, .fin 1] }
  controlDefault := []
  controlMin := .scalar .ninf
  controlMax := .scalar .pinf
  controlMap := none
  state := [.fin 9, .fin 0]
  stateDot := []

example (policy : Rhs realFmt → ℝ → Vec realFmt → List ℝ) : ∃ w, ((Demo.tank "RK45").run (rkEnv dopri policy) (stepsOf [(3, .none), (1, .none)])).state[0]?
      = some (.fin w) ∧ (0 : ℝ) ≤ w ∧ w ≤ 10 ∧
    |w - stopping (rkEnv dopri policy) 0 10 (fun _ => 1) (Demo.tank "RK45") [(3, .none), (1, .none)] 9| ≤ 4 / 3 * (1 * 3) := by
  refine (C122_user _ (rkEnv_isRk policy) (Demo.tank "RK45") rfl 2 0 (by norm_num) le_rfl 0 10 (by norm_num) rfl rfl (by rintro _ ⟨⟩) 9 rfl rfl (by norm_num)
    [(3, .none), (1, .none)] (fun _ => 1) 1 3 (by norm_num) (by norm_num) ?_ ?_ ?_).1 rfl
  · intro h hh
    simp only [List.mem_cons, List.not_mem_nil, or_false] at hh
    rcases hh with rfl | rfl <;> norm_num
  · intro h _ v _ t s raw _ hraw
    cases hraw
    exact ⟨rfl, rfl⟩
  · intro h _ l b hl hb
    cases hl; cases hb
    simp

end SAD
