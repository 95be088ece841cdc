import Verif.Lemmas.RoundUser

/-! # Simulations of the user's models in double precision, call by call -/

set_option linter.unusedSectionVars false

namespace SAD
open Spec

section
variable {libm : Fmt ℚ} {n m : ℕ} {w : Fin n → ℚ} {d : Dyn (b64Of libm)} {U : Fin m → ℚ} {f : (Fin n → ℝ) → Fin n → ℝ} {φ : ℝ → Fin n → ℝ} {L δ ρ : ℝ} {D X η : ℚ}
  {ω : ℝ}

theorem rk45Step_finished (hc : d.custom = none) (hm : d.integrationMethod = "RK45") {u : Vec (b64Of libm)} {y v y1 y2 : Fin n → ℚ} {T : Fl (b64Of libm)}
    {env : Env (b64Of libm)} {sol : Sol (b64Of libm)} (h : env.solveIvp (fun t y => d.computeStateDot t y u) T (toFl y) (d.tEval T) = .ok sol)
    (hl : sol.y.getLast? = some (toFl y1)) (h' : d.computeStateDot T (toFl y1) u = .ok (toFl v)) (hf : Finished d y1 y2) :
    d.step env T (toFl y) u = ({ d with trajectory := some sol.y, trajectoryT := some sol.t }, .ok (toFl y2, toFl v)) := by
  obtain ⟨c, h1, h2⟩ := hf
  simp only [Dyn.step, Dyn.rawStep, hc, Dyn.odeStep, hm]
  simp only [if_true, h, lastRow, hl, h', bind, Except.bind, pure, Except.pure, h1, h2]

theorem eulerStep_finished (hc : d.custom = none) (hm : d.integrationMethod = "Euler") (hs : d.trajectorySamples ≤ 0) {u : Vec (b64Of libm)}
    {y v y1 y2 : Fin n → ℚ} {T : Fl (b64Of libm)} (h : d.computeStateDot 0 (toFl y) u = .ok (toFl v)) (h' : vadd (toFl y) (vscale T (toFl v)) = .ok (toFl y1))
    (hf : Finished d y1 y2) (env : Env (b64Of libm)) : d.step env T (toFl y) u = (d, .ok (toFl y2, toFl v)) := by
  obtain ⟨c, h1, h2⟩ := hf
  simp only [Dyn.step, Dyn.rawStep, hc, Dyn.odeStep, hm]
  simp only [show ("Euler" = "RK45") = False by decide, show ("Euler" = "RK45_JAX") = False by decide, if_false, if_true, if_neg (not_lt.2 hs), h, h', bind, Except.bind,
    pure, Except.pure, h1, h2]

theorem userB_comp (Z : UserSizes L δ D X η) (hω : 0 ≤ ω) {T T' N N' E : ℝ} (hT : 0 ≤ T) (hN : 0 ≤ N) (hT' : 0 ≤ T') (hN' : 0 ≤ N') :
    userB L δ D X η ω T' N' (userB L δ D X η ω T N E) ≤ userB L δ D X η ω (T + T') (N + N') E :=
  grow_comp Z.L0 le_rfl Z.parts.1 (by linarith [Z.parts.2.1]) hT hN hT' hN'

theorem userB_nonneg (Z : UserSizes L δ D X η) (hω : 0 ≤ ω) {T N E : ℝ} (hT : 0 ≤ T) (hN : 0 ≤ N) (hE : 0 ≤ E) : 0 ≤ userB L δ D X η ω T N E :=
  grow_nonneg Z.parts.1 (by linarith [Z.parts.2.1]) hT hN hE

theorem le_userB (Z : UserSizes L δ D X η) (hω : 0 ≤ ω) {T N E : ℝ} (hT : 0 ≤ T) (hN : 0 ≤ N) (hE : 0 ≤ E) : E ≤ userB L δ D X η ω T N E :=
  le_grow Z.L0 le_rfl Z.parts.1 (by linarith [Z.parts.2.1]) hT hN hE

/-- a further error at the end of a call -/
theorem userB_add (Z : UserSizes L δ D X η) (hω : 0 ≤ ω) {T N E : ℝ} (hT : 0 ≤ T) (hN : 1 ≤ N) : userB L δ D X η 0 T N E + ω ≤ userB L δ D X η ω T N E := by
  unfold userB grow
  have hL := Z.L0
  have h1 : 1 ≤ Real.exp (L * T + 0 * N) := Real.one_le_exp (by rw [zero_mul, add_zero]; positivity)
  have h2 : ω ≤ ω * N := le_mul_of_one_le_right hω hN
  nlinarith [mul_le_mul_of_nonneg_right h1 (hω.trans h2)]

/-- a state near the motion is not too large -/
theorem user_size (hw : Weights w) (Z : UserSizes L δ D X η) {T : ℝ} (S : Scaled w d U f φ L δ ρ D X T) {y : Fin n → ℚ} {s E : ℝ} (hs : s ∈ Set.Icc 0 T)
    (hE : ‖castW w y - φ s‖ ≤ E) (hρ : E + 26 * η * D + userR X D η ≤ ρ) (i : Fin n) : |y i| ≤ w i * X := by
  obtain ⟨-, -, hD, hη, hr⟩ := Z.parts
  have hX : (0 : ℝ) ≤ X := by exact_mod_cast Z.X0
  have h1 := S.size (castW w y) ⟨s, hs, hE.trans (by
    have : 0 ≤ 26 * (η : ℝ) * D := by positivity
    linarith)⟩
  have h2 : |(y i : ℝ)| ≤ w i * X := (scaled_norm hw hX).1 h1 i
  exact_mod_cast h2

/-- the steps of one call of the solver -/
theorem user_chain (hw : Weights w) (Z : UserSizes L δ D X η) {Tm : ℝ} (S : Scaled w d U f φ L δ ρ D X Tm) : ∀ (ts : List ℚ) (t T : ℚ) (y : Fin n → ℚ) (E : ℝ),
    Times η t ts T → 0 ≤ E → ‖castW w y - φ t‖ ≤ E → 0 ≤ t → (T : ℝ) ≤ Tm → userB L δ D X η 0 (T - t) ts.length E + 26 * η * D + userR X D η ≤ ρ →
    ∃ y' : Fin n → ℚ, rkTimesFl dopri (fun t y => d.computeStateDot t y (toFl U)) (.fin t) (toFl y) (ts.map .fin) = .ok (toFl y') ∧
      ‖castW w y' - φ T‖ ≤ userB L δ D X η 0 (T - t) ts.length E
  | [], t, T, y, E, hts, hE0, hy, ht0, hT, hρ => by
    have : t = T := hts
    subst this
    refine ⟨y, rfl, ?_⟩
    rw [sub_self]
    simpa [userB, grow_zero] using hy
  | t' :: ts, t, T, y, E, hts, hE0, hy, ht0, hT, hρ => by
    obtain ⟨g1, g2, g3⟩ := hts
    have hT' := times_le g3
    have r0 : (0 : ℝ) ≤ t := by exact_mod_cast ht0
    have r1 : (t : ℝ) ≤ t' := by exact_mod_cast g1
    have r2 : (t' : ℝ) ≤ T := by exact_mod_cast hT'
    have hcomp : userB L δ D X η 0 (T - t') ts.length (userB L δ D X η 0 (t' - t) 1 E) ≤ userB L δ D X η 0 (T - t) (t' :: ts).length E := by
      refine (userB_comp Z le_rfl (by linarith) (by norm_num) (by linarith) (by positivity)).trans (le_of_eq ?_)
      congr 1
      · ring
      · push_cast [List.length_cons]; ring
    have hs0 : 0 ≤ userB L δ D X η 0 (t' - t) 1 E := userB_nonneg Z le_rfl (by linarith) (by norm_num) hE0
    have hEle : E ≤ userB L δ D X η 0 (T - t) (t' :: ts).length E := le_userB Z le_rfl (by linarith) (by positivity) hE0
    have hρE : E + 26 * η * D + userR X D η ≤ ρ := by linarith
    have hs : (t : ℝ) ∈ Set.Icc 0 Tm := ⟨r0, by linarith⟩
    have hfield := user_field S Z hs hy hρE
    obtain ⟨y1, h1, h2⟩ := user_rkStep hw Z.X0 Z.X1 Z.D0 Z.D1 Z.eta1 (user_size hw Z S hs hy hρE) (t := t) (t' := t') (h := t' - t) rfl (by linarith) g2
      (g := fun t y => d.computeStateDot t y (toFl U)) (F := f (castW w y)) (W := δ + L * (26 * η * D + userR X D η)) (fun tf Y hY => by
        obtain ⟨v, k1, k2, k3⟩ := hfield tf Y hY
        exact ⟨v, k1, k2, k3⟩)
    have h3 := user_error S Z r0 (by push_cast; linarith) (by linarith) g2 hE0 hy hρE h2
    rw [show (t : ℝ) + ((t' - t : ℚ) : ℝ) = t' by push_cast; ring, Rat.cast_sub] at h3
    obtain ⟨y', h4, h5⟩ := user_chain hw Z S ts t' T y1 _ g3 hs0 h3 (ht0.trans g1) hT (by linarith)
    refine ⟨y', ?_, h5.trans hcomp⟩
    simp only [List.map_cons, rkTimesFl, h1, bind, Except.bind]
    exact h4

/-- a call with RK45 that takes at most `ν` steps, or an Euler step -/
def UserCall (env : Env (b64Of libm)) (d : Dyn (b64Of libm)) (n : ℕ) {m : ℕ} (η : ℚ) (ν : ℕ) (U : Fin m → ℚ) (h : ℚ) : Prop :=
  (d.integrationMethod = "RK45" ∧ Integrates env n (2 ^ 100) η ν (fun t y => d.computeStateDot t y (toFl U)) h) ∨
    (d.integrationMethod = "Euler" ∧ d.trajectorySamples ≤ 0 ∧ h ≤ η)

/-- one call; `P` holds of whatever the limits and the wrapping make of states near the end of the motion -/
theorem user_call (hw : Weights w) (Z : UserSizes L δ D X η) (hwX : ∀ i, w i * X ≤ 2 ^ 100) {h : ℚ} (S : Scaled w d U f φ L δ ρ D X h) (hc : d.custom = none)
    {env : Env (b64Of libm)} {ν : ℕ} (hν : 1 ≤ ν) (hm : UserCall env d n η ν U h) (hh0 : 0 ≤ h) {s : Fin n → ℚ} {E : ℝ} (hE0 : 0 ≤ E) (hE : ‖castW w s - φ 0‖ ≤ E)
    (hρ : userB L δ D X η 0 h ν E + 26 * η * D + userR X D η ≤ ρ) {P : (Fin n → ℚ) → Prop}
    (hfin : ∀ s1 : Fin n → ℚ, ‖castW w s1 - φ h‖ ≤ userB L δ D X η 0 h ν E → ∃ s2, Finished d s1 s2 ∧ P s2) :
    ∃ (tr : Option (List (Vec (b64Of libm)))) (trT : Option (Vec (b64Of libm))) (s2 v : Fin n → ℚ),
      d.step env (.fin h) (toFl s) (toFl U) = ({ d with trajectory := tr, trajectoryT := trT }, .ok (toFl s2, toFl v)) ∧ P s2 := by
  obtain ⟨hp, hq, hD, hη, hr⟩ := Z.parts
  have hhR : (0 : ℝ) ≤ h := by exact_mod_cast hh0
  have hq0 : (0 : ℝ) ≤ 2 * userR X D η + 0 := by rw [add_zero]; exact hq
  have hEle : E ≤ userB L δ D X η 0 h ν E := le_userB Z le_rfl hhR (by positivity) hE0
  have hρE : E + 26 * η * D + userR X D η ≤ ρ := by linarith
  have h0 : (0 : ℝ) ∈ Set.Icc 0 (h : ℝ) := ⟨le_rfl, hhR⟩
  have hsz := user_size hw Z S h0 hE hρE
  have hrad : (0 : ℝ) ≤ 26 * η * D + userR X D η := by positivity
  rcases hm with ⟨hm, hi⟩ | ⟨hm, hsamp, hhη⟩
  · obtain ⟨ts, q1, q2, q3⟩ := hi s (d.tEval (.fin h)) (fun i => (hsz i).trans (hwX i))
    have hts : userB L δ D X η 0 ((h : ℝ) - ((0 : ℚ) : ℝ)) ts.length E ≤ userB L δ D X η 0 h ν E := by
      rw [Rat.cast_zero, sub_zero]
      exact grow_mono Z.L0 le_rfl hp hq0 hhR (by positivity) hE0 le_rfl (by exact_mod_cast q1) le_rfl
    obtain ⟨s1, k1, k2⟩ := user_chain hw Z S ts 0 h s E q2 hE0 (by simpa using hE) le_rfl le_rfl (by linarith)
    obtain ⟨sol, k3, k4⟩ := q3 _ k1
    have k5 := k2.trans hts
    obtain ⟨v, v1, -⟩ := user_field S Z (s := (h : ℝ)) ⟨hhR, le_rfl⟩ k5 hρ (.fin h) s1 (by rw [sub_self, norm_zero]; exact hrad)
    obtain ⟨s2, f1, f2⟩ := hfin s1 k5
    exact ⟨_, _, s2, v, rk45Step_finished hc hm k3 k4 v1 f1, f2⟩
  · obtain ⟨v, v1, v2, v3⟩ := user_field S Z h0 hE hρE 0 s (by rw [sub_self, norm_zero]; exact hrad)
    obtain ⟨s1, k1, k2⟩ := user_eulerStep (libm := libm) hw Z.X0 Z.X1 Z.D0 Z.D1 Z.eta1 hsz hh0 hhη v2 v3
    have k3 := user_error S Z le_rfl (by rw [zero_add]) hh0 hhη hE0 hE hρE k2
    rw [zero_add] at k3
    obtain ⟨s2, f1, f2⟩ := hfin s1 (k3.trans (grow_mono Z.L0 le_rfl hp hq0 hhR (by norm_num) hE0 le_rfl (by exact_mod_cast hν) le_rfl))
    exact ⟨d.trajectory, d.trajectoryT, s2, v, eulerStep_finished hc hm hsamp v1 k1 f1 env, f2⟩

end

/-- An exact motion under the calls of a history, from `y`. After each call it goes on from a state `z'` that is, for the user, as good as its end: limits
and wrapping take a state at a distance `E` from the end of the motion to one within `E + ω` of `z'`. It may end in any state of `Z`. -/
def FollowsUpTo {libm : Fmt ℚ} {n m : ℕ} (env : Env (b64Of libm)) (e : Entity (b64Of libm)) (w : Fin n → ℚ) (f : (Fin m → ℚ) → (Fin n → ℝ) → Fin n → ℝ)
    (L δ ρ ω : ℝ) (D X : ℚ) (Z : (Fin n → ℝ) → Prop) : List (ℚ × Action (b64Of libm)) → (Fin n → ℝ) → Prop
  | [], y => Z y
  | (T, a) :: hist, y => 0 ≤ T ∧ ∃ (U : Fin m → ℚ) (φ : ℝ → Fin n → ℝ), Applied env e a (toFl U) ∧ Shadows w e.dynamics U (f U) φ L δ ρ D X T ∧
      φ 0 = y ∧ ∀ y1 : Fin n → ℚ, (∀ i, |y1 i - φ T i| ≤ w i * ρ) → ∃ (y2 : Fin n → ℚ) (z' : Fin n → ℝ), Finished e.dynamics y1 y2 ∧
        (∀ E, 0 ≤ E → (∀ i, |y1 i - φ T i| ≤ w i * E) → ∀ i, |y2 i - z' i| ≤ w i * (E + ω)) ∧ FollowsUpTo env e w f L δ ρ ω D X Z hist z'

section
variable {libm : Fmt ℚ} {n m : ℕ} {w : Fin n → ℚ} {env : Env (b64Of libm)} {e0 : Entity (b64Of libm)} {f : (Fin m → ℚ) → (Fin n → ℝ) → Fin n → ℝ} {L δ ρ : ℝ}
  {D X η : ℚ} {ω : ℝ} {Q : (Fin n → ℝ) → Prop} {ν : ℕ}

theorem applied_same {e : Entity (b64Of libm)} {dyn : Dyn (b64Of libm)} {st sd : Vec (b64Of libm)} {a : Action (b64Of libm)} {v : Vec (b64Of libm)}
    (h : Applied env e a v) : Applied env ({ e with dynamics := dyn, state := st, stateDot := sd } : Entity (b64Of libm)) a v := by
  obtain ⟨ty, u, g, gc⟩ := applied_iff.1 h
  refine applied_iff.2 ⟨ty, u, ?_, gc⟩
  rw [← g]
  cases a <;> rfl

/-- a whole simulation -/
theorem user_run (hw : Weights w) (Z : UserSizes L δ D X η) (hwX : ∀ i, w i * X ≤ 2 ^ 100) (hω : 0 ≤ ω) (hν : 1 ≤ ν) (hc : e0.dynamics.custom = none) :
    ∀ (hist : List (ℚ × Action (b64Of libm))),
    (∀ h ∈ hist, 0 ≤ h.1 ∧ ∀ U : Fin m → ℚ, Applied env e0 h.2 (toFl U) → UserCall env e0.dynamics n η ν U h.1) →
    ∀ (s : Fin n → ℚ) (sd : Vec (b64Of libm)) (tr : Option (List (Vec (b64Of libm)))) (trT : Option (Vec (b64Of libm))) (y : Fin n → ℝ) (E : ℝ), 0 ≤ E →
    (∀ i, |s i - y i| ≤ w i * E) → FollowsUpTo env e0 w f L δ ρ ω D X Q hist y →
    userB L δ D X η ω ((hist.map (·.1)).sum : ℚ) (hist.length * ν) E + 26 * η * D + userR X D η ≤ ρ →
    ∃ (s' : Fin n → ℚ) (z : Fin n → ℝ),
      (Entity.run env { e0 with dynamics := { e0.dynamics with trajectory := tr, trajectoryT := trT }, state := toFl s, stateDot := sd } (stepsOf hist)).state = toFl s' ∧
      Q z ∧ ∀ i, |s' i - z i| ≤ w i * userB L δ D X η ω ((hist.map (·.1)).sum : ℚ) (hist.length * ν) E
  | [], _, s, sd, tr, trT, y, E, hE0, hE, hF, hρ => by
    refine ⟨s, y, rfl, hF, ?_⟩
    simpa [userB, grow_zero] using hE
  | (h, act) :: hist, hh, s, sd, tr, trT, y, E, hE0, hE, hF, hρ => by
    obtain ⟨hp, hq, hD, hη, hr⟩ := Z.parts
    obtain ⟨h0, U, φ, ha, S, rfl, hF'⟩ := hF
    have gr : (0 : ℝ) ≤ h := by exact_mod_cast h0
    have hν' : (1 : ℝ) ≤ ν := by exact_mod_cast hν
    have hsum : (0 : ℝ) ≤ ((hist.map (·.1)).sum : ℚ) := by
      refine Rat.cast_nonneg.2 (List.sum_nonneg ?_)
      intro x hx
      obtain ⟨p, hp, rfl⟩ := List.mem_map.1 hx
      exact (hh p (by simp [hp])).1
    simp only [List.map_cons, List.sum_cons, Rat.cast_add, List.length_cons, Nat.cast_add, Nat.cast_one] at hρ ⊢
    set T' : ℝ := (((hist.map (·.1)).sum : ℚ) : ℝ) with hT'
    have hcomp : userB L δ D X η ω T' (hist.length * ν) (userB L δ D X η ω h ν E) ≤ userB L δ D X η ω (h + T') ((hist.length + 1) * ν) E := by
      refine (userB_comp Z hω gr (by positivity) hsum (by positivity)).trans (le_of_eq ?_)
      congr 1
      ring
    have hs0 : 0 ≤ userB L δ D X η ω h ν E := userB_nonneg Z hω gr (by positivity) hE0
    have hs0' : 0 ≤ userB L δ D X η 0 h ν E := userB_nonneg Z le_rfl gr (by positivity) hE0
    have hsle : userB L δ D X η ω h ν E ≤ userB L δ D X η ω (h + T') ((hist.length + 1) * ν) E :=
      le_trans (le_userB Z hω hsum (by positivity) hs0) hcomp
    have hadd := userB_add (E := E) Z hω gr hν'
    have hηD : 0 ≤ 26 * (η : ℝ) * D := by positivity
    have hρ0 : 0 ≤ ρ := by linarith
    set d : Dyn (b64Of libm) := { e0.dynamics with trajectory := tr, trajectoryT := trT } with hd
    have Sd : Shadows w d U (f U) φ L δ ρ D X h := ⟨S.solves, S.computes, S.lipschitz, S.speed, S.size⟩
    have sc : ∀ (t : ℝ) (s1 : Fin n → ℚ) {c : ℝ}, 0 ≤ c → (‖castW w s1 - (fun i => φ t i / w i)‖ ≤ c ↔ ∀ i, |s1 i - φ t i| ≤ w i * c) := fun t s1 c hc0 => by
      rw [← scaled_norm hw hc0]
      have e : castW w s1 - (fun i => φ t i / w i) = fun i => (s1 i - φ t i) / w i := by
        funext i
        simp only [castW, Pi.sub_apply]
        ring
      rw [e]
    obtain ⟨tr1, trT1, s2, v, k1, z', k2, k3⟩ := user_call hw Z hwX (Sd.scaled hw Z.L0 Z.del0 hρ0 Z.D0 Z.X0) hc hν ((hh (h, act) (by simp)).2 U ha) h0 hE0
      ((sc 0 s hE0).2 hE) (by linarith)
      (P := fun s2 => ∃ z' : Fin n → ℝ, (∀ i, |s2 i - z' i| ≤ w i * userB L δ D X η ω h ν E) ∧ FollowsUpTo env e0 w f L δ ρ ω D X Q hist z') (by
        intro s1 hs1
        have hs1' := (sc h s1 hs0').1 hs1
        obtain ⟨y2, z', q1, q2, q3⟩ := hF' s1 fun i => (hs1' i).trans (mul_le_mul_of_nonneg_left (by linarith) (hw.cast_pos i).le)
        exact ⟨y2, q1, z', fun i => (q2 _ hs0' hs1' i).trans (mul_le_mul_of_nonneg_left hadd (hw.cast_pos i).le), q3⟩)
    obtain ⟨ww, hww⟩ := step_applied (env := env) (e := { e0 with dynamics := d, state := toFl s, stateDot := sd }) (applied_same ha) (.fin h) k1
    obtain ⟨s', z, h3, h4, h5⟩ := user_run hw Z hwX hω hν hc hist (fun q hq => hh q (by simp [hq])) s2 (toFl v) tr1 trT1 z' _ hs0 k2 k3 (by rw [← hT']; linarith)
    rw [← hT'] at h5
    refine ⟨s', z, ?_, h4, fun i => (h5 i).trans (mul_le_mul_of_nonneg_left hcomp (hw.cast_pos i).le)⟩
    rw [stepsOf_cons, run_cons]
    simp only [Entity.op]
    rw [hww]
    exact h3

end

theorem userB_eq (L δ : ℝ) (D X η : ℚ) (ω T N E : ℝ) : userB L δ D X η ω T N E =
    Real.exp (L * T) * (E + (2 * δ + 46 * L * D * η) * T + N * (2 * (2⁻¹ ^ 48 * (X + 26 * η * D + 2⁻¹ ^ 500)) + ω)) := by
  obtain ⟨κ, hκ⟩ : ∃ κ : ℚ, κ = 2⁻¹ ^ 500 := ⟨_, rfl⟩
  have hκ' : (κ : ℝ) = 2⁻¹ ^ 500 := by rw [hκ]; push_cast; rfl
  unfold userB grow userP userR
  rw [← hκ', ← hκ]
  push_cast
  rw [zero_mul, add_zero]
  congr 1
  ring

theorem userR_eq (X D η : ℚ) : ((userR X D η : ℚ) : ℝ) = 2⁻¹ ^ 48 * (X + 26 * η * D + 2⁻¹ ^ 500) := by
  obtain ⟨κ, hκ⟩ : ∃ κ : ℚ, κ = 2⁻¹ ^ 500 := ⟨_, rfl⟩
  have hκ' : (κ : ℝ) = 2⁻¹ ^ 500 := by rw [hκ]; push_cast; rfl
  unfold userR
  rw [← hκ', ← hκ]
  push_cast
  rfl

end SAD
