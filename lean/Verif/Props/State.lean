import Verif.Lemmas.Applied
import Verif.Lemmas.Wrap
import Verif.Lemmas.StateDot
import Verif.Lemmas.Binary
import Verif.Props.Demo

/-!
# C08 - C14: state limits, angle wrapping, derivative limits
-/

set_option linter.unusedSectionVars false

namespace SAD
open Spec

/-! ## C08 state limits -/

section anyFormat
variable {K : Type} {R : Fmt K} [Field K] [LinearOrder K] [FloorRing K]

/-- After any history of operations ending in a successful step, every unwrapped state element is NaN or inside its limits,
for every floating point format, every ODE solver, every dynamics (ODE or custom `_step`) and every action. -/
theorem C08_state_limits (env : Env R) (e : Entity R) (ops : List (Op R)) (dt : Fl R) (a : Action R)
    (hord : Ordered e.dynamics.stateMin e.dynamics.stateMax)
    (hok : ((e.run env ops).step env dt a).outcome = .ok ())
    (i : Nat) (s : Fl R) (hs : ((e.run env ops).step env dt a).entity.state[i]? = some s)
    (hw : NotWrapped e.dynamics i) :
    s = .nan ∨ ∃ lo hi, e.dynamics.stateMin.at i = some lo ∧ e.dynamics.stateMax.at i = some hi ∧ Within lo hi s := by
  obtain ⟨c1, c2, c3⟩ := SameConfig.limits (run_sameConfig env ops e)
  obtain ⟨ty, u, v, d, s', sd, h1, h2, h3, h4⟩ := step_ok hok
  rw [h4] at hs
  have h5 : ((e.run env ops).dynamics.step env dt (e.run env ops).state v).2 = .ok (s', sd) := by rw [h3]
  obtain ⟨next, -, hel⟩ := dynStep_ok h5
  obtain ⟨x, lo, hi, g1, g2, g3, g4, -⟩ := hel i s (bget_of_get hs)
  rw [c1] at g2
  rw [c2] at g3
  have hw' : NotWrapped (e.run env ops).dynamics i := by
    intro cs hcs; rw [c3] at hcs; exact hw cs hcs
  rw [g4 hw']
  by_cases hx : x = .nan
  · left; rw [hx, Fl.clip_nan]
  · right; exact ⟨lo, hi, g2, g3, Fl.clip_mem_range hx (hord i lo hi g2 g3)⟩

example : Ordered (Demo.dyn (R := b64) "RK45").stateMin (Demo.dyn (R := b64) "RK45").stateMax ∧
    NotWrapped (Demo.dyn (R := b64) "RK45") 0 ∧
    (((Demo.entity (R := b64) "RK45").run Demo.env [.step 20 (.list [1, 1])]).step Demo.env 9 (.list [1, -1])).outcome
      = .ok () ∧
    (((Demo.entity (R := b64) "RK45").run Demo.env [.step 20 (.list [1, 1])]).step Demo.env 9 (.list [1, -1])).entity.state
      = [.fin 10, .fin 1] := by
  refine ⟨?_, ?_, by decide +kernel, by decide +kernel⟩
  · intro i l h hl hh
    match i with
    | 0 => simp [Demo.dyn, Arr.at] at hl hh; subst hl hh; simp
    | 1 => simp [Demo.dyn, Arr.at] at hl hh; subst hl hh; simp
    | n + 2 => simp [Demo.dyn, Arr.at] at hh
  · intro cs h; simp [Demo.dyn] at h

/-- The limits do not exclude NaN: once the integrator produces NaN, the entity stores it. -/
theorem C08_nan_not_caught : ∃ (e : Entity b64) (a : Action b64), (e.step Demo.env 1 a).outcome = .ok () ∧
    (e.step Demo.env 1 a).entity.state[0]? = some .nan :=
  ⟨Demo.entity "RK45", .list [.nan, 1], by decide +kernel, by decide +kernel⟩

end anyFormat

/-! ## C09 wrapped angles stay in range -/

section wrap
variable {K : Type} {R : Fmt K} [Field K] [LinearOrder K] [IsStrictOrderedRing K] [FloorRing K]

/-- elements of the state after a history ending in a successful step: where they come from -/
private theorem wrapped_elem (env : Env R) (e : Entity R) (ops : List (Op R)) (dt : Fl R) (a : Action R)
    (hok : ((e.run env ops).step env dt a).outcome = .ok ()) (i : Nat) (s c : Fl R)
    (hs : ((e.run env ops).step env dt a).entity.state[i]? = some s) (hw : WrappedAt e.dynamics i c) :
    ∃ x, s = wrapElem x c := by
  obtain ⟨c1, c2, c3⟩ := SameConfig.limits (run_sameConfig env ops e)
  obtain ⟨ty, u, v, d, s', sd, h1, h2, h3, h4⟩ := step_ok hok
  rw [h4] at hs
  have h5 : ((e.run env ops).dynamics.step env dt (e.run env ops).state v).2 = .ok (s', sd) := by rw [h3]
  obtain ⟨next, -, hel⟩ := dynStep_ok h5
  obtain ⟨x, lo, hi, g1, g2, g3, -, g4⟩ := hel i s (bget_of_get hs)
  refine ⟨_, g4 c ?_⟩
  obtain ⟨cs, hcs, hc⟩ := hw
  exact ⟨cs, by rw [c3]; exact hcs, hc⟩

/-- Exact arithmetic: a wrapped element with centre `c` is NaN or in `[c - pi, c + pi)` after every history ending in a
successful step. -/
theorem C09_wrapped_range [Exact R] (hpi : 0 < R.pi) (env : Env R) (e : Entity R) (ops : List (Op R)) (dt : Fl R)
    (a : Action R) (hok : ((e.run env ops).step env dt a).outcome = .ok ()) (i : Nat) (s : Fl R) (c : K)
    (hs : ((e.run env ops).step env dt a).entity.state[i]? = some s) (hw : WrappedAt e.dynamics i (.fin c)) :
    s = .nan ∨ ∃ x, s = .fin x ∧ c - R.pi ≤ x ∧ x < c + R.pi := by
  obtain ⟨x, rfl⟩ := wrapped_elem env e ops dt a hok i s _ hs hw
  cases x with
  | fin y => right; rw [wrapElem_exact hpi]; exact ⟨_, rfl, wrap_range hpi y c⟩
  | nan => left; exact wrapElem_exact_nonfin _ _ rfl
  | ninf => left; exact wrapElem_exact_nonfin _ _ rfl
  | pinf => left; exact wrapElem_exact_nonfin _ _ rfl

/-- Any monotone, idempotent rounding with representable `pi` (binary64 is one, `b64Of_sound`): with centre 0 a wrapped
element is NaN or in the closed interval `[-pi, pi]` after every history ending in a successful step. -/
theorem C09_wrapped_range_rounded (hR : Sound R) (env : Env R) (e : Entity R) (ops : List (Op R)) (dt : Fl R)
    (a : Action R) (hok : ((e.run env ops).step env dt a).outcome = .ok ()) (i : Nat) (s : Fl R)
    (hs : ((e.run env ops).step env dt a).entity.state[i]? = some s) (hw : WrappedAt e.dynamics i (.fin 0)) :
    s = .nan ∨ ∃ x, s = .fin x ∧ -R.pi ≤ x ∧ x ≤ R.pi := by
  obtain ⟨x, rfl⟩ := wrapped_elem env e ops dt a hok i s _ hs hw
  unfold wrapElem
  rcases wrapCore_sound hR x with h | ⟨y, h, h1, h2, h3⟩
  · left; rw [h]; rfl
  · right; rw [h]
    refine ⟨y, ?_, h1, h2⟩
    show Fl.round (y + 0) = _
    rw [add_zero, h3]

/-- For a general finite centre the bounds are the rounded `c - pi` and `c + pi`. -/
theorem C09_wrapped_range_rounded_centre (hR : Sound R) (env : Env R) (e : Entity R) (ops : List (Op R)) (dt : Fl R)
    (a : Action R) (hok : ((e.run env ops).step env dt a).outcome = .ok ()) (i : Nat) (s : Fl R) (c : K)
    (hs : ((e.run env ops).step env dt a).entity.state[i]? = some s) (hw : WrappedAt e.dynamics i (.fin c)) :
    s = .nan ∨ (Fl.round (c - R.pi) ≤ s ∧ s ≤ Fl.round (c + R.pi)) := by
  obtain ⟨x, rfl⟩ := wrapped_elem env e ops dt a hok i s _ hs hw
  unfold wrapElem
  rcases wrapCore_sound hR x with h | ⟨y, h, h1, h2, h3⟩
  · left; rw [h]; rfl
  · right; rw [h]
    exact ⟨hR.mono _ _ (by linarith), hR.mono _ _ (by linarith)⟩

/-- a dynamics that stays put (`x' = 0`) with one wrapped element -/
def Demo.spin {R : Fmt K} (center : Fl R) : Dyn R :=
  { Demo.dyn "Euler" with
    stateMin := .scalar .ninf, stateMax := .scalar .pinf, angleWrapCenters := some [center], rhs := fun _ _ _ => .ok [.fin 0] }

def Demo.spinEntity {R : Fmt K} (center s : Fl R) : Entity R :=
  { Demo.entity "Euler" with dynamics := Demo.spin center, state := [s] }

/-- In double precision both ends of the closed interval are attained: one ulp below `-pi` wraps to `+pi`, and `-pi` to
itself. So the half-open range of the exact case does not hold in floating point. -/
theorem C09_both_ends_attained :
    ((Demo.spinEntity (R := b64) 0 (.fin (-(b64.pi) - 1 / 2251799813685248))).step Demo.env 1 .none).entity.state
      = [.fin b64.pi] ∧
    ((Demo.spinEntity (R := b64) 0 (.fin (-b64.pi))).step Demo.env 1 .none).entity.state = [.fin (-b64.pi)] := by
  decide +kernel

example : WrappedAt (Demo.spin (K := ℚ) (R := b64) (.fin 0)) 0 (.fin 0) ∧
    ((Demo.spinEntity (K := ℚ) (R := b64) (.fin 0) (.fin 100)).step Demo.env 1 .none).outcome = .ok () ∧
    ((Demo.spinEntity (K := ℚ) (R := ratFmt) (.fin 0) (.fin 4)).step Demo.env 1 .none).entity.state
      = [.fin (4 - 44 / 7)] := by
  refine ⟨⟨_, rfl, rfl, by simp⟩, by decide +kernel, by decide +kernel⟩

/-! ## C10 wrapping around 0 preserves the angle -/

/-- Wrapping a one-element state around 0 gives the same angle (mod 2 pi), in `[-pi, pi)`. -/
theorem C10_wrap_same_angle [Exact R] (hpi : 0 < R.pi) (d : Dyn R) (hd : d.angleWrapCenters = some [.fin 0]) (a : K) :
    ∃ b, d.wrapAngles [.fin a] = .ok [.fin b] ∧ SameAngle R.pi a b ∧ -R.pi ≤ b ∧ b < R.pi := by
  have hr := wrap_range hpi a 0
  refine ⟨a + 0 - 2 * R.pi * ⌊(a + R.pi) / (2 * R.pi)⌋, ?_, ?_, ?_, ?_⟩
  · simp only [Dyn.wrapAngles, hd, bcast2, List.length_cons, List.length_nil, if_true, List.zipWith_cons_cons,
      List.zipWith_nil_left, Fl.isNan_fin, Bool.false_eq_true, if_false, wrapElem_exact hpi]
  · refine ⟨-⌊(a + R.pi) / (2 * R.pi)⌋, ?_⟩
    push_cast; ring
  · linarith [hr.1]
  · linarith [hr.2]

/-- The representative in `[-pi, pi)` is unique. -/
theorem same_angle_unique {pi a b : K} (hpi : 0 < pi) (h : SameAngle pi a b) (ha1 : -pi ≤ a) (ha2 : a < pi)
    (hb1 : -pi ≤ b) (hb2 : b < pi) : a = b := by
  obtain ⟨k, hk⟩ := h
  have h1 : (-1 : K) < k := by nlinarith
  have h2 : (k : K) < 1 := by nlinarith
  have h3 : (-1 : ℤ) < k := by exact_mod_cast h1
  have h4 : k < (1 : ℤ) := by exact_mod_cast h2
  have : k = 0 := by omega
  subst this
  simpa using hk.symm

theorem sameAngle_symm {pi a b : K} (h : SameAngle pi a b) : SameAngle pi b a := by
  obtain ⟨k, hk⟩ := h
  exact ⟨-k, by rw [hk]; push_cast; ring⟩

theorem sameAngle_trans {pi a b c : K} (h : SameAngle pi a b) (h' : SameAngle pi b c) : SameAngle pi a c := by
  obtain ⟨k, hk⟩ := h
  obtain ⟨l, hl⟩ := h'
  exact ⟨k + l, by rw [hl, hk]; push_cast; ring⟩

/-- Wrapping around 0 is the identity on `[-pi, pi)` and hence idempotent. -/
theorem C10_wrap_identity_in_range [Exact R] (hpi : 0 < R.pi) (d : Dyn R) (hd : d.angleWrapCenters = some [.fin 0])
    (a : K) (h1 : -R.pi ≤ a) (h2 : a < R.pi) : d.wrapAngles [.fin a] = .ok [.fin a] := by
  obtain ⟨b, hb, hs, hb1, hb2⟩ := C10_wrap_same_angle hpi d hd a
  rw [hb, same_angle_unique hpi hs h1 h2 hb1 hb2]

/-- Two angles wrap to the same value exactly when they differ by a whole number of turns. -/
theorem C10_wrap_complete [Exact R] (hpi : 0 < R.pi) (d : Dyn R) (hd : d.angleWrapCenters = some [.fin 0]) (a a' : K) :
    d.wrapAngles [.fin a] = d.wrapAngles [.fin a'] ↔ SameAngle R.pi a a' := by
  obtain ⟨b, hb, hs, hb1, hb2⟩ := C10_wrap_same_angle hpi d hd a
  obtain ⟨b', hb', hs', hb1', hb2'⟩ := C10_wrap_same_angle hpi d hd a'
  rw [hb, hb']
  constructor
  · intro h
    simp only [Except.ok.injEq, List.cons.injEq, Fl.fin.injEq, and_true] at h
    subst h
    exact sameAngle_trans hs (sameAngle_symm hs')
  · intro h
    rw [same_angle_unique hpi (sameAngle_trans (sameAngle_trans (sameAngle_symm hs) h) hs') hb1 hb2 hb1' hb2']

/-- Elements with NaN centre (and states of dynamics without centres) are never changed by wrapping, in any format. -/
theorem C10_unwrapped_untouched (d : Dyn R) (s s' : Vec R) (h : d.wrapAngles s = .ok s') (i : Nat)
    (hw : NotWrapped d i) : bget s' i = some x → bget s i = some x := by
  intro hx
  unfold Dyn.wrapAngles at h
  cases hc : d.angleWrapCenters with
  | none => rw [hc] at h; cases h; exact hx
  | some cs =>
    rw [hc] at h
    obtain ⟨y, c, b1, b2, b3⟩ := bcast2_bget h hx
    have := hw cs hc
    rw [b2] at this
    cases this
    simp at b3
    rw [b1, b3]

example : (Demo.spin (R := ratFmt) (.fin 0)).angleWrapCenters = some [.fin 0] ∧ 0 < ratFmt.pi ∧
    SameAngle ratFmt.pi 1 (1 + 3 * (44 / 7)) := by
  refine ⟨rfl, by simp [ratFmt], 3, by simp [ratFmt]; norm_num⟩

/-! ## C11 a non-zero centre shifts the angle -/

/-- For a centre `c` the wrapped value has the angle `a + c`, not `a`. -/
theorem C11_wrap_angle_shifted [Exact R] (hpi : 0 < R.pi) (d : Dyn R) (c : K)
    (hd : d.angleWrapCenters = some [.fin c]) (a : K) :
    ∃ b, d.wrapAngles [.fin a] = .ok [.fin b] ∧ SameAngle R.pi (a + c) b ∧ c - R.pi ≤ b ∧ b < c + R.pi := by
  have hr := wrap_range hpi a c
  refine ⟨a + c - 2 * R.pi * ⌊(a + R.pi) / (2 * R.pi)⌋, ?_, ?_, hr.1, hr.2⟩
  · simp only [Dyn.wrapAngles, hd, bcast2, List.length_cons, List.length_nil, if_true, List.zipWith_cons_cons,
      List.zipWith_nil_left, Fl.isNan_fin, Bool.false_eq_true, if_false, wrapElem_exact hpi]
  refine ⟨-⌊(a + R.pi) / (2 * R.pi)⌋, ?_⟩
  push_cast; ring

/-- Hence wrapping preserves the angle iff the centre is a multiple of 2 pi. -/
theorem C11_wrap_preserves_iff [Exact R] (hpi : 0 < R.pi) (d : Dyn R) (c : K)
    (hd : d.angleWrapCenters = some [.fin c]) (a b : K) (hb : d.wrapAngles [.fin a] = .ok [.fin b]) :
    SameAngle R.pi a b ↔ SameAngle R.pi 0 c := by
  obtain ⟨b', hb', hs, -⟩ := C11_wrap_angle_shifted hpi d c hd a
  rw [hb] at hb'
  simp only [Except.ok.injEq, List.cons.injEq, Fl.fin.injEq, and_true] at hb'
  subst hb'
  constructor
  · intro h
    obtain ⟨k, hk⟩ := hs
    obtain ⟨l, hl⟩ := h
    exact ⟨l - k, by push_cast; linarith⟩
  · rintro ⟨k, hk⟩
    obtain ⟨l, hl⟩ := hs
    exact ⟨l + k, by rw [hl, hk]; push_cast; ring⟩

/-- `n` steps of a system at rest with centre `c` turn its angle by `n * c`. -/
theorem C11_drift [Exact R] (hpi : 0 < R.pi) (env : Env R) (c a : K) (n : Nat) (acts : List (Action R))
    (hn : acts.length = n)
    (hacts : ∀ act ∈ acts, ((Demo.spinEntity (R := R) (.fin c) (.fin a)).step env 1 act).outcome = .ok ()) :
    ∃ b, ((Demo.spinEntity (R := R) (.fin c) (.fin a)).run env (acts.map (.step 1))).state = [.fin b] ∧
      SameAngle R.pi (a + n * c) b := by
  subst hn
  -- every step of this entity, whatever its action, depends only on the state
  have key : ∀ (e : Entity R) (x : K) (act : Action R), SameConfig (Demo.spinEntity (R := R) (.fin c) (.fin a)) e →
      e.state = [.fin x] → ((Demo.spinEntity (R := R) (.fin c) (.fin a)).step env 1 act).outcome = .ok () →
      ∃ y, (e.step env 1 act).entity.state = [.fin y] ∧ SameAngle R.pi (x + c) y := by
    intro e x act hc hx hok
    obtain ⟨c1, c2, c3, c4, c5, c6⟩ := hc
    have hres : e.resolve env act = (Demo.spinEntity (R := R) (.fin c) (.fin a)).resolve env act := by
      cases act <;> simp [Entity.resolve, c2, c5]
    obtain ⟨ty, u, v, d, s, sd, h1, h2, h3, h4⟩ := step_ok hok
    have hcfg : e.dynamics = { Demo.spin (R := R) (.fin c) with
        trajectory := e.dynamics.trajectory, trajectoryT := e.dynamics.trajectoryT } := by
      have : Demo.spin (R := R) (.fin c) = (Demo.spinEntity (R := R) (.fin c) (.fin a)).dynamics := rfl
      rw [this, ← c6]
    have hstep : (e.dynamics.step env 1 [.fin x] v).2 =
        .ok ([.fin (x + c - 2 * R.pi * ⌊(x + R.pi) / (2 * R.pi)⌋)], [.fin 0]) := by
      rw [hcfg]
      have hw := wrapElem_exact (R := R) hpi x c
      simp [Dyn.step, Dyn.rawStep, Dyn.odeStep, Demo.spin, Demo.dyn, Dyn.computeStateDot, Dyn.clipStateDotDirect,
        Dyn.clipStateDotByStateLimits, npClip, bcast2, npWhere, Arr.toVec, bind, Except.bind, pure, Except.pure, vadd,
        vscale, Dyn.wrapAngles, Fl.npMax, Fl.npMin, hw]
    have hok' : (e.step env 1 act).entity.state = [.fin (x + c - 2 * R.pi * ⌊(x + R.pi) / (2 * R.pi)⌋)] := by
      unfold Entity.step
      rw [hres, h1]
      simp only [c3, c4]
      unfold Entity.step at hok
      rw [h1] at hok
      simp only at hok
      split at hok
      · cases hok
      · rename_i w hw
        simp only [hw, h2, hx]
        cases hds : e.dynamics.step env 1 [.fin x] v with
        | mk d' r' =>
          rw [hds] at hstep
          simp only at hstep
          subst hstep
          rfl
    refine ⟨_, hok', ?_⟩
    refine ⟨-⌊(x + R.pi) / (2 * R.pi)⌋, ?_⟩
    push_cast; ring
  suffices ∀ (acts : List (Action R)) (e : Entity R) (x : K),
      (∀ act ∈ acts, ((Demo.spinEntity (R := R) (.fin c) (.fin a)).step env 1 act).outcome = .ok ()) →
      SameConfig (Demo.spinEntity (R := R) (.fin c) (.fin a)) e → e.state = [.fin x] →
      ∃ b, (e.run env (acts.map (.step 1))).state = [.fin b] ∧ SameAngle R.pi (x + acts.length * c) b from
    this acts _ a hacts (SameConfig.refl _) rfl
  intro acts
  induction acts with
  | nil => intro e x _ _ hx; exact ⟨x, hx, 0, by simp⟩
  | cons act acts ih =>
    intro e x hacts hc hx
    obtain ⟨y, hy, hs⟩ := key e x act hc hx (hacts act (by simp))
    obtain ⟨b, hb, hsb⟩ := ih (e.step env 1 act).entity y (fun a' h' => hacts a' (by simp [h']))
      (SameConfig.trans hc (step_sameConfig env e 1 act)) hy
    refine ⟨b, hb, ?_⟩
    obtain ⟨k, hk⟩ := hs
    obtain ⟨l, hl⟩ := hsb
    exact ⟨k + l, by rw [hl, hk, List.length_cons]; push_cast; ring⟩

/-- Witness: with centre 1 a system at rest at angle 0 reads 0, 1, 2, ... after 0, 1, 2, ... steps. -/
example : ((Demo.spinEntity (R := ratFmt) (.fin 1) (.fin 0)).run Demo.env [.step 1 .none, .step 1 .none]).state
    = [.fin 2] := by decide +kernel

/-! ## C12 limits and wrapping -/

/-- With centre 0 and limits inside `[-pi, pi)`, a wrapped element still obeys its own limits after every step. -/
theorem C12_wrapped_within_limits [Exact R] (hpi : 0 < R.pi) (env : Env R) (e : Entity R) (ops : List (Op R)) (dt : Fl R)
    (a : Action R) (hok : ((e.run env ops).step env dt a).outcome = .ok ()) (i : Nat) (s : Fl R) (lo hi : K)
    (hs : ((e.run env ops).step env dt a).entity.state[i]? = some s) (hw : WrappedAt e.dynamics i (.fin 0))
    (hlo : e.dynamics.stateMin.at i = some (.fin lo)) (hhi : e.dynamics.stateMax.at i = some (.fin hi))
    (hle : lo ≤ hi) (h1 : -R.pi ≤ lo) (h2 : hi < R.pi) :
    s = .nan ∨ ∃ x, s = .fin x ∧ lo ≤ x ∧ x ≤ hi := by
  obtain ⟨c1, c2, c3⟩ := SameConfig.limits (run_sameConfig env ops e)
  obtain ⟨ty, u, v, d, s', sd, g1, g2, g3, g4⟩ := step_ok hok
  rw [g4] at hs
  have h5 : ((e.run env ops).dynamics.step env dt (e.run env ops).state v).2 = .ok (s', sd) := by rw [g3]
  obtain ⟨next, -, hel⟩ := dynStep_ok h5
  obtain ⟨x, lo', hi', k1, k2, k3, -, k4⟩ := hel i s (bget_of_get hs)
  rw [c1, hlo] at k2; cases k2
  rw [c2, hhi] at k3; cases k3
  have hw' : WrappedAt (e.run env ops).dynamics i (.fin 0) := by
    obtain ⟨cs, hcs, hc⟩ := hw
    exact ⟨cs, by rw [c3]; exact hcs, hc⟩
  rw [k4 _ hw']
  by_cases hx : x = .nan
  · left; rw [hx, Fl.clip_nan]; exact wrapElem_exact_nonfin _ _ rfl
  · right
    have hr := Fl.clip_mem_range (a := x) hx (show (.fin lo : Fl R) ≤ .fin hi by simpa using hle)
    cases hc : Fl.clip x (.fin lo) (.fin hi) with
    | nan => rw [hc] at hr; simp at hr
    | ninf => rw [hc] at hr; simp at hr
    | pinf => rw [hc] at hr; simp at hr
    | fin y =>
      rw [hc] at hr
      simp only [Fl.fin_le_fin] at hr
      refine ⟨y, ?_, hr⟩
      rw [wrapElem_exact hpi]
      have : ⌊(y + R.pi) / (2 * R.pi)⌋ = 0 := by
        rw [Int.floor_eq_zero_iff]
        constructor
        · apply div_nonneg <;> linarith
        · rw [div_lt_one (by linarith)]; linarith
      rw [this]; simp

/-- The same under rounding, for limits that the wrapping computation reproduces exactly (an equation between constants
of the entity, checked below for double precision). -/
theorem C12_wrapped_within_limits_rounded (hR : Sound R) (env : Env R) (e : Entity R) (ops : List (Op R)) (dt : Fl R)
    (a : Action R) (hok : ((e.run env ops).step env dt a).outcome = .ok ()) (i : Nat) (s : Fl R) (lo hi : K)
    (hs : ((e.run env ops).step env dt a).entity.state[i]? = some s) (hw : WrappedAt e.dynamics i 0)
    (hlo : e.dynamics.stateMin.at i = some (.fin lo)) (hhi : e.dynamics.stateMax.at i = some (.fin hi))
    (hle : lo ≤ hi) (h1 : -R.pi ≤ lo) (h2 : hi < R.pi) (hwlo : wrapElem (.fin lo : Fl R) 0 = .fin lo)
    (hwhi : wrapElem (.fin hi : Fl R) 0 = .fin hi) :
    s = .nan ∨ ∃ x, s = .fin x ∧ lo ≤ x ∧ x ≤ hi := by
  obtain ⟨c1, c2, c3⟩ := SameConfig.limits (run_sameConfig env ops e)
  obtain ⟨ty, u, v, d, s', sd, g1, g2, g3, g4⟩ := step_ok hok
  rw [g4] at hs
  have h5 : ((e.run env ops).dynamics.step env dt (e.run env ops).state v).2 = .ok (s', sd) := by rw [g3]
  obtain ⟨next, -, hel⟩ := dynStep_ok h5
  obtain ⟨x, lo', hi', k1, k2, k3, -, k4⟩ := hel i s (bget_of_get hs)
  rw [c1, hlo] at k2; cases k2
  rw [c2, hhi] at k3; cases k3
  have hw' : WrappedAt (e.run env ops).dynamics i 0 := by
    obtain ⟨cs, hcs, hc⟩ := hw
    exact ⟨cs, by rw [c3]; exact hcs, hc⟩
  rw [k4 _ hw']
  by_cases hx : x = .nan
  · left; rw [hx, Fl.clip_nan]; rfl
  · right
    have hr := Fl.clip_mem_range (a := x) hx (show (.fin lo : Fl R) ≤ .fin hi by simpa using hle)
    cases hc : Fl.clip x (.fin lo) (.fin hi) with
    | nan => rw [hc] at hr; simp at hr
    | ninf => rw [hc] at hr; simp at hr
    | pinf => rw [hc] at hr; simp at hr
    | fin y =>
      rw [hc] at hr
      simp only [Fl.fin_le_fin] at hr
      exact wrapElem_between hR h1 hr.1 hr.2 h2 hwlo hwhi

/-- the limits ±1.047198 (as float32) of the three-dimensional Dubins aircraft's roll are such limits in binary64 -/
example : wrapElem (Fl.cast32 1.047198 : Fl b64) 0 = Fl.cast32 1.047198 ∧
    wrapElem (Fl.cast32 (-1.047198) : Fl b64) 0 = Fl.cast32 (-1.047198) := by decide +kernel

/-- Outside one turn this fails: with limits `[0, 10]`, 10 is wrapped to a negative angle, below `state_min`. -/
theorem C12_limit_violated_by_wrap :
    ∃ e : Entity b64, e.dynamics.stateMin = .scalar (.fin 0) ∧ e.dynamics.stateMax = .scalar (.fin 10) ∧
      WrappedAt e.dynamics 0 (.fin 0) ∧ (e.step Demo.env 1 .none).outcome = .ok () ∧
      ∃ s, (e.step Demo.env 1 .none).entity.state = [s] ∧ s < 0 := by
  let d : Dyn b64 := { Demo.spin (.fin 0) with stateMin := .scalar (.fin 0), stateMax := .scalar (.fin 10) }
  refine ⟨{ Demo.spinEntity (.fin 0) (.fin 4) with dynamics := d }, rfl, rfl, ⟨_, rfl, rfl, by simp⟩, by decide +kernel, ?_⟩
  exact ⟨_, rfl, by decide +kernel⟩

/-! ## C13 derivative limits -/

/-- `compute_state_dot` respects the derivative limits whenever they contain 0, for every model function; its result is NaN only
where the model's derivative is. -/
theorem C13_state_dot_limits (d : Dyn R) (t : Fl R) (s u v : Vec R) (h : d.computeStateDot t s u = .ok v) (i : Nat)
    (y l b : Fl R) (hy : v[i]? = some y) (hl : d.stateDotMin.at i = some l) (hb : d.stateDotMax.at i = some b)
    (h0l : l ≤ 0) (h0b : 0 ≤ b) :
    ∃ raw r, d.rhs t s u = .ok raw ∧ bget raw i = some r ∧ (y = .nan ↔ r = .nan) ∧ (r ≠ .nan → Within l b y) := by
  obtain ⟨raw, r, l', b', x, lo, hi, e1, e2, g1, g2, -, -, -, rfl⟩ := computeStateDot_elem h (bget_of_get hy)
  rw [hl] at g1; cases g1
  rw [hb] at g2; cases g2
  refine ⟨raw, r, e1, e2, ?_⟩
  suffices hs : (r = .nan → ∀ c1 c2 : Prop, ∀ [Decidable c1] [Decidable c2], (if c1 then Fl.clip (Fl.clip r l b) .ninf 0
      else if c2 then Fl.clip (Fl.clip r l b) 0 .pinf else Fl.clip r l b) = .nan) ∧
      (r ≠ .nan → Within l b (if hi ≤ x then Fl.clip (Fl.clip r l b) .ninf 0
        else if x ≤ lo then Fl.clip (Fl.clip r l b) 0 .pinf else Fl.clip r l b)) by
    refine ⟨⟨fun hn => ?_, fun hr => hs.1 hr _ _⟩, hs.2⟩
    by_contra hr
    have := hs.2 hr
    rw [hn] at this
    simp [Within] at this
  constructor
  · rintro rfl c1 c2 _ _
    simp
  · intro hr
    have hlb := Fl.le_trans' h0l h0b
    have hm := Fl.clip_mem_range hr hlb
    set c := Fl.clip r l b with hc
    have hcn : c ≠ .nan := Fl.ne_nan_of_le_left hm.2
    have h00 : (0 : Fl R) ≠ .nan := by simp
    split
    · rcases (Classical.em (c ≤ 0)) with hc0 | hc0
      · rw [Fl.clip_mem (Fl.ninf_le hcn) hc0]; exact hm
      · have := (Fl.not_le' hcn h00).1 hc0
        rw [Fl.clip_gt this (by simp)]; exact ⟨h0l, h0b⟩
    · split
      · rcases (Classical.em (0 ≤ c)) with hc0 | hc0
        · rw [Fl.clip_mem hc0 (Fl.le_pinf hcn)]; exact hm
        · have := (Fl.not_le' h00 hcn).1 hc0
          rw [Fl.clip_lt this (by simp)]; exact ⟨h0l, h0b⟩
      · exact hm

/-- If 0 is outside the derivative limits they can be violated (at a state limit the derivative is forced to 0). -/
theorem C13_violated_when_zero_excluded :
    ∃ (d : Dyn b64) (s u v : Vec b64), d.stateDotMin = .scalar (.fin 1) ∧ d.stateDotMax = .scalar (.fin 2) ∧
      d.computeStateDot 0 s u = .ok v ∧ v = [.fin 0] :=
  ⟨{ Demo.spin (.fin 0) with stateDotMin := .scalar (.fin 1), stateDotMax := .scalar (.fin 2), stateMax := .scalar (.fin 5) },
    [.fin 5], [], _, rfl, rfl, rfl, by decide +kernel⟩

/-! ## C14 no outward derivative at a limit -/

/-- Strictly inside the state limits the derivative is the model derivative saturated to the derivative limits; at or above
the upper limit it is not positive; at or below the lower limit (and below the upper) it is not negative. -/
theorem C14_no_outward_derivative (d : Dyn R) (t : Fl R) (s u v : Vec R) (h : d.computeStateDot t s u = .ok v) (i : Nat)
    (x y lo hi : Fl R) (hx : s[i]? = some x) (hy : v[i]? = some y) (hlo : d.stateMin.at i = some lo)
    (hhi : d.stateMax.at i = some hi) :
    (hi ≤ x → y = .nan ∨ y ≤ 0) ∧
    (x ≤ lo → x < hi → y = .nan ∨ 0 ≤ y) ∧
    (lo < x → x < hi → ∃ raw r l b, d.rhs t s u = .ok raw ∧ bget raw i = some r ∧ d.stateDotMin.at i = some l ∧
      d.stateDotMax.at i = some b ∧ (l ≤ b → r ≠ .nan → Saturated l b r y)) := by
  obtain ⟨raw, r, l, b, x', lo', hi', g1, g2, g3, g4, g5, g6, g7, rfl⟩ := computeStateDot_elem h (bget_of_get hy)
  rw [bget_of_get hx] at g5; cases g5
  rw [hlo] at g6; cases g6
  rw [hhi] at g7; cases g7
  refine ⟨?_, ?_, ?_⟩
  · intro hxh
    simp only [hxh, if_true]
    by_cases hc : Fl.clip r l b = .nan
    · left; rw [hc]; simp
    · right; exact (Fl.clip_mem_range hc (by simp)).2
  · intro hxl hxh
    have : ¬ hi ≤ x := fun hh => Fl.not_lt_of_le' hh hxh
    simp only [this, if_false, hxl, if_true]
    by_cases hc : Fl.clip r l b = .nan
    · left; rw [hc]; simp
    · right; exact (Fl.clip_mem_range hc (by simp)).1
  · intro hlx hxh
    have h1 : ¬ hi ≤ x := fun hh => Fl.not_lt_of_le' hh hxh
    have h2 : ¬ x ≤ lo := fun hh => Fl.not_lt_of_le' hh hlx
    refine ⟨raw, r, l, b, g1, g2, g3, g4, ?_⟩
    intro hlb hr
    simp only [h1, if_false, h2]
    exact ⟨fun h => Fl.clip_lt h hlb, fun h => Fl.clip_gt h hlb, fun h h' => Fl.clip_mem h h'⟩

/-- The derivative in full: with `c` the model's derivative `r` limited to the derivative limits, the result is `c`, except that an
outward `c` becomes 0 at or beyond a state limit. In particular an inward derivative is never suppressed, so that a state can
leave a limit it has reached. -/
theorem C14_limited_derivative (d : Dyn R) (t : Fl R) (s u v : Vec R) (h : d.computeStateDot t s u = .ok v) (i : Nat)
    (x y lo hi : Fl R) (hx : s[i]? = some x) (hy : v[i]? = some y) (hlo : d.stateMin.at i = some lo)
    (hhi : d.stateMax.at i = some hi) :
    ∃ raw r l b c, d.rhs t s u = .ok raw ∧ bget raw i = some r ∧ d.stateDotMin.at i = some l ∧ d.stateDotMax.at i = some b ∧
      ClipsTo l b r c ∧
      (hi ≤ x → (0 < c → y = 0) ∧ (¬ 0 < c → y = c)) ∧
      (¬ hi ≤ x → x ≤ lo → (c < 0 → y = 0) ∧ (¬ c < 0 → y = c)) ∧
      (¬ hi ≤ x → ¬ x ≤ lo → y = c) := by
  obtain ⟨raw, r, l, b, x', lo', hi', g1, g2, g3, g4, g5, g6, g7, rfl⟩ := computeStateDot_elem h (bget_of_get hy)
  rw [bget_of_get hx] at g5; cases g5
  rw [hlo] at g6; cases g6
  rw [hhi] at g7; cases g7
  refine ⟨raw, r, l, b, Fl.clip r l b, g1, g2, g3, g4, clip_clipsTo _ _ _, ?_, ?_, ?_⟩
  · intro hxh
    simp only [hxh, if_true]
    refine ⟨fun hc => Fl.clip_gt hc (by simp), fun hc => ?_⟩
    by_cases hn : Fl.clip r l b = .nan
    · rw [hn]; simp
    · exact Fl.clip_mem (Fl.ninf_le hn) ((Fl.not_lt' (by simp) hn).1 hc)
  · intro hxh hxl
    simp only [hxh, if_false, hxl, if_true]
    refine ⟨fun hc => Fl.clip_lt hc (by simp), fun hc => ?_⟩
    by_cases hn : Fl.clip r l b = .nan
    · rw [hn]; simp
    · exact Fl.clip_mem ((Fl.not_lt' hn (by simp)).1 hc) (Fl.le_pinf hn)
  · intro hxh hxl
    simp only [hxh, if_false, hxl]

/-- Degenerate limits (`state_min = state_max`): at such a pinned element the derivative can still be negative, i.e. point
below `state_min`. -/
theorem C14_pinned_element_outward :
    ∃ (d : Dyn b64) (s v : Vec b64), d.stateMin = .scalar (.fin 5) ∧ d.stateMax = .scalar (.fin 5) ∧ s = [.fin 5] ∧
      d.computeStateDot 0 s [.fin (-1)] = .ok v ∧ v = [.fin (-1)] :=
  ⟨{ Demo.dyn "Euler" with stateMin := .scalar (.fin 5), stateMax := .scalar (.fin 5) }, [.fin 5], _, rfl, rfl, rfl, rfl,
    by decide +kernel⟩

example : (Demo.dyn (R := b64) "Euler").computeStateDot 0 [.fin 10, .fin (-10)] [.fin 1, .fin (-1)]
      = .ok [.fin 0, .fin 0] ∧
    (Demo.dyn (R := b64) "Euler").computeStateDot 0 [.fin 9, .fin (-10)] [.fin 1, .fin 1] = .ok [.fin 1, .fin 1] := by
  decide +kernel

end wrap
end SAD
