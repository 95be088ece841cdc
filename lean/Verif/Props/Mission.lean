import Verif.Props.Controlled
import Verif.Props.Engine
import Verif.Props.Euler
import Verif.Props.Invariance

/-!
# C100: whole F-16 simulations

The aircraft with its low-level controller (`controlled_f16`) is integrated with the fixed-step integrator of `util.py`, under references
that come from any guidance function of time and state.
-/

set_option linter.unusedSectionVars false

namespace SAD.Aero
open SAD Spec

section
variable {K : Type} {R : Fmt K} [Field K] [LinearOrder K] [FloorRing K]

/-- `lambda t, x: controlled_f16(t, x, guidance(t, x), llc, model, v2_integrators=v2)[0]` -/
def simulated (guidance : Fl R → Vec R → Vec R) (l : Llc R) (model : String) (v2 : Bool) (t : Fl R) (x : Vec R) : Py (Vec R) := do
  let o ← controlledF16 x (guidance t x) l model v2
  pure o.xd

theorem simulated_ok {g : Fl R → Vec R → Vec R} {l : Llc R} {model : String} {v2 : Bool} {t : Fl R} {x yd : Vec R}
    (h : simulated g l model v2 t x = .ok yd) : ∃ o, controlledF16 x (g t x) l model v2 = .ok o ∧ o.xd = yd := by
  unfold simulated at h
  simp only [Except.bind_ok] at h
  obtain ⟨o, h1, h2⟩ := h
  exact ⟨o, h1, by cases h2; rfl⟩

/-- the throttle command is the throttle reference plus the trim throttle, limited -/
theorem getUDeg_throttle {l : Llc R} (hl : Llc.new = .ok l) {uRef x xc uDeg : Vec R} (h : l.getUDeg uRef x = .ok (xc, uDeg)) :
    ∃ u e a d, uRef[3]? = some u ∧ uDeg = [saturate (u + 0.1395) 0 1, e, a, d] := by
  cases hl
  unfold Llc.getUDeg at h
  dsimp only at h
  split at h
  · simp only [Except.bind_ok] at h
    obtain ⟨head, -, x1, -, x7, -, x13, -, x2, -, x6, -, x8, -, x14, -, x15, -, fb, -, u0, hu, ud, hud, h⟩ := h
    have hu' : uRef[3]? = some u0 := by
      unfold getIdx at hu
      split at hu
      · rename_i v hv; cases hu; exact hv
      · cases hu
    match ud, h with
    | [t, e, a, d], h =>
      cases h
      have ht : t = u0 + 0.1395 := by
        unfold vadd bcast2 at hud
        rcases fb with _ | ⟨f0, _ | ⟨f1, _ | ⟨f2, _ | ⟨f3, fb⟩⟩⟩⟩ <;> simp at hud
        all_goals exact hud.1.symm
      exact ⟨u0, _, _, _, hu', by rw [ht]; rfl⟩
  · simp only [bind, Except.bind] at h
    cases h

end

/-! ## Engine power -/

section
variable {K : Type} {R : Fmt K} [Field K] [LinearOrder K] [IsStrictOrderedRing K] [FloorRing K] [Exact R]

theorem saturate_range {x : Fl R} (h : x ≠ .nan) : ∃ t : K, saturate x 0 1 = .fin t ∧ 0 ≤ t ∧ t ≤ 1 := by
  have h01 : (0 : Fl R) ≤ 1 := by rw [Fl.zero_fin, Fl.one_fin, Fl.fin_le_fin]; exact zero_le_one
  obtain ⟨-, -, h2⟩ := saturate_spec h01 x
  obtain ⟨l, u⟩ := h2 h
  cases hs : saturate x 0 1 with
  | fin t =>
    rw [hs, Fl.zero_fin, Fl.fin_le_fin] at l
    rw [hs, Fl.one_fin, Fl.fin_le_fin] at u
    exact ⟨t, rfl, l, u⟩
  | nan => rw [hs] at l; simp at l
  | ninf => rw [hs, Fl.zero_fin] at l; simp at l
  | pinf => rw [hs, Fl.one_fin] at u; simp at u

/-- what stays true of an integrator that simulates the aircraft -/
structure PowerOk (f : Fl R → Vec R → Py (Vec R)) (h tend tol : K) (e : Euler R) : Prop where
  fn : e.derFunc = f
  step : e.tstep = .fin h
  stop : e.tend = .fin tend
  tol : e.timeTol = .fin tol
  time : ∃ t, e.t = .fin t ∧ t ≤ tend
  power : ∃ q : K, e.y[12]? = some (.fin q) ∧ 0 ≤ q ∧ q ≤ 100

theorem power_rate {g : Fl R → Vec R → Vec R} {l : Llc R} {model : String} {v2 : Bool} (hl : Llc.new = .ok l)
    (hg : ∀ t x, (g t x)[3]? ≠ some .nan) {t : Fl R} {x yd : Vec R} (h : simulated g l model v2 t x = .ok yd) {q : K} (hq : x[12]? = some (.fin q)) :
    yd.length = x.length ∧ ∃ c : K, 0 ≤ c ∧ c ≤ 100 ∧ yd[12]? = some (pdot (.fin q) (.fin c)) := by
  obtain ⟨o, ho, rfl⟩ := simulated_ok h
  obtain ⟨h16, hlen, -⟩ := C72_lengths _ _ _ _ _ _ ho
  refine ⟨hlen, ?_⟩
  unfold controlledF16 at ho
  rw [ite_eq_iff] at ho
  rcases ho with ⟨_, ho⟩ | ⟨_, ho⟩
  · contradiction
  rw [ite_eq_iff] at ho
  rcases ho with ⟨_, ho⟩ | ⟨_, ho⟩
  · contradiction
  simp only [Except.bind_ok] at ho
  obtain ⟨⟨xCtrl, uDeg⟩, hu, out, hsub, ⟨ps, nyR⟩, -, d, hd, u0, g0, u1, g1, u2, g2, u3, g3, ho⟩ := ho
  obtain ⟨u, el, ail, rdr, hu3, rfl⟩ := getUDeg_throttle hl hu
  have hun : u + 0.1395 ≠ .nan := by
    have : u ≠ .nan := fun e => hg t x (e ▸ hu3)
    rw [sci_fin]
    cases u with
    | nan => exact absurd rfl this
    | ninf => exact fun h => by simpa using (show (Fl.ninf : Fl R) = .nan from h)
    | pinf => exact fun h => by simpa using (show (Fl.pinf : Fl R) = .nan from h)
    | fin u => rw [Fl.fin_add_fin]; exact fun h => by simpa using h
  obtain ⟨th, hth, th0, th1⟩ := saturate_range hun
  obtain ⟨⟨c, hc, c0, c1⟩, -⟩ := C61_range (R := R) th th0 th1
  refine ⟨c, c0, c1, ?_⟩
  have hx13 : x.take 13 = x.take 12 ++ [.fin q] := by
    rw [List.take_succ, hq]; rfl
  rw [hx13] at hsub
  have := C77_engine (x.take 12) (.fin q) _ el ail rdr (by simp; omega) _ _ hsub
  rw [hth, hc] at this
  cases ho
  simp only [List.append_assoc]
  rw [List.getElem?_append_left]
  · exact this
  · exact (List.getElem?_eq_some_iff.1 this).1

theorem PowerOk.next {g : Fl R → Vec R → Vec R} {l : Llc R} {model : String} {v2 : Bool} (hl : Llc.new = .ok l)
    (hg : ∀ t x, (g t x)[3]? ≠ some .nan) {h tend tol : K} (hh : 0 < h) (htol : 0 ≤ tol) (hstep : h + tol ≤ 0.2) {e : Euler R}
    (he : PowerOk (simulated g l model v2) h tend tol e) : PowerOk (simulated g l model v2) h tend tol e.step.2 := by
  obtain ⟨f1, f2, f3, f4, ⟨t, f5, f6⟩, ⟨q, f7, f8, f9⟩⟩ := he
  cases hs : e.status with
  | finished =>
    rw [(show e.step.2 = e by unfold Euler.step; rw [hs])]
    exact ⟨f1, f2, f3, f4, ⟨t, f5, f6⟩, ⟨q, f7, f8, f9⟩⟩
  | running =>
    cases hf : e.derFunc e.t e.y with
    | error err =>
      have : e.step.2 = { e with yprev := some e.y, tprev := some e.t } := by
        unfold Euler.step
        simp only [hs, hf]
      rw [this]
      exact ⟨f1, f2, f3, f4, ⟨t, f5, f6⟩, ⟨q, f7, f8, f9⟩⟩
    | ok yd =>
      have hf' := hf
      rw [f1] at hf'
      obtain ⟨hlen, c, c0, c1, hyd⟩ := power_rate hl hg hf' f7
      obtain ⟨-, s1, s2, s3, s4, s5, s6, -⟩ := step_ok e hs hf hlen
      obtain ⟨t', ht', t1, t2⟩ : ∃ t', e.step.2.t = .fin t' ∧ t ≤ t' ∧ (t' ≤ tend ∧ t' - t ≤ 0.2) := by
        rw [s5, f2, f3, f4, f5, Fl.fin_add_fin, Fl.fin_add_fin]
        simp only [Fl.fin_le_fin]
        split_ifs with hc
        · exact ⟨_, rfl, f6, le_rfl, by linarith⟩
        · exact ⟨_, rfl, by linarith, by push Not at hc; linarith, by linarith⟩
      refine ⟨s1.trans f1, s2.trans f2, s3.trans f3, s4.trans f4, ⟨t', ht', t2.1⟩, ?_⟩
      obtain ⟨p', hp', p0, p1⟩ := C62_invariant (R := R) q ⟨f8, f9⟩ [(c, t' - t)]
        (by simp only [List.mem_singleton, forall_eq]; exact ⟨⟨c0, c1⟩, by linarith, t2.2⟩)
      refine ⟨p', ?_, p0, p1⟩
      rw [s6, ht', f5, Fl.fin_sub_fin, List.getElem?_zipWith, f7]
      simp only [vscale, List.getElem?_map, hyd, Option.map_some]
      rw [← hp']
      rfl

/-- C100: the engine power stays between 0 and 100 percent for ever, whatever the references (the throttle reference not NaN), whatever
happens to the other state elements and whether or not ticks raise, when ticks take at most 0.2 s. -/
theorem C100_power {g : Fl R → Vec R → Vec R} {l : Llc R} {model : String} {v2 : Bool} (hl : Llc.new = .ok l)
    (hg : ∀ t x, (g t x)[3]? ≠ some .nan) {t0 tend h tol q0 : K} (htol : 0 ≤ tol) (hstep : h + tol ≤ 0.2) {y0 : Vec R} {e : Euler R}
    (he : Euler.new (simulated g l model v2) (.fin t0) y0 (.fin tend) (.fin h) (.fin tol) = .ok e)
    (h0 : y0[12]? = some (.fin q0)) (hq : 0 ≤ q0 ∧ q0 ≤ 100) (n : ℕ) :
    ∃ q, (Euler.run n e).y[12]? = some (.fin q) ∧ 0 ≤ q ∧ q ≤ 100 := by
  have hpos := (C69_asserts (simulated g l model v2) (.fin t0) (.fin tend) (.fin h) (.fin tol) y0).1 ⟨e, he⟩
  have hh : 0 < h := by simpa [Fl.zero_fin] using hpos.1
  have ht : t0 < tend := by simpa using hpos.2
  have inv : PowerOk (simulated g l model v2) h tend tol (Euler.run n e) := by
    induction n with
    | zero =>
      unfold Euler.new at he
      rw [if_neg (not_not.2 hpos.1), if_neg (not_not.2 hpos.2)] at he
      cases he
      exact ⟨rfl, rfl, rfl, rfl, ⟨t0, rfl, ht.le⟩, ⟨q0, h0, hq.1, hq.2⟩⟩
    | succ n ih =>
      rw [Euler.run, Function.iterate_succ_apply']
      exact PowerOk.next hl hg hh htol hstep ih
  exact inv.power

end

/-! ## Flight over the reals -/

open Real

/-- the state after a tick of `dt` seconds with the given rates -/
def advance (dt : ℝ) (s : Flight ℝ) (r : ℕ → ℝ) : Flight ℝ where
  vt := s.vt + dt * r 0
  alpha := s.alpha + dt * r 1
  beta := s.beta + dt * r 2
  phi := s.phi + dt * r 3
  theta := s.theta + dt * r 4
  psi := s.psi + dt * r 5
  p := s.p + dt * r 6
  q := s.q + dt * r 7
  r := s.r + dt * r 8
  posN := s.posN + dt * r 9
  posE := s.posE + dt * r 10
  alt := s.alt + dt * r 11
  power := s.power + dt * r 12

/-- what the integrators of the controller accumulate: outputs minus references -/
noncomputable def trackingErrors (o : KOut ℝ) (s : Flight ℝ) (v2 : Bool) (nzRef psRef nyRef : ℝ) : List ℝ :=
  [o.nz - nzRef,
   (if v2 then o.d6 * cos o.d1 + o.d8 * sin o.d1 else s.p * cos (s.alpha - 0.0389) + s.r * sin (s.alpha - 0.0389)) - psRef,
   (if v2 then o.ny + o.d8 else o.ny + s.r) - nyRef]

theorem controlled_k (m : AeroModel) {l : Llc realFmt} (hl : Llc.new = .ok l) (v2 : Bool) (s : Flight ℝ) (h : Flyable s)
    (i1 i2 i3 nzRef psRef nyRef throttle : ℝ) (extra : List ℝ) :
    ∃ (pd : ℝ) (o : ControlledOut realFmt), pdot (.fin s.power : Fl realFmt) (tgear (.fin (commands s i1 i2 i3 throttle).thtl)) = .fin pd ∧
      controlledF16 (toVec (s.toList ++ [i1, i2, i3] ++ extra)) (toVec [nzRef, psRef, nyRef, throttle]) l m.name v2 = .ok o ∧
      o.xd = toVec ((kRates m s (commands s i1 i2 i3 throttle) true pd).xd ++
        trackingErrors (kRates m s (commands s i1 i2 i3 throttle) true pd) s v2 nzRef psRef nyRef ++ List.replicate extra.length 0) := by
  obtain ⟨l', rates, nz, ny, az, ay, hl', hs, ps, nyR, hps, hny, hc⟩ := C72_controlled m s h i1 i2 i3 nzRef psRef nyRef throttle extra v2
  obtain ⟨pd, hpd, hs'⟩ := subf16_real m s (commands s i1 i2 i3 throttle) true h
  rw [hl] at hl'
  cases hl'
  refine ⟨pd, _, hpd, hc, ?_⟩
  rw [hs'] at hs
  have hinj : Function.Injective (List.map (Fl.fin : ℝ → Fl realFmt)) := List.map_injective_iff.2 fun a b h => by cases h; rfl
  generalize kRates m s (commands s i1 i2 i3 throttle) true pd = o at *
  simp only [KOut.toFl, Except.ok.injEq, SubOut.mk.injEq, Fl.fin.injEq] at hs
  obtain ⟨h1, rfl, rfl, rfl, rfl⟩ := hs
  have h1' : o.xd = rates := hinj h1
  subst h1'
  rw [hps, hny]
  rfl

theorem advance_list (dt : ℝ) (s : Flight ℝ) (o : KOut ℝ) :
    List.zipWith (fun a d => a + dt * d) s.toList o.xd = (advance dt s (fun i => o.xd.getD i 0)).toList := rfl

/-- what one tick does -/
theorem tick {m : AeroModel} {l : Llc realFmt} (hl : Llc.new = .ok l) {v2 : Bool} {g : Fl realFmt → Vec realFmt → Vec realFmt}
    {e : Euler realFmt} {t h tend tol : ℝ} {s : Flight ℝ} {i1 i2 i3 nzRef psRef nyRef throttle : ℝ} {extra : List ℝ}
    (hfn : e.derFunc = simulated g l m.name v2) (hrun : e.status = .running) (hh : e.tstep = .fin h) (hend : e.tend = .fin tend)
    (htol : e.timeTol = .fin tol) (ht : e.t = .fin t) (hy : e.y = toVec (s.toList ++ [i1, i2, i3] ++ extra)) (hs : Flyable s)
    (hg : g e.t e.y = toVec [nzRef, psRef, nyRef, throttle]) :
    ∃ pd t' : ℝ, pdot (.fin s.power : Fl realFmt) (tgear (.fin (commands s i1 i2 i3 throttle).thtl)) = .fin pd ∧
      t' = (if tend ≤ t + h + tol then tend else t + h) ∧
      e.step.1 = none ∧ e.step.2.derFunc = e.derFunc ∧ e.step.2.tstep = e.tstep ∧ e.step.2.tend = e.tend ∧ e.step.2.timeTol = e.timeTol ∧
      e.step.2.t = .fin t' ∧ (e.step.2.status = .finished ↔ t' = tend) ∧
      e.step.2.y = toVec ((advance (t' - t) s (fun i => (kRates m s (commands s i1 i2 i3 throttle) true pd).xd.getD i 0)).toList ++
        List.zipWith (fun a d => a + (t' - t) * d) [i1, i2, i3]
          (trackingErrors (kRates m s (commands s i1 i2 i3 throttle) true pd) s v2 nzRef psRef nyRef) ++ extra) := by
  obtain ⟨pd, o, hpd, ho, hxd⟩ := controlled_k m hl v2 s hs i1 i2 i3 nzRef psRef nyRef throttle extra
  have hf : e.derFunc e.t e.y = .ok o.xd := by
    rw [hfn]
    unfold simulated
    rw [hg, hy, ho]
    rfl
  have hlen : o.xd.length = e.y.length := by
    rw [hxd, hy]
    simp [toVec, Flight.toList, KOut.xd, trackingErrors]
  obtain ⟨s0, s1, s2, s3, s4, s5, s6, -, -, s7⟩ := step_ok e hrun hf hlen
  have s5' : e.step.2.t = .fin (if tend ≤ t + h + tol then tend else t + h) := by
    rw [s5, hend, ht, hh, htol, Fl.fin_add_fin, Fl.fin_add_fin]
    simp only [Fl.fin_le_fin]
    split_ifs <;> rfl
  refine ⟨pd, _, hpd, rfl, s0, s1, s2, s3, s4, s5', ?_, ?_⟩
  · rw [s7, s5', hend]
    simp only [Fl.eqb, decide_eq_true_eq]
  · rw [s6, s5', ht, Fl.fin_sub_fin, hxd, hy, zipWith_toVec]
    congr 1
    rw [List.append_assoc, List.append_assoc, List.zipWith_append (by rfl), advance_list, List.zipWith_append (by rfl), List.append_assoc]
    congr 2
    clear hy ho hxd hf hlen s6 hg
    induction extra with
    | nil => rfl
    | cons x extra ih => rw [List.length_cons, List.replicate_succ, List.zipWith_cons_cons, ih]; simp

/-- the aircraft moved by a rigid motion of the map: turned by `δ` about the origin, then shifted by `(a, b)` -/
noncomputable def moved (δ a b : ℝ) (s : Flight ℝ) : Flight ℝ :=
  { s with psi := s.psi + δ, posN := cos δ * s.posN - sin δ * s.posE + a, posE := sin δ * s.posN + cos δ * s.posE + b }

theorem moved_flyable {δ a b : ℝ} {s : Flight ℝ} (h : Flyable s) : Flyable (moved δ a b s) := ⟨h.moving, h.forward, h.tilted, h.air⟩

theorem moved_advance (m : AeroModel) (δ a b dt pd : ℝ) (s : Flight ℝ) (c : Controls ℝ) :
    advance dt (moved δ a b s) (fun i => (kRates m (moved δ a b s) c true pd).xd.getD i 0) =
      moved δ a b (advance dt s (fun i => (kRates m s c true pd).xd.getD i 0)) := by
  have h9 : (kRates m (moved δ a b s) c true pd).d9 = cos δ * (kRates m s c true pd).d9 - sin δ * (kRates m s c true pd).d10 := by
    simp only [kRates, kEquations, moved, sin_add, cos_add]
    ring
  have h10 : (kRates m (moved δ a b s) c true pd).d10 = sin δ * (kRates m s c true pd).d9 + cos δ * (kRates m s c true pd).d10 := by
    simp only [kRates, kEquations, moved, sin_add, cos_add]
    ring
  have e5 : s.psi + δ + dt * (kRates m s c true pd).d5 = s.psi + dt * (kRates m s c true pd).d5 + δ := by ring
  have e9 : cos δ * s.posN - sin δ * s.posE + a + dt * (kRates m (moved δ a b s) c true pd).d9 =
      cos δ * (s.posN + dt * (kRates m s c true pd).d9) - sin δ * (s.posE + dt * (kRates m s c true pd).d10) + a := by rw [h9]; ring
  have e10 : sin δ * s.posN + cos δ * s.posE + b + dt * (kRates m (moved δ a b s) c true pd).d10 =
      sin δ * (s.posN + dt * (kRates m s c true pd).d9) + cos δ * (s.posE + dt * (kRates m s c true pd).d10) + b := by rw [h10]; ring
  simp only [advance, moved, Flight.mk.injEq]
  exact ⟨rfl, rfl, rfl, rfl, rfl, e5, rfl, rfl, rfl, e9, e10, rfl, rfl⟩

/-- the guidance gives four real references -/
def RealGuidance (g : Fl realFmt → Vec realFmt → Vec realFmt) : Prop :=
  ∀ (t : ℝ) (x : List ℝ), ∃ nz ps ny thr : ℝ, g (.fin t) (toVec x) = toVec [nz, ps, ny, thr]

/-- the guidance does not look at heading (state element 5) and horizontal position (9, 10) -/
def MapBlind (g : Fl realFmt → Vec realFmt → Vec realFmt) : Prop :=
  ∀ (t : ℝ) (x x' : Vec realFmt), (∀ i, i ∉ [5, 9, 10] → x[i]? = x'[i]?) → g (.fin t) x = g (.fin t) x'

/-- the first `n` ticks of the simulation start from states in which the equations of motion have no division by zero -/
def FlyableFor (n : ℕ) (e : Euler realFmt) : Prop :=
  ∀ k < n, (Euler.run k e).status = .running → ∀ (s : Flight ℝ) (rest : List ℝ), (Euler.run k e).y = toVec (s.toList ++ rest) → Flyable s

/-- a running simulation and the same one moved on the map -/
structure InStep (m : AeroModel) (l : Llc realFmt) (g : Fl realFmt → Vec realFmt → Vec realFmt) (v2 : Bool) (h tend tol δ a b : ℝ)
    (e e' : Euler realFmt) : Prop where
  fn : e.derFunc = simulated g l m.name v2 ∧ e'.derFunc = simulated g l m.name v2
  step : e.tstep = .fin h ∧ e'.tstep = .fin h
  stop : e.tend = .fin tend ∧ e'.tend = .fin tend
  tol : e.timeTol = .fin tol ∧ e'.timeTol = .fin tol
  time : ∃ t : ℝ, e.t = .fin t ∧ e'.t = .fin t
  status : e.status = e'.status
  state : ∃ (s : Flight ℝ) (i1 i2 i3 : ℝ) (extra : List ℝ), e.y = toVec (s.toList ++ [i1, i2, i3] ++ extra) ∧
    e'.y = toVec ((moved δ a b s).toList ++ [i1, i2, i3] ++ extra)

theorem InStep.next {m : AeroModel} {l : Llc realFmt} (hl : Llc.new = .ok l) {g : Fl realFmt → Vec realFmt → Vec realFmt}
    (hg : RealGuidance g) (hb : MapBlind g) {v2 : Bool} {h tend tol δ a b : ℝ} {e e' : Euler realFmt} (hi : InStep m l g v2 h tend tol δ a b e e')
    (hf : e.status = .running → ∀ (s : Flight ℝ) (rest : List ℝ), e.y = toVec (s.toList ++ rest) → Flyable s) :
    e.step.1 = none ∧ e'.step.1 = none ∧ InStep m l g v2 h tend tol δ a b e.step.2 e'.step.2 := by
  obtain ⟨⟨f1, f1'⟩, ⟨f2, f2'⟩, ⟨f3, f3'⟩, ⟨f4, f4'⟩, ⟨t, f5, f5'⟩, f6, ⟨s, i1, i2, i3, extra, f7, f7'⟩⟩ := hi
  cases hs : e.status with
  | finished =>
    rw [show e.step = (none, e) by unfold Euler.step; rw [hs], show e'.step = (none, e') by unfold Euler.step; rw [← f6, hs]]
    exact ⟨rfl, rfl, ⟨f1, f1'⟩, ⟨f2, f2'⟩, ⟨f3, f3'⟩, ⟨f4, f4'⟩, ⟨t, f5, f5'⟩, f6, ⟨s, i1, i2, i3, extra, f7, f7'⟩⟩
  | running =>
    have hfly : Flyable s := hf hs s ([i1, i2, i3] ++ extra) (by rw [f7, List.append_assoc])
    obtain ⟨nz, ps, ny, thr, hu⟩ := hg t (s.toList ++ [i1, i2, i3] ++ extra)
    have hu' : g (.fin t) (toVec ((moved δ a b s).toList ++ [i1, i2, i3] ++ extra)) = toVec [nz, ps, ny, thr] := by
      rw [← hu]
      refine hb t _ _ fun i hi => ?_
      by_cases h13 : i < 13
      · interval_cases i
        all_goals first | rfl | exact absurd (by simp) hi
      · obtain ⟨j, rfl⟩ := Nat.exists_eq_add_of_le (not_lt.1 h13)
        rw [Nat.add_comm]
        rfl
    obtain ⟨pd, t', a0, a1, a2, a3, a4, a5, a6, a7, a8, a9⟩ := tick hl f1 hs f2 f3 f4 f5 f7 hfly (by rw [f5, f7]; exact hu)
    obtain ⟨pd', t'', b0, b1, b2, b3, b4, b5, b6, b7, b8, b9⟩ := tick hl f1' (f6 ▸ hs) f2' f3' f4' f5' f7' (moved_flyable hfly) (by rw [f5', f7']; exact hu')
    have ht : t'' = t' := by rw [a1, b1]
    subst ht
    have hc : commands (moved δ a b s) i1 i2 i3 thr = commands s i1 i2 i3 thr := rfl
    have hp : pd' = pd := by
      have : (Fl.fin pd' : Fl realFmt) = .fin pd := b0.symm.trans a0
      simpa using this
    subst hp
    rw [hc, moved_advance] at b9
    refine ⟨a2, b2, ⟨a3.trans f1, b3.trans f1'⟩, ⟨a4.trans f2, b4.trans f2'⟩, ⟨a5.trans f3, b5.trans f3'⟩, ⟨a6.trans f4, b6.trans f4'⟩,
      ⟨t'', a7, b7⟩, ?_, ⟨_, _, _, _, extra, a9, b9⟩⟩
    cases h1 : e.step.2.status <;> cases h2 : e'.step.2.status
    · rfl
    · exact absurd (h1.symm.trans (a8.2 (b8.1 h2))) (by simp)
    · exact absurd (h2.symm.trans (b8.2 (a8.1 h1))) (by simp)
    · rfl

/-- C100: simulating the aircraft from a place and heading moved on the map gives the simulation moved on the map: every state element
other than heading and horizontal position is the same at every tick, and the heading and the horizontal position are turned and
shifted. The guidance must not look at heading and horizontal position. -/
theorem C100_moved {m : AeroModel} {l : Llc realFmt} (hl : Llc.new = .ok l) {g : Fl realFmt → Vec realFmt → Vec realFmt}
    (hg : RealGuidance g) (hb : MapBlind g) {v2 : Bool} {t0 h tend tol : ℝ} (δ a b : ℝ) {s0 : Flight ℝ} {i1 i2 i3 : ℝ} {extra : List ℝ}
    {e e' : Euler realFmt}
    (he : Euler.new (simulated g l m.name v2) (.fin t0) (toVec (s0.toList ++ [i1, i2, i3] ++ extra)) (.fin tend) (.fin h) (.fin tol) = .ok e)
    (he' : Euler.new (simulated g l m.name v2) (.fin t0) (toVec ((moved δ a b s0).toList ++ [i1, i2, i3] ++ extra)) (.fin tend) (.fin h) (.fin tol) = .ok e')
    (n : ℕ) (hf : FlyableFor n e) :
    ∃ (s : Flight ℝ) (rest : List ℝ), (Euler.run n e).y = toVec (s.toList ++ rest) ∧
      (Euler.run n e').y = toVec ((moved δ a b s).toList ++ rest) ∧ (Euler.run n e').t = (Euler.run n e).t ∧
      (Euler.run n e').status = (Euler.run n e).status ∧ ∀ k < n, (Euler.run k e).step.1 = none ∧ (Euler.run k e').step.1 = none := by
  have hpos := (C69_asserts (simulated g l m.name v2) (.fin t0) (.fin tend) (.fin h) (.fin tol) _).1 ⟨e, he⟩
  have key : ∀ n, FlyableFor n e → InStep m l g v2 h tend tol δ a b (Euler.run n e) (Euler.run n e') ∧
      ∀ k < n, (Euler.run k e).step.1 = none ∧ (Euler.run k e').step.1 = none := by
    intro n hf
    induction n with
    | zero =>
      refine ⟨?_, fun k hk => absurd hk (by omega)⟩
      unfold Euler.new at he he'
      rw [if_neg (not_not.2 hpos.1), if_neg (not_not.2 hpos.2)] at he he'
      cases he
      cases he'
      exact ⟨⟨rfl, rfl⟩, ⟨rfl, rfl⟩, ⟨rfl, rfl⟩, ⟨rfl, rfl⟩, ⟨t0, rfl, rfl⟩, rfl, ⟨s0, i1, i2, i3, extra, rfl, rfl⟩⟩
    | succ n ih =>
      obtain ⟨h1, h2⟩ := ih fun k hk => hf k (by omega)
      obtain ⟨c1, c2, c3⟩ := InStep.next hl hg hb h1 (hf n (by omega))
      refine ⟨?_, fun k hk => ?_⟩
      · simp only [Euler.run, Function.iterate_succ_apply'] at c3 ⊢
        exact c3
      · rcases Nat.lt_succ_iff_lt_or_eq.1 hk with hk | rfl
        · exact h2 k hk
        · exact ⟨c1, c2⟩
  obtain ⟨⟨-, -, -, -, ⟨t, f5, f5'⟩, f6, ⟨s, j1, j2, j3, ex, f7, f7'⟩⟩, h2⟩ := key n hf
  exact ⟨s, [j1, j2, j3] ++ ex, by rw [f7, List.append_assoc], by rw [f7', List.append_assoc], by rw [f5, f5'], f6.symm, h2⟩

theorem speed_sq (m : AeroModel) (s : Flight ℝ) (hs : Flyable s) (c : Controls ℝ) (pd : ℝ) :
    (kRates m s c true pd).d9 ^ 2 + (kRates m s c true pd).d10 ^ 2 + (kRates m s c true pd).d11 ^ 2 = s.vt ^ 2 := by
  obtain ⟨pd', -, e⟩ := subf16_real m s c true hs
  have h := C67_speed (s := fun _ => s) (t := 0) (m := m) (c := c) (adj := true) hs e rfl
  have h' : √((kRates m s c true pd).d9 ^ 2 + (kRates m s c true pd).d10 ^ 2 + (kRates m s c true pd).d11 ^ 2) = |s.vt| := h
  rw [← sq_abs s.vt, ← h', sq_sqrt (by positivity)]

/-- a running simulation that has stayed within its range -/
structure InRange (m : AeroModel) (l : Llc realFmt) (g : Fl realFmt → Vec realFmt → Vec realFmt) (v2 : Bool) (t0 h tend tol V : ℝ) (s0 : Flight ℝ)
    (e : Euler realFmt) : Prop where
  fn : e.derFunc = simulated g l m.name v2
  step : e.tstep = .fin h
  stop : e.tend = .fin tend
  tol : e.timeTol = .fin tol
  state : ∃ (t : ℝ) (s : Flight ℝ) (i1 i2 i3 : ℝ) (extra : List ℝ), e.t = .fin t ∧ t0 ≤ t ∧ t ≤ tend ∧
    e.y = toVec (s.toList ++ [i1, i2, i3] ++ extra) ∧
    (s.posN - s0.posN) ^ 2 + (s.posE - s0.posE) ^ 2 + (s.alt - s0.alt) ^ 2 ≤ (V * (t - t0)) ^ 2

theorem InRange.next {m : AeroModel} {l : Llc realFmt} (hl : Llc.new = .ok l) {g : Fl realFmt → Vec realFmt → Vec realFmt}
    (hg : RealGuidance g) {v2 : Bool} {t0 h tend tol V : ℝ} (hh : 0 < h) (htol : 0 ≤ tol) (hV : 0 ≤ V) {s0 : Flight ℝ} {e : Euler realFmt}
    (hi : InRange m l g v2 t0 h tend tol V s0 e)
    (hf : e.status = .running → ∀ (s : Flight ℝ) (rest : List ℝ), e.y = toVec (s.toList ++ rest) → Flyable s ∧ |s.vt| ≤ V) :
    InRange m l g v2 t0 h tend tol V s0 e.step.2 := by
  obtain ⟨f1, f2, f3, f4, t, s, i1, i2, i3, extra, f5, f5a, f5b, f7, f8⟩ := hi
  cases hs : e.status with
  | finished =>
    rw [show e.step = (none, e) by unfold Euler.step; rw [hs]]
    exact ⟨f1, f2, f3, f4, t, s, i1, i2, i3, extra, f5, f5a, f5b, f7, f8⟩
  | running =>
    obtain ⟨hfly, hv⟩ := hf hs s ([i1, i2, i3] ++ extra) (by rw [f7, List.append_assoc])
    obtain ⟨nz, ps, ny, thr, hu⟩ := hg t (s.toList ++ [i1, i2, i3] ++ extra)
    obtain ⟨pd, t', a0, a1, a2, a3, a4, a5, a6, a7, a8, a9⟩ := tick hl f1 hs f2 f3 f4 f5 f7 hfly (by rw [f5, f7]; exact hu)
    have ht : t ≤ t' ∧ t' ≤ tend := by
      rw [a1]
      split_ifs with hc
      · exact ⟨f5b, le_rfl⟩
      · exact ⟨by linarith, by linarith⟩
    refine ⟨a3.trans f1, a4.trans f2, a5.trans f3, a6.trans f4, t', _, _, _, _, extra, a7, by linarith, ht.2, a9, ?_⟩
    have hsq := speed_sq m s hfly (commands s i1 i2 i3 thr) pd
    generalize kRates m s (commands s i1 i2 i3 thr) true pd = o at hsq
    change (s.posN + (t' - t) * o.d9 - s0.posN) ^ 2 + (s.posE + (t' - t) * o.d10 - s0.posE) ^ 2 + (s.alt + (t' - t) * o.d11 - s0.alt) ^ 2 ≤ _
    have hvs : s.vt ^ 2 ≤ V ^ 2 := by rw [← sq_abs]; exact pow_le_pow_left₀ (abs_nonneg _) hv 2
    rw [← hsq] at hvs
    generalize hx : s.posN - s0.posN = x at f8
    generalize hy : s.posE - s0.posE = y at f8
    generalize hz : s.alt - s0.alt = z at f8
    generalize hd : t' - t = d at *
    have hd0 : 0 ≤ d := by linarith [ht.1]
    have hT : 0 ≤ t - t0 := by linarith
    have e1 : s.posN + d * o.d9 - s0.posN = x + d * o.d9 := by rw [← hx]; ring
    have e2 : s.posE + d * o.d10 - s0.posE = y + d * o.d10 := by rw [← hy]; ring
    have e3 : s.alt + d * o.d11 - s0.alt = z + d * o.d11 := by rw [← hz]; ring
    rw [e1, e2, e3, show t' - t0 = t - t0 + d by rw [← hd]; ring]
    generalize t - t0 = T at *
    have hcs : (x * o.d9 + y * o.d10 + z * o.d11) ^ 2 ≤ (V * T * V) ^ 2 := by
      have lag : (x * o.d9 + y * o.d10 + z * o.d11) ^ 2 ≤ (x ^ 2 + y ^ 2 + z ^ 2) * (o.d9 ^ 2 + o.d10 ^ 2 + o.d11 ^ 2) := by
        nlinarith [sq_nonneg (x * o.d10 - y * o.d9), sq_nonneg (x * o.d11 - z * o.d9), sq_nonneg (y * o.d11 - z * o.d10)]
      have : (x ^ 2 + y ^ 2 + z ^ 2) * (o.d9 ^ 2 + o.d10 ^ 2 + o.d11 ^ 2) ≤ (V * T) ^ 2 * V ^ 2 :=
        mul_le_mul f8 hvs (by positivity) (by positivity)
      calc _ ≤ _ := lag
        _ ≤ _ := this
        _ = _ := by ring
    have hdot : x * o.d9 + y * o.d10 + z * o.d11 ≤ V * T * V := le_of_abs_le (abs_le_of_sq_le_sq hcs (by positivity))
    have h2 := mul_le_mul_of_nonneg_left hdot hd0
    have h3 := mul_le_mul_of_nonneg_left hvs (sq_nonneg d)
    nlinarith

/-- C100: the aircraft never gets farther than its speed allows: if no tick starts with an airspeed above `V`, then after any number of
ticks its distance from the start is at most `V` times the simulated time. -/
theorem C100_distance {m : AeroModel} {l : Llc realFmt} (hl : Llc.new = .ok l) {g : Fl realFmt → Vec realFmt → Vec realFmt}
    (hg : RealGuidance g) {v2 : Bool} {t0 h tend tol V : ℝ} (htol : 0 ≤ tol) (hV : 0 ≤ V) {s0 : Flight ℝ} {i1 i2 i3 : ℝ} {extra : List ℝ}
    {e : Euler realFmt}
    (he : Euler.new (simulated g l m.name v2) (.fin t0) (toVec (s0.toList ++ [i1, i2, i3] ++ extra)) (.fin tend) (.fin h) (.fin tol) = .ok e)
    (n : ℕ) (hf : FlyableFor n e)
    (hv : ∀ k < n, (Euler.run k e).status = .running → ∀ (s : Flight ℝ) (rest : List ℝ), (Euler.run k e).y = toVec (s.toList ++ rest) → |s.vt| ≤ V) :
    ∃ (t : ℝ) (s : Flight ℝ) (rest : List ℝ), (Euler.run n e).t = .fin t ∧ (Euler.run n e).y = toVec (s.toList ++ rest) ∧
      √((s.posN - s0.posN) ^ 2 + (s.posE - s0.posE) ^ 2 + (s.alt - s0.alt) ^ 2) ≤ V * (t - t0) := by
  have hpos := (C69_asserts (simulated g l m.name v2) (.fin t0) (.fin tend) (.fin h) (.fin tol) _).1 ⟨e, he⟩
  have hh : 0 < h := by simpa [Fl.zero_fin] using hpos.1
  have ht : t0 < tend := by simpa using hpos.2
  have key : InRange m l g v2 t0 h tend tol V s0 (Euler.run n e) := by
    induction n with
    | zero =>
      unfold Euler.new at he
      rw [if_neg (not_not.2 hpos.1), if_neg (not_not.2 hpos.2)] at he
      cases he
      exact ⟨rfl, rfl, rfl, rfl, t0, s0, i1, i2, i3, extra, rfl, le_rfl, ht.le, rfl, by simp⟩
    | succ n ih =>
      have := InRange.next hl hg hh htol hV (ih (fun k hk => hf k (by omega)) (fun k hk => hv k (by omega)))
        (fun hr s rest hy => ⟨hf n (by omega) hr s rest hy, hv n (by omega) hr s rest hy⟩)
      simp only [Euler.run, Function.iterate_succ_apply'] at this ⊢
      exact this
  obtain ⟨-, -, -, -, t, s, j1, j2, j3, ex, k1, k2, k3, k4, k5⟩ := key
  refine ⟨t, s, [j1, j2, j3] ++ ex, k1, by rw [k4, List.append_assoc], ?_⟩
  rw [sqrt_le_left (mul_nonneg hV (by linarith))]
  exact k5

/-! ## The hypotheses are met -/

/-- a guidance that holds the altitude by asking for load factor in proportion to the height missing, with constant throttle -/
noncomputable def Demo.hold (_ : Fl realFmt) (x : Vec realFmt) : Vec realFmt :=
  match (x[11]? : Option (Fl realFmt)) with
  | some (.fin alt) => toVec [(5000 - alt) / 1000, 0, 0, 0.2]
  | _ => toVec [0, 0, 0, 0.2]

theorem Demo.hold_real : RealGuidance Demo.hold := by
  intro t x
  unfold Demo.hold
  split <;> exact ⟨_, _, _, _, rfl⟩

theorem Demo.hold_blind : MapBlind Demo.hold := by
  intro t x x' h
  unfold Demo.hold
  rw [h 11 (by simp)]

theorem toVec_flight_inj {s s' : Flight ℝ} {r r' : List ℝ} (h : (toVec (s.toList ++ r) : Vec realFmt) = toVec (s'.toList ++ r')) : s = s' := by
  have hinj : Function.Injective (List.map (Fl.fin : ℝ → Fl realFmt)) := List.map_injective_iff.2 fun a b h => by cases h; rfl
  have h' : s.toList ++ r = s'.toList ++ r' := hinj h
  cases s
  cases s'
  simp only [Flight.toList, List.cons_append, List.nil_append, List.cons.injEq] at h'
  obtain ⟨rfl, rfl, rfl, rfl, rfl, rfl, rfl, rfl, rfl, rfl, rfl, rfl, rfl, -⟩ := h'
  rfl

example : ∃ (l : Llc realFmt) (e : Euler realFmt), Llc.new = .ok l ∧ RealGuidance Demo.hold ∧
    MapBlind Demo.hold ∧
    Euler.new (simulated Demo.hold l "morelli" false) (.fin 0) (toVec (turning.toList ++ [0, 0, 0] ++ [])) (.fin 10)
      (.fin (1 / 30)) (.fin 1e-9) = .ok e ∧ FlyableFor 1 e ∧ (0 : ℝ) ≤ 1e-9 ∧ 1 / 30 + 1e-9 ≤ (0.2 : ℝ) ∧
    (toVec (turning.toList ++ [0, 0, 0] ++ []) : Vec realFmt)[12]? = some (.fin 60) := by
  have h1 : (0 : Fl realFmt) < .fin (1 / 30) := by rw [Fl.zero_fin, Fl.fin_lt_fin]; norm_num
  have h2 : (.fin 0 : Fl realFmt) < .fin 10 := by rw [Fl.fin_lt_fin]; norm_num
  obtain ⟨l, hl⟩ : ∃ l : Llc realFmt, Llc.new = .ok l := ⟨_, rfl⟩
  obtain ⟨e, he⟩ := (C69_asserts (simulated Demo.hold l "morelli" false) (.fin 0) (.fin 10) (.fin (1 / 30)) (.fin 1e-9)
    (toVec (turning.toList ++ [0, 0, 0] ++ []))).2 ⟨h1, h2⟩
  refine ⟨l, e, hl, Demo.hold_real, Demo.hold_blind, he, fun k hk _ s rest hy => ?_, by norm_num, by norm_num, rfl⟩
  obtain rfl : k = 0 := by omega
  unfold Euler.new at he
  rw [if_neg (not_not.2 h1), if_neg (not_not.2 h2)] at he
  cases he
  have := toVec_flight_inj (s := turning) (r := [0, 0, 0] ++ []) (s' := s) (r' := rest) (by rw [← hy]; rfl)
  rw [← this]
  exact turning_flyable

end SAD.Aero
