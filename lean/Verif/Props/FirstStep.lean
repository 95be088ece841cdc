import Verif.Model.First
import Verif.Lemmas.Single
import Verif.Props.State
import Verif.Props.DubinsPrecision

/-!
# C107: the first step is computed in single precision
-/

set_option linter.unusedSectionVars false

namespace SAD
open Spec

section
variable {K : Type} {R : Fmt K} [Field K] [LinearOrder K] [FloorRing K]

/-- C107: whatever is computed in single precision, a first step has the properties of a step: it warns exactly when the step does, it leaves the
configuration as it is, it leaves state and derivative as they are if it raises, and if it does not, all the elements that are not wrapped are
within their limits or NaN. -/
theorem C107_protocol (env : Env R) (e : Entity R) (rhs32 : Fl R → Vec R → Vec R → Py (Vec R)) (dt : Fl R) (a : Action R) :
    (e.firstStep env rhs32 dt a).warned = (e.step env dt a).warned ∧ SameConfig e (e.firstStep env rhs32 dt a).entity ∧
    (∀ x, (e.firstStep env rhs32 dt a).outcome = .error x →
      (e.firstStep env rhs32 dt a).entity.state = e.state ∧ (e.firstStep env rhs32 dt a).entity.stateDot = e.stateDot) ∧
    ((e.firstStep env rhs32 dt a).outcome = .ok () → Ordered e.dynamics.stateMin e.dynamics.stateMax → ∀ (i : ℕ) (s : Fl R),
      (e.firstStep env rhs32 dt a).entity.state[i]? = some s → NotWrapped e.dynamics i →
      s = .nan ∨ ∃ lo hi, e.dynamics.stateMin.at i = some lo ∧ e.dynamics.stateMax.at i = some hi ∧ Within lo hi s) := by
  unfold Entity.firstStep
  by_cases hm : e.dynamics.integrationMethod = "Euler"
  · rw [if_pos hm]
    set e1 : Entity R := { e with dynamics := { e.dynamics with rhs := rhs32 } } with he1
    refine ⟨?_, ?_, fun x hx => C07_failed_step_atomic env e1 dt a x hx, fun hok hord i s hs hw => C08_state_limits env e1 [] dt a hord hok i s hs hw⟩
    · have hr : e1.resolve env a = e.resolve env a := by cases a <;> rfl
      unfold Entity.step
      rw [hr]
      cases h1 : e.resolve env a with
      | error x => rfl
      | ok p =>
        obtain ⟨ty, u⟩ := p
        simp only [he1]
        cases h2 : exceeds u (e.controlMin.forDType ty) (e.controlMax.forDType ty) with
        | error x => rfl
        | ok w =>
          cases h3 : npClip u (e.controlMin.forDType ty) (e.controlMax.forDType ty) with
          | error x => rfl
          | ok v =>
            simp only
            split <;> split <;> rfl
    · obtain ⟨c1, c2, c3, c4, c5, c6⟩ := step_sameConfig env e1 dt a
      exact ⟨c1, c2, c3, c4, c5, congrArg (fun d : Dyn R => { d with rhs := e.dynamics.rhs }) c6⟩
  · rw [if_neg hm]
    exact ⟨rfl, step_sameConfig env e dt a, fun x hx => C07_failed_step_atomic env e dt a x hx,
      fun hok hord i s hs hw => C08_state_limits env e [] dt a hord hok i s hs hw⟩

end

section
open Real

/-- In exact arithmetic nothing distinguishes the first step: the derivatives computed from a float32 state are those of the model. -/
theorem C107_exact (g m i : Fl realFmt) (A : Mat realFmt) (I : Fin 3 → Fin 3 → Fl realFmt) :
    (dubins2dF32 (realFmt.single realFmt) = dubins2dF (R := realFmt)) ∧ dubins3dF32 (realFmt.single realFmt) g = dubins3dF g ∧
    rot2dG32 (realFmt.single realFmt) m i = rot2dG m i ∧ sixDofF32 (realFmt.single realFmt) A I = sixDofF A I := by
  have hs : realFmt.single realFmt = realFmt := rfl
  have hc : ∀ x : Fl realFmt, (Fl.conv x : Fl realFmt) = x := fun x => by cases x <;> rfl
  have hm : ∀ v : Vec realFmt, v.map (Fl.conv : Fl realFmt → Fl realFmt) = v := fun v => by
    rw [show (Fl.conv : Fl realFmt → Fl realFmt) = id from funext hc, List.map_id]
  rw [hs]
  refine ⟨?_, ?_, ?_, ?_⟩
  · funext v
    simp only [dubins2dF32, hm]
    cases dubins2dF v <;> rfl
  · funext v
    simp only [dubins3dF32, dubins3dF, hc]
    rfl
  · funext v
    simp only [rot2dG32, rot2dG, hc]
  · funext v
    simp only [sixDofF32, sixDofF, hc]
    rfl

end

section
variable {libm libm32 : Fmt ℚ}

/-- the first leg against exact arithmetic -/
theorem first_leg {d : Dyn (b64Of libm)} {lo hi : ℚ} (hd : EulerFlyer d lo hi) (hrhs : d.rhs = affineRhs (dubins2dF32 ((b64Of libm).single libm32)) dubins2dG)
    {δ : ℝ} (hlibm : Trig libm32 δ) (hδ : δ ≤ 1 / 2) (hlim : lo ≤ hi)
    (env : Env (b64Of libm)) {S G : ℝ} (hlo : |(lo : ℝ)| ≤ S) (hhi : |(hi : ℝ)| ≤ S) (hS1 : 2⁻¹ ^ 126 ≤ S) (hS2 : S ≤ 2 ^ 100) (hG1 : 2⁻¹ ^ 900 ≤ G)
    (hG2 : G ≤ 2 ^ 200) {T w a : ℚ} (hT : 0 ≤ T) (hT2 : T ≤ 2 ^ 100) (hw : |w| ≤ 2 ^ 200) (ha : |a| ≤ 2 ^ 200) {x y h v : ℚ} (hx : |(x : ℝ)| ≤ 2 * G)
    (hy : |(y : ℝ)| ≤ 2 * G) (hh : |h| ≤ 4) (hv : lo ≤ v) (hv' : v ≤ hi) :
    ∃ (x' y' h' v' : ℚ) (k : ℤ) (sd : Vec (b64Of libm)),
      d.step env (.fin T) [.fin x, .fin y, .fin h, .fin v] [.fin w, .fin a] = (d, .ok ([.fin x', .fin y', .fin h', .fin v'], sd)) ∧
      |(x' : ℝ) - (x + T * (v * Real.cos h))| ≤ 7 * 2⁻¹ ^ 53 * G + T * (S * (δ + 3 * 2⁻¹ ^ 24 + 14 * 2⁻¹ ^ 53)) ∧
      |(y' : ℝ) - (y + T * (v * Real.sin h))| ≤ 7 * 2⁻¹ ^ 53 * G + T * (S * (δ + 3 * 2⁻¹ ^ 24 + 14 * 2⁻¹ ^ 53)) ∧
      |h'| ≤ 4 ∧ |(h' : ℝ) - (h + T * w + k * (2 * Real.pi))| ≤ 2⁻¹ ^ 53 * (90 + 20 * (T * |(w : ℝ)|)) ∧
      lo ≤ v' ∧ v' ≤ hi ∧ |(v' : ℝ) - min (max ((v : ℝ) + T * a) lo) hi| ≤ 2⁻¹ ^ 53 * (4 * S + 10 * (T * |(a : ℝ)|)) := by
  obtain ⟨t1, t2⟩ := hlibm h hh
  have hS0 : 0 ≤ S := (abs_nonneg _).trans hlo
  have hvS : |(v : ℝ)| ≤ S := by
    have h1 : (lo : ℝ) ≤ v := by exact_mod_cast hv
    have h2 : (v : ℝ) ≤ hi := by exact_mod_cast hv'
    rw [abs_le] at *
    constructor <;> linarith
  -- a product in single precision
  have prod : ∀ (p : ℚ) (q : ℝ), |(p : ℝ) - q| ≤ δ → |q| ≤ 1 → ∃ c : ℚ, rndBin 24 (-126) 127 (v * p) = .val c ∧ |(c : ℝ) - v * q| ≤ S * (δ + 3 * 2⁻¹ ^ 24) ∧
      |c| ≤ 2 ^ 201 := by
    intro p q hpq hq
    have e1 := abs_add_le ((p : ℝ) - q) q
    rw [sub_add_cancel] at e1
    have e2 : |(v : ℝ) * p| ≤ S * (3 / 2) := by
      rw [abs_mul]; exact mul_le_mul hvS (by linarith) (abs_nonneg _) hS0
    have e3 : |v * p| ≤ (2 : ℚ) ^ (127 : ℤ) := by
      have : ((|v * p| : ℚ) : ℝ) ≤ ((2 ^ (127 : ℤ) : ℚ) : ℝ) := by
        push_cast
        refine e2.trans ?_
        have : S * (3 / 2) ≤ 2 ^ 100 * (3 / 2) := mul_le_mul_of_nonneg_right hS2 (by norm_num)
        refine this.trans ?_
        norm_num
      exact_mod_cast this
    obtain ⟨c, hc, hc'⟩ := single_near e3
    have e4 : |(c : ℝ) - v * p| ≤ 2⁻¹ ^ 24 * (|(v : ℝ) * p| + 2⁻¹ ^ 126) := by
      have : ((|c - v * p| : ℚ) : ℝ) ≤ ((2⁻¹ ^ 24 * (|v * p| + 2 ^ (-126 : ℤ)) : ℚ) : ℝ) := by exact_mod_cast hc'
      push_cast at this
      rw [zpow_neg, ← inv_zpow] at this
      exact_mod_cast this
    have e5 : (2⁻¹ : ℝ) ^ 24 * (|(v : ℝ) * p| + 2⁻¹ ^ 126) ≤ 2⁻¹ ^ 24 * (S * (3 / 2) + S) := mul_le_mul_of_nonneg_left (add_le_add e2 hS1) (by positivity)
    have e6 : |(v : ℝ) * p - v * q| ≤ S * δ := by
      rw [← mul_sub, abs_mul]; exact mul_le_mul hvS hpq (abs_nonneg _) hS0
    have e7 := abs_add_le ((c : ℝ) - v * p) (v * p - v * q)
    rw [sub_add_sub_cancel] at e7
    have e8 : |(c : ℝ) - v * q| ≤ S * (δ + 3 * 2⁻¹ ^ 24) := by
      have : (0 : ℝ) ≤ S * 2⁻¹ ^ 24 := by positivity
      linarith
    refine ⟨c, hc, e8, ?_⟩
    have e9 := abs_add_le ((c : ℝ) - v * p) (v * p)
    rw [sub_add_cancel] at e9
    have : ((|c| : ℚ) : ℝ) ≤ ((2 ^ 201 : ℚ) : ℝ) := by
      push_cast
      have h24 : (2⁻¹ : ℝ) ^ 24 ≤ 1 := by norm_num
      have e10 : (2⁻¹ : ℝ) ^ 24 * (S * (3 / 2) + S) ≤ 1 * (S * (3 / 2) + S) := mul_le_mul_of_nonneg_right h24 (by positivity)
      have e11 : S * 4 ≤ 2 ^ 100 * 4 := mul_le_mul_of_nonneg_right hS2 (by norm_num)
      have e12 : (2 : ℝ) ^ 100 * 4 ≤ 2 ^ 201 := by norm_num
      linarith
    exact_mod_cast this
  obtain ⟨c, hc, tc, hcq⟩ := prod (libm32.cos h) (Real.cos h) t2 (Real.abs_cos_le_one _)
  obtain ⟨s, hs, ts, hsq⟩ := prod (libm32.sin h) (Real.sin h) t1 (Real.abs_sin_le_one _)
  have near : ∀ z : ℚ, Near (2⁻¹ ^ 53) 1 (.fin z : Fl (b64Of libm)) z (|z| + 2 ^ (-1022 : ℤ)) := fun z =>
    ⟨le_add_of_nonneg_right (by positivity), z, rfl, by rw [sub_self, abs_zero]; exact mul_nonneg (by norm_num) (by positivity)⟩
  have hf : dubins2dF32 ((b64Of libm).single libm32) ([.fin x, .fin y, .fin h, .fin v] : Vec (b64Of libm)) = .ok [.fin c, .fin s, 0, 0] := by
    have p1 : ((.fin v : Fl ((b64Of libm).single libm32)) * .fin (libm32.cos h)) = .fin c := by
      show Fl.ofExt (rndBin 24 (-126) 127 (v * libm32.cos h)) = _
      rw [hc]; rfl
    have p2 : ((.fin v : Fl ((b64Of libm).single libm32)) * .fin (libm32.sin h)) = .fin s := by
      show Fl.ofExt (rndBin 24 (-126) 127 (v * libm32.sin h)) = _
      rw [hs]; rfl
    show Except.ok [Fl.conv ((.fin v : Fl ((b64Of libm).single libm32)) * .fin (libm32.cos h)), Fl.conv ((.fin v : Fl ((b64Of libm).single libm32)) * .fin (libm32.sin h)),
      Fl.conv (0 : Fl ((b64Of libm).single libm32)), Fl.conv (0 : Fl ((b64Of libm).single libm32))] = _
    rw [p1, p2]
    rfl
  obtain ⟨r0, r1, r2, r3, hr, b0, b1, b2, b3⟩ := affine_rate (b64_rounds libm) (by norm_num)
    (by show rndBin 53 (-1022) 1023 0 = _; decide +kernel) _ (0 : Fl (b64Of libm)) _ _ _ c s w a hf (near c) (near s) (by
      have e : 4 * (2 ^ 201 + 2 ^ 201 + 2 ^ 200 + 2 ^ 200 + 5 * 2 ^ (-1022 : ℤ)) ≤ (2 : ℚ) ^ (1023 : ℤ) := by decide +kernel
      refine le_trans (mul_le_mul_of_nonneg_left ?_ (by norm_num)) e
      exact add_le_add (add_le_add (add_le_add (add_le_add hcq hsq) hw) ha) le_rfl)
  exact hd.leg (by norm_num; linarith) hlim env hlo hhi (le_trans (pow_le_pow_of_le_one (by norm_num) (by norm_num) (by norm_num)) hS1)
    (hS2.trans (by norm_num)) hG1 hG2 hT hT2 hw ha hx hy hh hv hv' tc ts (by rw [hrhs]; exact hr) b0 b1 b2 b3

/-- C107: a flight of a newly constructed 2d aircraft under Euler's method in double precision. Its first step is computed in single precision, with a
sine and a cosine off by at most `δ32`. The coordinates are off by at most the `E` of C106 and the error of one leg in single precision; heading and
speed are as in C106. -/
theorem C107_flight (libm libm32 : Fmt ℚ) (δ δ32 : ℝ) (hlibm : Trig libm δ) (hδ : δ ≤ 1) (hlibm32 : Trig libm32 δ32) (hδ32 : δ32 ≤ 1 / 2)
    (env env' : Env (b64Of libm)) (args : Dubins2dArgs (b64Of libm)) (lo hi : ℚ)
    (hlo : args.vMin.cast32 = .fin lo) (hhi : args.vMax.cast32 = .fin hi) (hlim : lo ≤ hi) (hm : args.integrationMethod = "Euler")
    (e0 : Entity (b64Of libm)) (h0 : newDubins2d env args = .ok e0) (hts : e0.dynamics.trajectorySamples ≤ 0)
    (x y h v : ℚ) (hs : e0.state = [.fin x, .fin y, .fin h, .fin v]) (hh : |h| ≤ 4) (hv : lo ≤ v)
    (hv' : v ≤ hi) (leg : Leg (b64Of libm)) (legs : List (Leg (b64Of libm)))
    (hlegs : ∀ l ∈ leg :: legs, Applied env' e0 l.action [.fin l.w, .fin l.a] ∧ 0 ≤ l.T ∧ l.T ≤ 2 ^ 100 ∧ |l.w| ≤ 2 ^ 200 ∧ |l.a| ≤ 2 ^ 200)
    (S G E Eh Ev : ℝ) (hS : max |(lo : ℝ)| |(hi : ℝ)| ≤ S ∧ 2⁻¹ ^ 126 ≤ S ∧ S ≤ 2 ^ 100)
    (hG : max |(x : ℝ)| |(y : ℝ)| + S * Leg.time (leg :: legs) ≤ G ∧ 2⁻¹ ^ 900 ≤ G ∧ G ≤ 2 ^ 200)
    (hEh : Eh = 2⁻¹ ^ 53 * (90 * (leg :: legs).length + 20 * Leg.turn (leg :: legs)))
    (hEv : Ev = 2⁻¹ ^ 53 * (4 * S * (leg :: legs).length + 10 * Leg.gain (leg :: legs)))
    (hE : E = Leg.time (leg :: legs) * (Ev + S * (Eh + (δ + 14 * 2⁻¹ ^ 53))) + 7 * 2⁻¹ ^ 53 * G * (leg :: legs).length + leg.T * (S * (δ32 + 3 * 2⁻¹ ^ 24)))
    (hEG : E ≤ G) :
    ∃ (x' y' h' v' : ℚ) (X Y H V H' : ℝ), eulerFlight lo hi (Leg.exact (leg :: legs)) (x, y, h, v) = (X, Y, H, V) ∧ SameAngle Real.pi H H' ∧
      ((e0.firstStep env' (affineRhs (dubins2dF32 ((b64Of libm).single libm32)) dubins2dG) (.fin leg.T) leg.action).entity.run env'
        (stepsOf (Leg.hist legs))).state = [.fin x', .fin y', .fin h', .fin v'] ∧
      |x' - X| ≤ E ∧ |y' - Y| ≤ E ∧ |h' - H'| ≤ Eh ∧ |v' - V| ≤ Ev ∧ |h'| ≤ 4 ∧ lo ≤ v' ∧ v' ≤ hi := by
  obtain ⟨h1, h2, h3, h4, h5, h6, h7, -, h9, -⟩ := dubins2d_config h0
  have hd0 : EulerDubins e0.dynamics lo hi := by
    refine ⟨⟨by rw [h1, hlo], by rw [h2, hhi], h3, h4, ?_, h7, h9.trans hm, hts⟩, h6⟩
    rw [h5]
    have : Fl.cast32 (0 : Fl (b64Of libm)) = .fin 0 := by
      show Fl.ofExt (rndBin 24 (-126) 127 (((0 : ℕ) : ℚ))) = _
      rw [show rndBin 24 (-126) 127 (((0 : ℕ) : ℚ)) = .val 0 by decide +kernel]; rfl
    rw [this]
  obtain ⟨T, act, w, a⟩ := leg
  obtain ⟨ha, hT, hT2, hw, ha2⟩ := hlegs _ List.mem_cons_self
  simp only at ha hT hT2 hw ha2 hE ⊢
  have hTr : (0 : ℝ) ≤ T := by exact_mod_cast hT
  have tl : ∀ l ∈ legs, Applied env' e0 l.action [.fin l.w, .fin l.a] ∧ 0 ≤ l.T ∧ l.T ≤ 2 ^ 100 ∧ |l.w| ≤ 2 ^ 200 ∧ |l.a| ≤ 2 ^ 200 :=
    fun l hm => hlegs l (List.mem_cons_of_mem _ hm)
  have c1 : Leg.time (⟨T, act, w, a⟩ :: legs) = T + Leg.time legs := by simp [Leg.time]
  have c2 : Leg.turn (⟨T, act, w, a⟩ :: legs) = T * |(w : ℝ)| + Leg.turn legs := by simp [Leg.turn]
  have c3 : Leg.gain (⟨T, act, w, a⟩ :: legs) = T * |(a : ℝ)| + Leg.gain legs := by simp [Leg.gain]
  have c4 : (((⟨T, act, w, a⟩ : Leg (b64Of libm)) :: legs).length : ℝ) = legs.length + 1 := by simp
  rw [c1] at hG hE
  rw [c2, c4] at hEh
  rw [c3, c4] at hEv
  rw [c4] at hE
  have t0 : 0 ≤ Leg.time legs := List.sum_nonneg fun z hz => by
    obtain ⟨l, hl, rfl⟩ := List.mem_map.1 hz
    have := (tl l hl).2.1
    exact_mod_cast this
  have t1 : 0 ≤ Leg.turn legs := List.sum_nonneg fun z hz => by
    obtain ⟨l, hl, rfl⟩ := List.mem_map.1 hz
    have : (0 : ℝ) ≤ l.T := by exact_mod_cast (tl l hl).2.1
    positivity
  have t2 : 0 ≤ Leg.gain legs := List.sum_nonneg fun z hz => by
    obtain ⟨l, hl, rfl⟩ := List.mem_map.1 hz
    have : (0 : ℝ) ≤ l.T := by exact_mod_cast (tl l hl).2.1
    positivity
  obtain ⟨ε, hε⟩ : ∃ ε : ℝ, ε = 2⁻¹ ^ 53 := ⟨_, rfl⟩
  have hε0 : 0 ≤ ε := by rw [hε]; positivity
  have hS0 : 0 ≤ S := le_trans (by positivity) hS.2.1
  have hSU : 0 ≤ S * (T + Leg.time legs) := mul_nonneg hS0 (by linarith)
  have hxa : |(x : ℝ)| + S * (T + Leg.time legs) ≤ G := le_trans (add_le_add_left (le_max_left _ _) _) hG.1
  have hya : |(y : ℝ)| + S * (T + Leg.time legs) ≤ G := le_trans (add_le_add_left (le_max_right _ _) _) hG.1
  have nx := abs_nonneg (x : ℝ)
  have ny := abs_nonneg (y : ℝ)
  have hloS := (le_max_left _ _).trans hS.1
  have hhiS := (le_max_right _ _).trans hS.1
  obtain ⟨d1, hd1⟩ : ∃ d1 : Dyn (b64Of libm), d1 = { e0.dynamics with rhs := affineRhs (dubins2dF32 ((b64Of libm).single libm32)) dubins2dG } := ⟨_, rfl⟩
  have hf1 : EulerFlyer d1 lo hi := by
    rw [hd1]
    exact ⟨hd0.stateMin, hd0.stateMax, hd0.dotMin, hd0.dotMax, hd0.wrap, hd0.custom, hd0.method, hd0.samples⟩
  obtain ⟨x', y', h', v', j, sd, s1, s2, s3, s4, s5, s6, s7, s8⟩ := first_leg hf1 (by rw [hd1]) hlibm32 hδ32 hlim env' hloS hhiS hS.2.1 hS.2.2 hG.2.1 hG.2.2
    hT hT2 hw ha2 (x := x) (y := y) (by linarith) (by linarith) hh hv hv'
  -- the step of the entity
  have hap : Applied env' { e0 with dynamics := d1 } act [.fin w, .fin a] := by
    rw [applied_iff] at ha ⊢
    have : ({ e0 with dynamics := d1 } : Entity (b64Of libm)).resolve env' act = e0.resolve env' act := by cases act <;> rfl
    rw [this]
    exact ha
  have hst := (((C01_step_decided_by_applied_control env' { e0 with dynamics := d1 } (.fin T) act).1 _ hap).1 d1 _ sd (by rw [hs]; exact s1)).2
  have hfirst : (e0.firstStep env' (affineRhs (dubins2dF32 ((b64Of libm).single libm32)) dubins2dG) (.fin T) act).entity
      = { e0 with state := [.fin x', .fin y', .fin h', .fin v'], stateDot := sd } := by
    unfold Entity.firstStep
    rw [if_pos hd0.method, ← hd1]
    simp only [hst]
    rw [hd1]
  have hcfg : SameConfig e0 (e0.firstStep env' (affineRhs (dubins2dF32 ((b64Of libm).single libm32)) dubins2dG) (.fin T) act).entity := by
    rw [hfirst]; exact ⟨rfl, rfl, rfl, rfl, rfl, rfl⟩
  have vr1 : (lo : ℝ) ≤ v := by exact_mod_cast hv
  have vr2 : (v : ℝ) ≤ hi := by exact_mod_cast hv'
  have hvS : |(v : ℝ)| ≤ S := by
    rw [abs_le] at *
    constructor <;> linarith
  have lim : (lo : ℝ) ≤ hi := by exact_mod_cast hlim
  have hgo : ∀ (Z C : ℝ), |C| ≤ 1 → |Z| + S * (T + Leg.time legs) ≤ G → |Z + T * (v * C)| + S * Leg.time legs ≤ G := by
    intro Z C hC hZ
    have a1 := abs_add_le Z (T * (v * C))
    rw [abs_mul (T : ℝ), abs_mul (v : ℝ), abs_of_nonneg hTr] at a1
    have a2 : (T : ℝ) * (|(v : ℝ)| * |C|) ≤ T * (S * 1) := mul_le_mul_of_nonneg_left (mul_le_mul hvS hC (abs_nonneg _) hS0) hTr
    linarith
  have hδ0 : 0 ≤ δ := (abs_nonneg _).trans (hlibm h hh).1
  have hN0 : (0 : ℝ) ≤ legs.length := by positivity
  rw [← hε] at s2 s3 s5 s8 hEh hEv hE
  obtain ⟨p, hp⟩ : ∃ p, p = 7 * ε * G + T * (S * (δ32 + 3 * 2⁻¹ ^ 24 + 14 * ε)) := ⟨_, rfl⟩
  rw [← hp] at s2 s3
  have hEh' : Eh = ε * (90 + 20 * (T * |(w : ℝ)|)) + ε * (90 * legs.length + 20 * Leg.turn legs) := by rw [hEh]; ring
  have hEv' : Ev = ε * (4 * S + 10 * (T * |(a : ℝ)|)) + ε * (4 * S * legs.length + 10 * Leg.gain legs) := by rw [hEv]; ring
  have hEh0 : 0 ≤ Eh := by rw [hEh]; positivity
  have hEv0 : 0 ≤ Ev := by rw [hEv]; positivity
  have hsum : p + Leg.time legs * (Ev + S * (Eh + (δ + 14 * ε))) + 7 * ε * G * legs.length ≤ E := by
    rw [hE, hp]
    have q1 : 0 ≤ T * (Ev + S * (Eh + δ)) := by positivity
    have q2 : T * (Ev + S * (Eh + (δ + 14 * ε))) = T * (Ev + S * (Eh + δ)) + T * (S * (14 * ε)) := by ring
    have q3 : T * (S * (δ32 + 3 * 2⁻¹ ^ 24 + 14 * ε)) = T * (S * (δ32 + 3 * 2⁻¹ ^ 24)) + T * (S * (14 * ε)) := by ring
    rw [add_mul (T : ℝ), q2, q3]
    linarith
  obtain ⟨x2, y2, h2', v2, X2, Y2, H2, V2, k2, i1, i2, i3, i4, i5, ⟨i6, i7⟩, i8, i9⟩ := flight_run hlibm hδ hlim env' hε hloS hhiS
    (le_trans (pow_le_pow_of_le_one (by norm_num) (by norm_num) (by norm_num)) hS.2.1) (hS.2.2.trans (by norm_num)) hG.2.1 hG.2.2 legs
    (e0.firstStep env' (affineRhs (dubins2dF32 ((b64Of libm).single libm32)) dubins2dG) (.fin T) act).entity (by rw [hfirst]; exact hd0)
    (fun l hm => ⟨(applied_config hcfg).2 (tl l hm).1, (tl l hm).2⟩) x' y' h' v'
    (x + T * (v * Real.cos h)) (y + T * (v * Real.sin h)) (h + T * w) (min (max ((v : ℝ) + T * a) lo) hi) p _ _ j (by rw [hfirst]) s4 s6 s7
    (le_min (le_max_right _ _) lim) (min_le_right _ _) s2 s3 s5 s8
    (hgo _ _ (Real.abs_cos_le_one _) hxa) (hgo _ _ (Real.abs_sin_le_one _) hya)
    (by rw [← hEh', ← hEv']; linarith)
  rw [← hEh', ← hEv'] at i6 i7
  rw [← hEh'] at i8
  rw [← hEv'] at i9
  exact ⟨x2, y2, h2', v2, X2, Y2, H2, V2, _, i1, ⟨k2, by ring⟩, i2, by linarith, by linarith, i8, i9, i3, i4, i5⟩

/-- single precision between 256 and 512 is a multiple of `2^-15` -/
theorem single_grid {x y : ℚ} (h1 : 256 ≤ x) (h2 : x < 512) (h : rndBin 24 (-126) 127 x = .val y) : ∃ n : ℤ, y = n * 2⁻¹ ^ 15 := by
  have hy := (rndBin_val h).1
  have hlog : Int.log 2 x = 8 := by
    apply le_antisymm
    · have := (Int.lt_zpow_iff_log_lt (b := 2) (by norm_num) (x := 9) (r := x) (by linarith)).1 (by norm_num; exact h2)
      omega
    · exact (Int.zpow_le_iff_le_log (b := 2) (by norm_num) (x := 8) (r := x) (by linarith)).1 (by norm_num; exact h1)
  have hu : ulpOf 24 (-126) x = 2⁻¹ ^ 15 := by
    unfold ulpOf binExp
    rw [abs_of_pos (by linarith), hlog]
    norm_num
  refine ⟨roundEven (x / ulpOf 24 (-126) x), ?_⟩
  rw [hy, nearestBin, hu]

/-- C107: the single precision is observable. Whatever the sine and cosine for single precision, as long as they are off by at most 1/4, the first second of
a newly constructed aircraft flying straight at 400 feet per second with heading 1/1024 takes it to an `x` that is off by more than 7 millionths of a
foot; had its state been a float64 array, and with a libm accurate to 50 bits, it would be off by less than a billionth. -/
theorem C107_single (libm libm32 : Fmt ℚ) (hlibm : Trig libm (2⁻¹ ^ 50)) (hlibm32 : Trig libm32 (1 / 4)) (env env' : Env (b64Of libm))
    (args : Dubins2dArgs (b64Of libm)) (lo hi : ℚ) (hlo : args.vMin.cast32 = .fin lo) (hhi : args.vMax.cast32 = .fin hi) (hv : -400 ≤ lo ∧ lo ≤ 400)
    (hv' : hi = 400)
    (hm : args.integrationMethod = "Euler") (e0 : Entity (b64Of libm)) (h0 : newDubins2d env args = .ok e0) (hts : e0.dynamics.trajectorySamples ≤ 0)
    (hs : e0.state = [.fin 0, .fin 0, .fin (1 / 1024), .fin 400]) (act : Action (b64Of libm)) (ha : Applied env' e0 act [.fin 0, .fin 0]) :
    (∃ (x y h v : ℚ), (e0.firstStep env' (affineRhs (dubins2dF32 ((b64Of libm).single libm32)) dubins2dG) (.fin 1) act).entity.state
        = [.fin x, .fin y, .fin h, .fin v] ∧ 7 / 1000000 < |(x : ℝ) - 400 * Real.cos (1 / 1024)|) ∧
    (∃ (x y h v : ℚ), (e0.step env' (.fin 1) act).entity.state = [.fin x, .fin y, .fin h, .fin v] ∧ |(x : ℝ) - 400 * Real.cos (1 / 1024)| < 1 / 1000000000) := by
  obtain ⟨h1, h2, h3, h4, h5, h6, h7, -, h9, -⟩ := dubins2d_config h0
  subst hv'
  have hd0 : EulerDubins e0.dynamics lo 400 := by
    refine ⟨⟨by rw [h1, hlo], by rw [h2, hhi], h3, h4, ?_, h7, h9.trans hm, hts⟩, h6⟩
    rw [h5]
    have : Fl.cast32 (0 : Fl (b64Of libm)) = .fin 0 := by
      show Fl.ofExt (rndBin 24 (-126) 127 (((0 : ℕ) : ℚ))) = _
      rw [show rndBin 24 (-126) 127 (((0 : ℕ) : ℚ)) = .val 0 by decide +kernel]; rfl
    rw [this]
  have hloS : |(lo : ℝ)| ≤ 400 := by
    have := hv.1
    have := hv.2
    rw [abs_le]
    constructor
    · exact_mod_cast hv.1
    · exact_mod_cast hv.2
  have hcos : |Real.cos (1 / 1024) - (1 - (1 / 1024) ^ 2 / 2)| ≤ |(1 / 1024 : ℝ)| ^ 4 * (5 / 96) := Real.cos_bound (by rw [abs_of_pos] <;> norm_num)
  rw [abs_of_pos (by norm_num : (0 : ℝ) < 1 / 1024)] at hcos
  have tiny : (2⁻¹ : ℝ) ^ 900 ≤ 1 := pow_le_one₀ (by norm_num) (by norm_num)
  constructor
  · obtain ⟨d1, hd1⟩ : ∃ d1 : Dyn (b64Of libm), d1 = { e0.dynamics with rhs := affineRhs (dubins2dF32 ((b64Of libm).single libm32)) dubins2dG } := ⟨_, rfl⟩
    have hf1 : EulerFlyer d1 lo 400 := by
      rw [hd1]
      exact ⟨hd0.stateMin, hd0.stateMax, hd0.dotMin, hd0.dotMax, hd0.wrap, hd0.custom, hd0.method, hd0.samples⟩
    obtain ⟨q1, q2⟩ := hlibm32 (1 / 1024) (by norm_num [abs_of_pos])
    push_cast at q1 q2
    obtain ⟨p, hp⟩ : ∃ p, p = libm32.cos (1 / 1024) := ⟨_, rfl⟩
    obtain ⟨p', hp'⟩ : ∃ p, p = libm32.sin (1 / 1024) := ⟨_, rfl⟩
    rw [← hp'] at q1
    rw [← hp] at q2
    have pr1 : 256 ≤ 400 * p := by
      rw [abs_le] at q2 hcos
      have : (256 : ℝ) ≤ 400 * p := by norm_num at *; linarith
      exact_mod_cast this
    have pr2 : 400 * p < 512 := by
      rw [abs_le] at q2 hcos
      have : (400 : ℝ) * p < 512 := by norm_num at *; linarith
      exact_mod_cast this
    have pr3 : |400 * p'| ≤ 1000 := by
      have := abs_le.1 q1
      have h1 := Real.neg_one_le_sin (1 / 1024)
      have h2 := Real.sin_le_one (1 / 1024)
      rw [abs_le]
      constructor
      · have : (-1000 : ℝ) ≤ 400 * p' := by linarith
        exact_mod_cast this
      · have : (400 : ℝ) * p' ≤ 1000 := by linarith
        exact_mod_cast this
    obtain ⟨c, hc, hc'⟩ := single_near (x := 400 * p) (by rw [abs_of_pos (by linarith)]; exact pr2.le.trans (by decide +kernel))
    obtain ⟨s, hs', hs''⟩ := single_near (x := 400 * p') (pr3.trans (by decide +kernel))
    obtain ⟨n, hn⟩ := single_grid pr1 pr2 hc
    have c512 : |c| ≤ 513 := by
      have e := abs_add_le (c - 400 * p) (400 * p)
      rw [sub_add_cancel, abs_of_pos (by linarith : 0 < 400 * p)] at e
      rw [abs_of_pos (by linarith : 0 < 400 * p)] at hc'
      have e2 : (2⁻¹ : ℚ) ^ 24 * (400 * p + 2 ^ (-126 : ℤ)) ≤ 2⁻¹ ^ 24 * (512 + 2 ^ (-126 : ℤ)) := by gcongr
      have e3 : (2⁻¹ : ℚ) ^ 24 * (512 + 2 ^ (-126 : ℤ)) ≤ 1 := by decide +kernel
      linarith
    have s1001 : |s| ≤ 1001 := by
      have e := abs_add_le (s - 400 * p') (400 * p')
      rw [sub_add_cancel] at e
      have e2 : (2⁻¹ : ℚ) ^ 24 * (|400 * p'| + 2 ^ (-126 : ℤ)) ≤ 2⁻¹ ^ 24 * (1000 + 2 ^ (-126 : ℤ)) := by gcongr
      have e3 : (2⁻¹ : ℚ) ^ 24 * (1000 + 2 ^ (-126 : ℤ)) ≤ 1 := by decide +kernel
      linarith
    have near : ∀ z : ℚ, Near (2⁻¹ ^ 53) 1 (.fin z : Fl (b64Of libm)) z (|z| + 2 ^ (-1022 : ℤ)) := fun z =>
      ⟨le_add_of_nonneg_right (by positivity), z, rfl, by rw [sub_self, abs_zero]; exact mul_nonneg (by norm_num) (by positivity)⟩
    have hf : dubins2dF32 ((b64Of libm).single libm32) ([.fin 0, .fin 0, .fin (1 / 1024), .fin 400] : Vec (b64Of libm)) = .ok [.fin c, .fin s, 0, 0] := by
      have p1 : ((.fin 400 : Fl ((b64Of libm).single libm32)) * .fin (libm32.cos (1 / 1024))) = .fin c := by
        show Fl.ofExt (rndBin 24 (-126) 127 (400 * libm32.cos (1 / 1024))) = _
        rw [← hp, hc]; rfl
      have p2 : ((.fin 400 : Fl ((b64Of libm).single libm32)) * .fin (libm32.sin (1 / 1024))) = .fin s := by
        show Fl.ofExt (rndBin 24 (-126) 127 (400 * libm32.sin (1 / 1024))) = _
        rw [← hp', hs']; rfl
      show Except.ok [Fl.conv ((.fin 400 : Fl ((b64Of libm).single libm32)) * .fin (libm32.cos (1 / 1024))),
        Fl.conv ((.fin 400 : Fl ((b64Of libm).single libm32)) * .fin (libm32.sin (1 / 1024))),
        Fl.conv (0 : Fl ((b64Of libm).single libm32)), Fl.conv (0 : Fl ((b64Of libm).single libm32))] = _
      rw [p1, p2]
      rfl
    obtain ⟨r0, r1, r2, r3, hr, b0, b1, b2, b3⟩ := affine_rate (b64_rounds libm) (by norm_num)
      (by show rndBin 53 (-1022) 1023 0 = _; decide +kernel) _ (0 : Fl (b64Of libm)) _ _ _ c s 0 0 hf (near c) (near s) (by
        have e : 4 * (513 + 1001 + |0| + |0| + 5 * 2 ^ (-1022 : ℤ)) ≤ (2 : ℚ) ^ (1023 : ℤ) := by decide +kernel
        refine le_trans (mul_le_mul_of_nonneg_left ?_ (by norm_num)) e
        exact add_le_add (add_le_add (add_le_add (add_le_add c512 s1001) le_rfl) le_rfl) le_rfl)
    obtain ⟨x', y', h', v', k, sd, g1, g2, -⟩ := hf1.step (b64_rounds libm) (by norm_num) (by decide +kernel)
      (by show rndBin 53 (-1022) 1023 (2 * (884279719003555 / 281474976710656)) = .val (2 * (884279719003555 / 281474976710656)); decide +kernel)
      (by show (3 : ℚ) ≤ 884279719003555 / 281474976710656; norm_num) (by show (884279719003555 / 281474976710656 : ℚ) ≤ 16 / 5; norm_num) hv.2 env'
      (T := 1) (x := 0) (y := 0) (h := 1 / 1024) (v := 400) (w := 0) (a := 0) (c := c) (s := s) (r0 := r0) (r1 := r1) (r2 := r2) (r3 := r3) (by norm_num)
      hv.2 le_rfl (θ := 2⁻¹ ^ 910) (by decide +kernel) (by decide +kernel) (by
        have e : 100 * (|0| + |0| + |1 / 1024| + |400| + (1 + 1) * (513 + 1001 + |0| + |0|) + 10) ≤ (2 : ℚ) ^ (1023 : ℤ) := by decide +kernel
        refine le_trans (mul_le_mul_of_nonneg_left ?_ (by norm_num)) e
        exact add_le_add (add_le_add le_rfl (mul_le_mul_of_nonneg_left (add_le_add (add_le_add (add_le_add c512 s1001) le_rfl) le_rfl) (by norm_num))) le_rfl)
      (by rw [hd1]; exact hr) b0 b1 b2 b3
    have hap : Applied env' { e0 with dynamics := d1 } act [.fin 0, .fin 0] := by
      rw [applied_iff] at ha ⊢
      have : ({ e0 with dynamics := d1 } : Entity (b64Of libm)).resolve env' act = e0.resolve env' act := by cases act <;> rfl
      rw [this]
      exact ha
    have hst := (((C01_step_decided_by_applied_control env' { e0 with dynamics := d1 } (.fin 1) act).1 _ hap).1 d1 _ sd (by rw [hs]; exact g1)).2
    refine ⟨x', y', h', v', ?_, ?_⟩
    · unfold Entity.firstStep
      rw [if_pos hd0.method, ← hd1]
      simp only [hst]
    · have g : |x' - c| ≤ 1 / 1000000000 := by
        have e1 : (2⁻¹ : ℚ) ^ 53 * (3 * |0| + 7 * (1 * |c|) + 9 * 2⁻¹ ^ 910) ≤ 2⁻¹ ^ 53 * (3 * |0| + 7 * (1 * 513) + 9 * 2⁻¹ ^ 910) := by gcongr
        have e2 : (2⁻¹ : ℚ) ^ 53 * (3 * |0| + 7 * (1 * 513) + 9 * 2⁻¹ ^ 910) ≤ 1 / 1000000000 := by decide +kernel
        rw [zero_add, one_mul] at g2
        exact g2.trans (e1.trans e2)
      have g' : |(x' : ℝ) - c| ≤ 1 / 1000000000 := by
        have : ((|x' - c| : ℚ) : ℝ) ≤ ((1 / 1000000000 : ℚ) : ℝ) := by exact_mod_cast g
        push_cast at this
        exact this
      have hcn : (c : ℝ) = n * 2⁻¹ ^ 15 := by rw [hn]; push_cast; ring
      rw [hcn] at g'
      rcases le_or_gt n 13107193 with hle | hgt
      · have hle' : (n : ℝ) ≤ 13107193 := by exact_mod_cast hle
        rw [abs_le] at g' hcos
        rw [lt_abs]
        right
        norm_num at *
        linarith
      · have hgt' : (13107194 : ℝ) ≤ n := by exact_mod_cast hgt
        rw [abs_le] at g' hcos
        rw [lt_abs]
        left
        norm_num at *
        linarith
  · have h400 : ((400 : ℚ) : ℝ) = 400 := by norm_num
    obtain ⟨x', y', h', v', k, sd, g1, g2, -⟩ := hd0.leg hlibm (by norm_num) hv.2 env' (S := 400) (G := 1) hloS (by norm_num [abs_of_pos]) (tiny.trans (by norm_num)) (by norm_num)
      tiny (by norm_num) (T := 1) (w := 0) (a := 0) (by norm_num) (by norm_num) (by norm_num) (by norm_num) (x := 0) (y := 0) (h := 1 / 1024) (v := 400)
      (by norm_num) (by norm_num) (by norm_num [abs_of_pos]) hv.2 le_rfl
    have hst := (((C01_step_decided_by_applied_control env' e0 (.fin 1) act).1 _ ha).1 _ _ sd (by rw [hs]; exact g1)).2
    refine ⟨x', y', h', v', by rw [hst], ?_⟩
    push_cast at g2
    rw [zero_add, one_mul] at g2
    refine lt_of_le_of_lt g2 ?_
    norm_num

end

/-! ## A new aircraft -/

/-- a new 2d aircraft with heading 1/1024 flying at 400 feet per second -/
theorem Demo.newAircraft (libm : Fmt ℚ) : ∃ (args : Dubins2dArgs (b64Of libm)) (e0 : Entity (b64Of libm)), args.vMin.cast32 = .fin 200 ∧ args.vMax.cast32 = .fin 400 ∧
    args.integrationMethod = "Euler" ∧ newDubins2d (rkEnv dopri (fun _ _ _ => [])) args = .ok e0 ∧ e0.dynamics.trajectorySamples ≤ 0 ∧
    e0.state = [.fin 0, .fin 0, .fin (1 / 1024), .fin 400] ∧ ∀ env, Applied env e0 .none [.fin 0, .fin 0] := by
  obtain ⟨args, hargs⟩ : ∃ args : Dubins2dArgs (b64Of libm), args = {
      headingRateMin := .fin (-1), headingRateMax := .fin 1, accMin := .fin (-96), accMax := .fin 96
      integrationMethod := "Euler", trajectorySamples := some 0, vMin := .fin 200, vMax := .fin 400
      kwargs := [("name", .str "a"), ("x", .num (.fin 0)), ("y", .num (.fin 0)), ("heading", .num (.fin (1 / 1024))), ("v", .num (.fin 400))] } := ⟨_, rfl⟩
  have h0 : ∃ e0 : Entity (b64Of libm), newDubins2d (rkEnv dopri (fun _ _ _ => [])) args = .ok e0 := by rw [hargs]; exact ⟨_, rfl⟩
  obtain ⟨e0, h0⟩ := h0
  obtain ⟨-, -, -, -, -, -, -, -, -, h10, h11, h12, h13, -⟩ := dubins2d_config h0
  refine ⟨args, e0, ?_, ?_, by rw [hargs], h0, by rw [hargs] at h10; exact (Option.some.inj h10).le, ?_, fun env => ?_⟩
  · rw [hargs]; show Fl.ofExt (rndBin 24 (-126) 127 200) = _; rw [show rndBin 24 (-126) 127 200 = .val 200 by decide +kernel]; rfl
  · rw [hargs]; show Fl.ofExt (rndBin 24 (-126) 127 400) = _; rw [show rndBin 24 (-126) 127 400 = .val 400 by decide +kernel]; rfl
  · rw [hargs] at h0
    cases h0
    show [Fl.ofExt (rndBin 24 (-126) 127 0), Fl.ofExt (rndBin 24 (-126) 127 0), Fl.ofExt (rndBin 24 (-126) 127 (1 / 1024)), Fl.ofExt (rndBin 24 (-126) 127 400)] = _
    rw [show rndBin 24 (-126) 127 0 = .val 0 by decide +kernel, show rndBin 24 (-126) 127 (1 / 1024) = .val (1 / 1024) by decide +kernel,
      show rndBin 24 (-126) 127 400 = .val 400 by decide +kernel]
    rfl
  · refine applied_of (ty := .f64) (u := [.fin 0, .fin 0]) ?_ ?_
    · rw [Entity.resolve, h11, fl_zero]
    · rw [h12, h13, hargs]
      simp [npClip, bcast2, Arr.forDType, Arr.toVec, npMax_fin, npMin_fin, bind, Except.bind]

/-- C107_single has instances -/
example : ∃ (libm : Fmt ℚ) (env : Env (b64Of libm)) (e0 : Entity (b64Of libm)) (x y h v : ℚ),
    (e0.firstStep env (affineRhs (dubins2dF32 ((b64Of libm).single libm)) dubins2dG) (.fin 1) .none).entity.state = [.fin x, .fin y, .fin h, .fin v] ∧
    7 / 1000000 < |(x : ℝ) - 400 * Real.cos (1 / 1024)| := by
  obtain ⟨libm, hlibm⟩ := Demo.accurate (2⁻¹ ^ 50) (by positivity)
  obtain ⟨args, e0, a1, a2, a3, a4, a5, a6, a7⟩ := Demo.newAircraft libm
  obtain ⟨⟨x, y, h, v, r1, r2⟩, -⟩ := C107_single libm libm hlibm
    (fun x hx => ⟨(hlibm x hx).1.trans (by norm_num), (hlibm x hx).2.trans (by norm_num)⟩) _ (rkEnv dopri (fun _ _ _ => [])) args 200 400 a1 a2
    ⟨by norm_num, by norm_num⟩ rfl a3 e0 a4 a5 a6 .none (a7 _)
  exact ⟨libm, _, e0, x, y, h, v, r1, r2⟩

/-- an hour of straight flight from construction, in steps of a second: off by less than a thousandth of a foot -/
example : ∃ (libm : Fmt ℚ) (env : Env (b64Of libm)) (e0 : Entity (b64Of libm)) (x' y' h' v' : ℚ) (X Y H V : ℝ),
    eulerFlight 200 400 (List.replicate 3600 (1, 0, 0)) (0, 0, 1 / 1024, 400) = (X, Y, H, V) ∧
    ((e0.firstStep env (affineRhs (dubins2dF32 ((b64Of libm).single libm)) dubins2dG) (.fin 1) .none).entity.run env
      (stepsOf (List.replicate 3599 (1, .none)))).state = [.fin x', .fin y', .fin h', .fin v'] ∧ |x' - X| ≤ 1 / 1000 ∧ |y' - Y| ≤ 1 / 1000 := by
  obtain ⟨libm, hlibm⟩ := Demo.accurate (2⁻¹ ^ 50) (by positivity)
  obtain ⟨args, e0, a1, a2, a3, a4, a5, a6, a7⟩ := Demo.newAircraft libm
  have tiny : (2⁻¹ : ℝ) ^ 900 ≤ 1 := pow_le_one₀ (by norm_num) (by norm_num)
  obtain ⟨l, hl⟩ : ∃ l : Leg (b64Of libm), l = ⟨1, .none, 0, 0⟩ := ⟨_, rfl⟩
  have t0 : l :: List.replicate 3599 l = List.replicate 3600 l := (List.replicate_succ (n := 3599)).symm
  have t1 : Leg.time (List.replicate 3600 l) = 3600 := by rw [Leg.time, List.map_replicate, List.sum_replicate, hl]; norm_num
  have t2 : Leg.turn (List.replicate 3600 l) = 0 := by rw [Leg.turn, List.map_replicate, List.sum_replicate, hl]; norm_num
  have t3 : Leg.gain (List.replicate 3600 l) = 0 := by rw [Leg.gain, List.map_replicate, List.sum_replicate, hl]; norm_num
  have t4 : Leg.hist (List.replicate 3599 l) = List.replicate 3599 (1, .none) := by rw [Leg.hist, List.map_replicate, hl]
  have t5 : Leg.exact (List.replicate 3600 l) = List.replicate 3600 (1, 0, 0) := by rw [Leg.exact, List.map_replicate, hl]; norm_num
  obtain ⟨x', y', h', v', X, Y, H, V, H', i1, -, i2, i3, i4, -⟩ := C107_flight libm libm _ _ hlibm (by norm_num) hlibm (by norm_num) _ (rkEnv dopri (fun _ _ _ => []))
    args 200 400 a1 a2 (by norm_num) a3 e0 a4 a5 0 0 (1 / 1024) 400 a6 (by norm_num [abs_of_pos]) (by norm_num) (by norm_num) l (List.replicate 3599 l) (by
      intro l' hl'
      rw [t0] at hl'
      obtain ⟨-, rfl⟩ := List.mem_replicate.1 hl'
      rw [hl]
      exact ⟨a7 _, by norm_num, by norm_num, by norm_num, by norm_num⟩)
    400 (2 ^ 22) _ _ _ ⟨by norm_num, (pow_le_one₀ (by norm_num) (by norm_num)).trans (by norm_num : (1 : ℝ) ≤ 400), by norm_num⟩
    ⟨by rw [t0, t1]; norm_num, tiny.trans (by norm_num), by norm_num⟩ rfl rfl rfl (by rw [t0, t1, t2, t3, List.length_replicate, hl]; norm_num)
  rw [t0, t5] at i1
  rw [t4] at i2
  rw [t0, t1, t2, t3, List.length_replicate] at i3 i4
  rw [hl] at i2 i3 i4
  refine ⟨libm, _, e0, x', y', h', v', X, Y, H, V, ?_, i2, i3.trans (by norm_num), i4.trans (by norm_num)⟩
  obtain ⟨L, hL⟩ : ∃ L : List (ℝ × ℝ × ℝ), L = List.replicate 3600 (1, 0, 0) := ⟨_, rfl⟩
  rw [← hL] at i1 ⊢
  simpa using i1

end SAD
