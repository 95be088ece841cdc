import Verif.Lemmas.RkLift
import Verif.Lemmas.Wrap
import Verif.Lemmas.Control
import Verif.Lemmas.Applied
import Verif.Lemmas.Solver

/-!
# Entities whose computations stay finite, as systems over the field

`KModel` is a bounded control system over the field (rates, limits, wrap centres, control limits); `Realises e M` says that
the entity `e` computes it. The theorems then describe whole steps of `e` as Runge-Kutta chains over the field.
-/

set_option linter.unusedSectionVars false

namespace SAD
open Spec

variable {K : Type} {R : Fmt K} [Field K] [LinearOrder K] {n m : Nat}

/-! ### limits -/

/-- lower limit: `none` is `-inf` -/
def loFl : Option K → Fl R
  | none => .ninf
  | some x => .fin x
/-- upper limit: `none` is `inf` -/
def hiFl : Option K → Fl R
  | none => .pinf
  | some x => .fin x

/-- clipping over the field -/
def kclip (lo hi : Option K) (x : K) : K :=
  match lo, hi with
  | none, none => x
  | some l, none => max x l
  | none, some h => min x h
  | some l, some h => min (max x l) h

theorem npMax_fin (a b : K) : Fl.npMax (.fin a : Fl R) (.fin b) = .fin (max a b) := by
  simp only [Fl.npMax, Fl.isNan_fin, Fl.fin_lt_fin]
  by_cases h : b < a
  · simp [h, max_eq_left h.le]
  · simp [h, max_eq_right (not_lt.1 h)]

theorem npMin_fin (a b : K) : Fl.npMin (.fin a : Fl R) (.fin b) = .fin (min a b) := by
  simp only [Fl.npMin, Fl.isNan_fin, Fl.fin_lt_fin]
  by_cases h : a < b
  · simp [h, min_eq_left h.le]
  · simp [h, min_eq_right (not_lt.1 h)]

theorem npMax_ninf (a : K) : Fl.npMax (.fin a : Fl R) .ninf = .fin a := by simp [Fl.npMax]
theorem npMin_pinf (a : K) : Fl.npMin (.fin a : Fl R) .pinf = .fin a := by simp [Fl.npMin]

theorem clip_fin (lo hi : Option K) (x : K) : Fl.clip (.fin x : Fl R) (loFl lo) (hiFl hi) = .fin (kclip lo hi x) := by
  cases lo <;> cases hi <;> simp [Fl.clip, loFl, hiFl, kclip, npMax_fin, npMin_fin, npMax_ninf, npMin_pinf]

/-- a limit argument applied to an array of length `n` -/
def ArrIs (a : Arr R) (f : Fin n → Fl R) : Prop := a = .vec (List.ofFn f) ∨ ∃ x, a = .scalar x ∧ ∀ i, f i = x

theorem bcast2_ofFn {α β γ : Type} (f : α → β → γ) (a : Fin n → α) (b : Fin n → β) :
    bcast2 f (List.ofFn a) (List.ofFn b) = .ok (List.ofFn (fun i => f (a i) (b i))) := by
  rw [bcast2_same (by simp), zipWith_ofFn]

theorem bcast2_arr {β γ : Type} (g : β → Fl R → γ) (a : Fin n → β) {lim : Arr R} {f : Fin n → Fl R} (h : ArrIs lim f) :
    bcast2 g (List.ofFn a) lim.toVec = .ok (List.ofFn (fun i => g (a i) (f i))) := by
  rcases h with rfl | ⟨x, rfl, hx⟩
  · exact bcast2_ofFn g a f
  · simp only [Arr.toVec]
    rw [bcast2_single_right, List.map_ofFn]
    congr 2
    funext i
    simp [hx]

theorem npClip_ofFn (a : Fin n → Fl R) {lo hi : Arr R} {l h : Fin n → Fl R} (hlo : ArrIs lo l) (hhi : ArrIs hi h) :
    npClip (List.ofFn a) lo hi = .ok (List.ofFn (fun i => Fl.clip (a i) (l i) (h i))) := by
  simp only [npClip, bcast2_arr _ _ hlo, bind, Except.bind]
  exact bcast2_arr _ _ hhi

theorem npClip_toFl (y : Fin n → K) {lo hi : Arr R} {l h : Fin n → Option K} (hlo : ArrIs lo (fun i => loFl (l i)))
    (hhi : ArrIs hi (fun i => hiFl (h i))) : npClip (toFl y) lo hi = .ok (toFl (fun i => kclip (l i) (h i) (y i))) := by
  unfold toFl
  rw [npClip_ofFn _ hlo hhi]
  simp only [clip_fin]

theorem npWhere_ofFn {α : Type} (c : Fin n → Bool) (a b : Fin n → α) :
    npWhere (List.ofFn c) (List.ofFn a) (List.ofFn b) = .ok (List.ofFn (fun i => if c i then a i else b i)) := by
  simp only [npWhere, bcast2_ofFn, bind, Except.bind]

/-- `compute_state_dot` of one element over the field -/
def klimit (lo hi dlo dhi : Option K) (y v : K) : K :=
  let w := kclip dlo dhi v
  if ∃ h, hi = some h ∧ h ≤ y then min w 0
  else if ∃ l, lo = some l ∧ y ≤ l then max w 0
  else w

theorem klimit_free (y v : K) : klimit none none none none y v = v := by simp [klimit, kclip]

theorem loFl_le (lo : Option K) (y : K) : ((.fin y : Fl R) ≤ loFl lo) ↔ ∃ l, lo = some l ∧ y ≤ l := by
  cases lo <;> simp [loFl]
theorem hiFl_le (hi : Option K) (y : K) : (hiFl hi ≤ (.fin y : Fl R)) ↔ ∃ h, hi = some h ∧ h ≤ y := by
  cases hi <;> simp [hiFl]

theorem computeStateDot_lift {d : Dyn R} {lo hi dlo dhi : Fin n → Option K} (h1 : ArrIs d.stateMin (fun i => loFl (lo i)))
    (h2 : ArrIs d.stateMax (fun i => hiFl (hi i))) (h3 : ArrIs d.stateDotMin (fun i => loFl (dlo i)))
    (h4 : ArrIs d.stateDotMax (fun i => hiFl (dhi i))) {t : Fl R} {u : Vec R} {y v : Fin n → K}
    (h : d.rhs t (toFl y) u = .ok (toFl v)) :
    d.computeStateDot t (toFl y) u = .ok (toFl (fun i => klimit (lo i) (hi i) (dlo i) (dhi i) (y i) (v i))) := by
  unfold Dyn.computeStateDot Dyn.clipStateDotDirect Dyn.clipStateDotByStateLimits
  simp only [h, bind, Except.bind]
  rw [npClip_toFl v h3 h4]
  simp only
  unfold toFl
  rw [bcast2_arr _ _ h1]
  simp only
  rw [bcast2_arr _ _ h2]
  simp only [List.map_ofFn]
  rw [npWhere_ofFn]
  simp only
  rw [npWhere_ofFn]
  congr 2
  funext i
  have e1 : Fl.clip (.fin (kclip (dlo i) (dhi i) (v i)) : Fl R) 0 .pinf = .fin (max (kclip (dlo i) (dhi i) (v i)) 0) := by
    have := clip_fin (R := R) (some 0) none (kclip (dlo i) (dhi i) (v i))
    simpa [loFl, hiFl, kclip] using this
  have e2 : Fl.clip (.fin (kclip (dlo i) (dhi i) (v i)) : Fl R) .ninf 0 = .fin (min (kclip (dlo i) (dhi i) (v i)) 0) := by
    have := clip_fin (R := R) none (some 0) (kclip (dlo i) (dhi i) (v i))
    simpa [loFl, hiFl, kclip] using this
  simp only [Function.comp, e1, e2, klimit, decide_eq_true_eq, loFl_le, hiFl_le]
  split
  · rfl
  · split <;> rfl

/-! ### the system -/

/-- A bounded control system over the field; `dom` is where its rates are finite. -/
structure KModel (K : Type) (n m : Nat) where
  dom : (Fin n → K) → Prop
  rate : K → (Fin n → K) → (Fin m → K) → (Fin n → K)
  lo : Fin n → Option K
  hi : Fin n → Option K
  dlo : Fin n → Option K
  dhi : Fin n → Option K
  centre : Fin n → Option K
  ulo : Fin m → Option K
  uhi : Fin m → Option K

namespace KModel
variable (M : KModel K n m)

/-- limited rates -/
def field (u : Fin m → K) (t : K) (y : Fin n → K) : Fin n → K :=
  fun i => klimit (M.lo i) (M.hi i) (M.dlo i) (M.dhi i) (y i) (M.rate t y u i)

/-- saturated control -/
def sat (u : Fin m → K) : Fin m → K := fun i => kclip (M.ulo i) (M.uhi i) (u i)

/-- state limits and wrapping after the integration -/
def post [FloorRing K] (pi : K) (y : Fin n → K) : Fin n → K := fun i =>
  let x := kclip (M.lo i) (M.hi i) (y i)
  match M.centre i with
  | none => x
  | some c => x + c - 2 * pi * ⌊(x + pi) / (2 * pi)⌋

end KModel

/-- centre of wrapping as stored: NaN for unwrapped elements -/
def centreFl : Option K → Fl R
  | none => .nan
  | some c => .fin c

/-- `d` computes the system `M` -/
structure DRealises (d : Dyn R) (M : KModel K n m) : Prop where
  custom : d.custom = none
  rhs : ∀ t y u, M.dom y → d.rhs (.fin t) (toFl y) (toFl u) = .ok (toFl (M.rate t y u))
  lo : ArrIs d.stateMin (fun i => loFl (M.lo i))
  hi : ArrIs d.stateMax (fun i => hiFl (M.hi i))
  dlo : ArrIs d.stateDotMin (fun i => loFl (M.dlo i))
  dhi : ArrIs d.stateDotMax (fun i => hiFl (M.dhi i))
  centre : (d.angleWrapCenters = none ∧ ∀ i, M.centre i = none) ∨
    d.angleWrapCenters = some (List.ofFn (fun i => centreFl (M.centre i)))

/-- `e` computes the system `M` -/
structure Realises (e : Entity R) (M : KModel K n m) : Prop where
  dyn : DRealises e.dynamics M
  ulo : ArrIs e.controlMin (fun i => loFl (M.ulo i))
  uhi : ArrIs e.controlMax (fun i => hiFl (M.uhi i))

variable [IsStrictOrderedRing K] [Exact R]

/-- the function handed to the solver -/
def Dyn.field (d : Dyn R) (u : Vec R) : Rhs R := fun t y => d.computeStateDot t y u

theorem DRealises.liftsOn {d : Dyn R} {M : KModel K n m} (h : DRealises d M) (u : Fin m → K) {S : (Fin n → K) → Prop}
    (hS : ∀ y, S y → M.dom y) : LiftsOn S (d.field (toFl u)) (M.field u) := fun t y hy =>
  computeStateDot_lift h.lo h.hi h.dlo h.dhi (h.rhs t y u (hS y hy))

/-- forward Euler as a Runge-Kutta method -/
def keuler : KTab K := ⟨[], [1]⟩

theorem keuler_b : (keuler : KTab K).b.sum = 1 := by simp [keuler]
theorem keuler_len : (keuler : KTab K).b.length = (keuler : KTab K).stages.length + 1 := by simp [keuler]

theorem rkChain_keuler {V : Type} [AddCommGroup V] [Module K V] (F : K → V → V) (t h : K) (y : V) :
    rkChain keuler F t y [h] = y + h • F t y := by
  simp [rkChain, rkStep, keuler, rkStages, combo]

theorem lastRow_some {rows : List (Vec R)} {r : Vec R} (h : rows.getLast? = some r) : lastRow rows = .ok r := by
  simp [lastRow, h]

/-- a method and a schedule of accepted steps for one call of `step` -/
structure Run (d : Dyn R) (T : K) (tab : KTab K) (hs : List K) : Prop where
  sum : hs.sum = T
  nonneg : 0 ≤ T → ∀ h ∈ hs, 0 ≤ h
  nonpos : T ≤ 0 → ∀ h ∈ hs, h ≤ 0
  kind : (d.integrationMethod = "RK45" ∧ tab = kdopri) ∨ (d.integrationMethod = "Euler" ∧ tab = keuler ∧ hs = [T])

theorem Run.b {d : Dyn R} {T : K} {tab : KTab K} {hs : List K} (h : Run d T tab hs) :
    tab.b.sum = 1 ∧ tab.b.length = tab.stages.length + 1 := by
  rcases h.kind with ⟨-, rfl⟩ | ⟨-, rfl, -⟩
  · exact ⟨kdopri_consistent.b1, kdopri_consistent.blen⟩
  · exact ⟨keuler_b, keuler_len⟩

/-- the sample times the library asks for are finite and end with the end of the step -/
theorem tEval_last (d : Dyn R) (T : K) (ts : Vec R) (h : d.tEval (.fin T) = some ts) :
    ts.getLast? = some (.fin T) ∧ ∀ x ∈ ts, x.isFin = true := by
  unfold Dyn.tEval at h
  split at h
  · rename_i hn
    cases h
    obtain ⟨m', hm'⟩ : ∃ m', d.trajectorySamples.toNat = m' + 1 := ⟨d.trajectorySamples.toNat - 1, by omega⟩
    refine ⟨by simp [linspaceTail, hm', List.range_succ], ?_⟩
    intro x hx
    obtain ⟨k, -, rfl⟩ := List.mem_map.1 hx
    split
    · rfl
    · rw [hm', Fl.fin_div_fin _ _ (by exact_mod_cast Nat.succ_ne_zero m'), Fl.fin_mul_fin]
      rfl
  · cases h

section raw
variable {u : Vec R} {F : K → (Fin n → K) → (Fin n → K)} {S : (Fin n → K) → Prop} {D : Submodule K (Fin n → K)}

theorem rawStep_rk45 {env : Env R} (henv : IsRk dopri env) {d : Dyn R} (hc : d.custom = none)
    (hm : d.integrationMethod = "RK45") (hf : LiftsOn S (d.field u) F) (hst : Stable F S D)
    {T : K} {y : Fin n → K} (hy : S y) {next sd : Vec R} (h : (d.rawStep env (.fin T) (toFl y) u).2 = .ok (next, sd)) :
    ∃ hs : List K, hs.sum = T ∧ (0 ≤ T → ∀ h ∈ hs, 0 ≤ h) ∧ (T ≤ 0 → ∀ h ∈ hs, h ≤ 0) ∧
      next = toFl (rkChain kdopri F 0 y hs) ∧ sd = toFl (F T (rkChain kdopri F 0 y hs)) := by
  rw [rawStep_ode hc] at h
  obtain ⟨sol, g1, g2, g3, -⟩ := odeStep_rk45_ok hm h
  obtain ⟨hs, h1, h2, h3, h4⟩ := isRk_lift henv hf hst (tEval_last d T) g1 hy
  rw [g2] at h4
  cases h4
  refine ⟨hs, h1, h2, h3, rfl, ?_⟩
  have := hf T _ (rkChain_inv kdopri F S D hst.field hst.move 0 y hs hy)
  unfold Dyn.field at this
  rw [this] at g3
  cases g3; rfl

theorem rawStep_euler (env : Env R) {d : Dyn R} (hc : d.custom = none)
    (hm : d.integrationMethod = "Euler") (hs : d.trajectorySamples ≤ 0)
    (hf : LiftsOn S (d.field u) F) (T : K) (y : Fin n → K) (hy : S y) :
    (d.rawStep env (.fin T) (toFl y) u).2 = .ok (toFl (y + T • F 0 y), toFl (F 0 y)) := by
  have hs' : ¬ 0 < d.trajectorySamples := by omega
  have e : d.computeStateDot 0 (toFl y) u = .ok (toFl (F 0 y)) := by rw [Fl.zero_fin]; exact hf _ _ hy
  simp only [Dyn.rawStep, hc, Dyn.odeStep, hm]
  simp only [show ("Euler" = "RK45") = False from by simp, show ("Euler" = "RK45_JAX") = False from by simp, if_false,
    if_true, hs', e, bind, Except.bind, pure, Except.pure, vadd, vscale, toFl_mul_left]
  rw [bcast2_same (by simp), toFl_add]

/-- A successful step of a plain method is some run. -/
theorem rawStep_run {env : Env R} (henv : IsRk dopri env) {d : Dyn R} (hc : d.custom = none) (hm : PlainMethod d)
    (hf : LiftsOn S (d.field u) F) (hst : Stable F S D) {T : K} {y : Fin n → K} (hy : S y) {next sd : Vec R}
    (h : (d.rawStep env (.fin T) (toFl y) u).2 = .ok (next, sd)) :
    ∃ tab hs, Run d T tab hs ∧ next = toFl (rkChain tab F 0 y hs) ∧
      ((d.integrationMethod = "RK45" ∧ sd = toFl (F T (rkChain tab F 0 y hs))) ∨
       (d.integrationMethod = "Euler" ∧ sd = toFl (F 0 y))) := by
  rcases hm with hm | ⟨hm, hs⟩
  · obtain ⟨hs, h1, h2, h3, h4, h5⟩ := rawStep_rk45 henv hc hm hf hst hy h
    exact ⟨kdopri, hs, ⟨h1, h2, h3, .inl ⟨hm, rfl⟩⟩, h4, .inl ⟨hm, h5⟩⟩
  · rw [rawStep_euler env hc hm hs hf T y hy] at h
    cases h
    refine ⟨keuler, [T], ⟨by simp, by simp, by simp, .inr ⟨hm, rfl, rfl⟩⟩, ?_, .inr ⟨hm, rfl⟩⟩
    rw [rkChain_keuler]

/-- the Runge-Kutta method and schedule behind a plain method, for a fixed policy -/
def flowTab (d : Dyn R) : KTab K := if d.integrationMethod = "Euler" then keuler else kdopri
def flowHs (d : Dyn R) (ws : List K) (T : K) : List K :=
  if d.integrationMethod = "Euler" then [T] else schedule T ws

theorem flow_run {d : Dyn R} (hm : PlainMethod d) (ws : List K) (T : K) : Run d T (flowTab d) (flowHs d ws T) := by
  rcases hm with hm | ⟨hm, hs⟩
  · have hne : d.integrationMethod ≠ "Euler" := by rw [hm]; simp
    refine ⟨?_, ?_, ?_, .inl ⟨hm, by simp [flowTab, hne]⟩⟩
    · simp [flowHs, hne, schedule_sum]
    · simp only [flowHs, hne, if_false]; exact (schedule_sign T ws).1
    · simp only [flowHs, hne, if_false]; exact (schedule_sign T ws).2
  · refine ⟨?_, ?_, ?_, .inr ⟨hm, by simp [flowTab, hm], by simp [flowHs, hm]⟩⟩ <;> simp [flowHs, hm]

/-- With a fixed schedule (accepted steps proportional to `ws`) the step always succeeds. -/
theorem rawStep_fixed (ws : List K) {d : Dyn R} (hc : d.custom = none) (hm : PlainMethod d)
    (hf : LiftsOn S (d.field u) F) (hst : Stable F S D) (T : K) (y : Fin n → K) (hy : S y) :
    (d.rawStep (rkEnv dopri (fun _ _ _ => ws)) (.fin T) (toFl y) u).2
      = .ok (toFl (rkChain (flowTab d) F 0 y (flowHs d ws T)),
          toFl (if d.integrationMethod = "Euler" then F 0 y else F T (rkChain (flowTab d) F 0 y (flowHs d ws T)))) := by
  rcases hm with hm | ⟨hm, hs⟩
  · have e : d.computeStateDot (.fin T) (toFl (rkChain kdopri F 0 y (schedule T ws))) u
        = .ok (toFl (F T (rkChain kdopri F 0 y (schedule T ws)))) :=
      hf _ _ (rkChain_inv kdopri F S D hst.field hst.move 0 y _ hy)
    have hsol := rkEnv_solve (fun _ _ _ => ws) hf hst T y hy (d.tEval (.fin T))
    simp only [Dyn.rawStep, hc, Dyn.odeStep, hm, if_true, flowTab, flowHs]
    rw [show (fun t y => d.computeStateDot t y u) = d.field u from rfl, hsol]
    simp only [show ("RK45" = "Euler") = False from by simp, if_false, lastRow, List.getLast?_cons_cons,
      List.getLast?_singleton, bind, Except.bind, e, pure, Except.pure]
  · rw [rawStep_euler _ hc hm hs hf T y hy]
    simp only [flowTab, flowHs, hm, if_true, rkChain_keuler]

end raw

variable [FloorRing K]

theorem wrap_lift {d : Dyn R} {M : KModel K n m} (hpi : 0 < R.pi) (h : DRealises d M) (y : Fin n → K) :
    d.wrapAngles (toFl (fun i => kclip (M.lo i) (M.hi i) (y i))) = .ok (toFl (M.post R.pi y)) := by
  unfold Dyn.wrapAngles
  rcases h.centre with ⟨h1, h2⟩ | h1
  · rw [h1]
    simp only [Except.ok.injEq]
    congr 1
    funext i
    simp [KModel.post, h2]
  · rw [h1]
    simp only [toFl]
    rw [bcast2_ofFn]
    congr 2
    funext i
    cases hc : M.centre i with
    | none => simp [centreFl, KModel.post, hc]
    | some c => simp [centreFl, KModel.post, hc, wrapElem_exact hpi]

theorem dynStep_lift {env : Env R} {d : Dyn R} {M : KModel K n m} (hpi : 0 < R.pi) (h : DRealises d M) {T : Fl R}
    {s u : Vec R} {y : Fin n → K} {sd : Vec R} (hr : (d.rawStep env T s u).2 = .ok (toFl y, sd)) :
    (d.step env T s u).2 = .ok (toFl (M.post R.pi y), sd) := by
  unfold Dyn.step
  simp only
  rw [hr]
  simp only [bind, Except.bind, npClip_toFl y h.lo h.hi, wrap_lift hpi h, pure, Except.pure]

theorem asks_iff {env : Env R} {e : Entity R} {a : Action R} {u : Fin m → K} :
    Asks env e a u ↔ ∃ ty, e.resolve env a = .ok (ty, toFl u) :=
  ⟨fun ⟨ty, h⟩ => ⟨ty, resolve_iff.2 h⟩, fun ⟨ty, h⟩ => ⟨ty, resolve_iff.1 h⟩⟩

theorem exceeds_ofFn (u : Fin m → Fl R) {lo hi : Arr R} {l h : Fin m → Fl R} (hlo : ArrIs lo l) (hhi : ArrIs hi h) :
    ∃ w, exceeds (List.ofFn u) lo hi = .ok w := by
  unfold exceeds
  simp only [bcast2_arr _ _ hlo, bcast2_arr _ _ hhi, bind, Except.bind, pure, Except.pure]
  split <;> exact ⟨_, rfl⟩

/-- Every action with a finite requested control is applied saturated. -/
theorem step_realised {env : Env R} {e : Entity R} {M : KModel K n m} (h : Realises e M) {a : Action R} {u : Fin m → K}
    (ha : Asks env e a u) (dt : Fl R) :
    (∃ w, e.step env dt a = match e.dynamics.step env dt e.state (toFl (M.sat u)) with
      | (d, .error x) => ⟨{ e with dynamics := d }, w, .error x⟩
      | (d, .ok (s, sd)) => ⟨{ e with dynamics := d, state := s, stateDot := sd }, w, .ok ()⟩) := by
  obtain ⟨ty, hr⟩ := asks_iff.1 ha
  obtain ⟨w, hw⟩ := exceeds_ofFn (fun i => (.fin (u i) : Fl R)) h.ulo h.uhi
  refine ⟨w, ?_⟩
  unfold Entity.step
  simp only [hr, forDType_exact]
  change exceeds (toFl u) _ _ = _ at hw
  rw [hw]
  simp only
  rw [npClip_toFl u h.ulo h.uhi]
  rfl

/-- A successful step, for every Dormand-Prince schedule and for Euler: the new state is the clipped and wrapped end of a
Runge-Kutta chain of the limited system with the saturated control. -/
theorem Realises.step {env : Env R} (henv : IsRk dopri env) (hpi : 0 < R.pi) {e : Entity R} {M : KModel K n m}
    (h : Realises e M) (hm : PlainMethod e.dynamics) {a : Action R} {u : Fin m → K} (ha : Asks env e a u)
    {S : (Fin n → K) → Prop} {D : Submodule K (Fin n → K)} (hdom : ∀ y, S y → M.dom y)
    (hst : Stable (M.field (M.sat u)) S D) {y : Fin n → K} (he : e.state = toFl y) (hy : S y) {T : K}
    (hok : (e.step env (.fin T) a).outcome = .ok ()) :
    ∃ tab hs, Run e.dynamics T tab hs ∧
      (e.step env (.fin T) a).entity.state = toFl (M.post R.pi (rkChain tab (M.field (M.sat u)) 0 y hs)) ∧
      ((e.dynamics.integrationMethod = "RK45" ∧
        (e.step env (.fin T) a).entity.stateDot
          = toFl (M.field (M.sat u) T (rkChain tab (M.field (M.sat u)) 0 y hs))) ∨
       (e.dynamics.integrationMethod = "Euler" ∧
        (e.step env (.fin T) a).entity.stateDot = toFl (M.field (M.sat u) 0 y))) := by
  obtain ⟨w, hstep⟩ := step_realised h ha (.fin T)
  rw [hstep] at hok ⊢
  generalize hds : e.dynamics.step env (.fin T) e.state (toFl (M.sat u)) = ds at hok ⊢
  cases ds with
  | mk d r =>
    cases r with
    | error x => simp at hok
    | ok p =>
      obtain ⟨s, sd⟩ := p
      simp only
      have h2 : (e.dynamics.step env (.fin T) e.state (toFl (M.sat u))).2 = .ok (s, sd) := by rw [hds]
      obtain ⟨next, c, g1, g2, g3⟩ := dynStep_parts h2
      rw [he] at g1
      obtain ⟨tab, hs, k1, k2, k3⟩ := rawStep_run henv h.dyn.custom hm (h.dyn.liftsOn (M.sat u) hdom) hst hy g1
      subst k2
      rw [npClip_toFl _ h.dyn.lo h.dyn.hi] at g2
      cases g2
      rw [wrap_lift hpi h.dyn] at g3
      cases g3
      exact ⟨tab, hs, k1, rfl, k3⟩

/-- With a fixed schedule the step always succeeds. -/
theorem Realises.step_fixed (ws : List K) (hpi : 0 < R.pi) {e : Entity R} {M : KModel K n m}
    (h : Realises e M) (hm : PlainMethod e.dynamics) {a : Action R} {u : Fin m → K}
    (ha : Asks (rkEnv dopri (fun _ _ _ => ws)) e a u)
    {S : (Fin n → K) → Prop} {D : Submodule K (Fin n → K)} (hdom : ∀ y, S y → M.dom y)
    (hst : Stable (M.field (M.sat u)) S D) {y : Fin n → K} (he : e.state = toFl y) (hy : S y) (T : K) :
    (e.step (rkEnv dopri (fun _ _ _ => ws)) (.fin T) a).outcome = .ok () ∧
    (e.step (rkEnv dopri (fun _ _ _ => ws)) (.fin T) a).entity.state
      = toFl (M.post R.pi (rkChain (flowTab e.dynamics) (M.field (M.sat u)) 0 y (flowHs e.dynamics ws T))) ∧
    (e.step (rkEnv dopri (fun _ _ _ => ws)) (.fin T) a).entity.stateDot
      = toFl (if e.dynamics.integrationMethod = "Euler" then M.field (M.sat u) 0 y else
          M.field (M.sat u) T (rkChain (flowTab e.dynamics) (M.field (M.sat u)) 0 y (flowHs e.dynamics ws T))) := by
  obtain ⟨w, hstep⟩ := step_realised h ha (.fin T)
  have hr := rawStep_fixed ws h.dyn.custom hm (h.dyn.liftsOn (M.sat u) hdom) hst T y hy
  have hd := dynStep_lift hpi h.dyn hr
  rw [hstep]
  rw [← he] at hd
  cases hds : e.dynamics.step (rkEnv dopri (fun _ _ _ => ws)) (.fin T) e.state (toFl (M.sat u)) with
  | mk d r =>
    rw [hds] at hd
    simp only at hd
    subst hd
    exact ⟨rfl, rfl, rfl⟩

theorem Realises.congr {e e' : Entity R} {M : KModel K n m} (h : Realises e M) (hc : SameConfig e e') : Realises e' M := by
  obtain ⟨h1, h2, h3, h4, h5, h6⟩ := hc
  have hd : DRealises { e'.dynamics with trajectory := e.dynamics.trajectory, trajectoryT := e.dynamics.trajectoryT } M := by
    rw [h6]; exact h.dyn
  exact ⟨⟨hd.custom, hd.rhs, hd.lo, hd.hi, hd.dlo, hd.dhi, hd.centre⟩, by rw [h3]; exact h.ulo, by rw [h4]; exact h.uhi⟩

theorem Realises.run {e : Entity R} {M : KModel K n m} (h : Realises e M) (env : Env R) (ops : List (Op R)) :
    Realises (e.run env ops) M := h.congr (run_sameConfig env ops e)

end SAD
