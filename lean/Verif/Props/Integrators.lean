import Verif.Lemmas.Point
import Verif.Lemmas.History
import Verif.Props.Demo

/-!
# C25 - C28: point-mass integrators

`initIntegrator env args k` is the constructor body of `Integrator1d`, `Integrator2d`, `Integrator3d` for `k = 1, 2, 3`
(run by a concrete subclass: C28 shows that the classes themselves cannot be instantiated). The state of a `k`-axis
integrator is `Fin.append x v`: `k` positions, then `k` velocities.
-/

set_option linter.unusedSectionVars false

namespace SAD
open Spec

section
variable {K : Type} {R : Fmt K} [Field K] [LinearOrder K] [IsStrictOrderedRing K] [FloorRing K] [Exact R]

/-! ## C25 kinematics -/

/-- uniformly accelerated motion on `k` axes -/
def Spec.uniform {k : Nat} (x v a : Fin k → K) (T : K) : Fin (k + k) → K :=
  Fin.append (fun i => x i + v i * T + a i * T ^ 2 / 2) (fun i => v i + a i * T)

theorem pointModel_chain (k : Nat) (m : K) (x v u : Fin k → K) (hs : List K) :
    rkChain kdopri ((pointModel k m 0).field u) 0 (Fin.append x v) hs = uniform x v (fun i => u i / m) hs.sum := by
  have hU : ∀ (i : Fin k) (t : K) (y : Fin (k + k) → K),
      LinearMap.proj (R := K) (φ := fun _ => K) (Fin.natAdd k i) ((pointModel k m 0).field u t y) = u i / m := by
    intro i t y; simp [pointModel_field, -Fin.natAdd_eq_addNat]
  have hX : ∀ (i : Fin k) (t : K) (y : Fin (k + k) → K),
      LinearMap.proj (R := K) (φ := fun _ => K) (Fin.castAdd k i) ((pointModel k m 0).field u t y)
        = LinearMap.proj (R := K) (φ := fun _ => K) (Fin.natAdd k i) y := by
    intro i t y; simp [pointModel_field, -Fin.natAdd_eq_addNat]
  funext j
  refine Fin.addCases (fun i => ?_) (fun i => ?_) j
  · have := rkChain_double_integrator kdopri kdopri_consistent _ _ _ _ (hX i) (hU i) 0 (Fin.append x v) hs
    simp only [LinearMap.proj_apply, Fin.append_left, Fin.append_right] at this
    rw [this, uniform, Fin.append_left]
    ring
  · have := rkChain_const_rate kdopri kdopri_consistent.b1 kdopri_consistent.blen _ _ _ (hU i) 0 (Fin.append x v) hs
    simp only [LinearMap.proj_apply, Fin.append_right] at this
    rw [this, uniform, Fin.append_right]

/-- The undamped dynamics object: one `RK45` step from `(x, v)` under constant thrust `u` is exactly uniformly accelerated
motion with acceleration `u / m`, for every schedule of accepted steps. -/
theorem C25_dynamics (hpi : 0 < R.pi) (env : Env R) (henv : IsRk dopri env) (m : K) (mode : String) (k : Nat)
    (hk : (mode, k) = ("1d", 1) ∨ (mode, k) = ("2d", 2) ∨ (mode, k) = ("3d", 3)) (args : DynArgs R) (d : Dyn R)
    (hd : mkIntegratorDynamics env (.fin m) 0 mode args = .ok d) (hu : Unlimited d) (hm : d.integrationMethod = "RK45")
    (T : K) (x v u : Fin k → K) (s sd : Vec R)
    (h : (d.step env (.fin T) (toFl (Fin.append x v)) (toFl u)).2 = .ok (s, sd)) :
    s = toFl (uniform x v (fun i => u i / m) T) := by
  rw [Fl.zero_fin] at hd
  obtain ⟨r1, r2, r3⟩ := integrator_realised hd hu
  have hr : DRealises d (pointModel k m 0) := by
    rcases hk with hk | hk | hk <;> cases hk
    · exact r1 rfl
    · exact r2 rfl
    · exact r3 rfl
  obtain ⟨next, c, g1, g2, g3⟩ := dynStep_parts h
  obtain ⟨hs, h1, -, -, h4, -⟩ := rawStep_rk45 henv hu.custom hm (hr.liftsOn u (S := fun _ => True) (fun _ _ => trivial))
    (Stable.univ _) trivial g1
  subst h4
  rw [npClip_toFl _ hr.lo hr.hi] at g2
  cases g2
  rw [wrap_lift hpi hr, pointModel_post] at g3
  cases g3
  rw [pointModel_chain, h1]

/-- The entity: from any reachable configuration, any action requesting thrust `u` moves the undamped integrator with the
acceleration of the saturated thrust. -/
theorem C25_entity (hpi : 0 < R.pi) (env : Env R) (henv : IsRk dopri env) (k : Nat) (args : IntegratorArgs R) (m : K)
    (hm : args.m = .fin m) (hc : args.damping = 0) (hr : args.integrationMethod = "RK45") (e0 : Entity R)
    (h0 : initIntegrator env args k = .ok e0) (ops : List (Op R)) (T : K) (a : Action R) (x v u : Fin k → K)
    (hs : (e0.run env ops).state = toFl (Fin.append x v)) (ha : Asks env (e0.run env ops) a u)
    (hok : ((e0.run env ops).step env (.fin T) a).outcome = .ok ()) :
    ((e0.run env ops).step env (.fin T) a).entity.state
      = toFl (uniform x v (fun i => min (max (u i) (-1)) 1 / m) T) := by
  obtain ⟨r, r2, -⟩ := integratorEntity_realised hm (hc.trans Fl.zero_fin) h0
  have hc := run_sameConfig env ops e0
  have hm45 : (e0.run env ops).dynamics.integrationMethod = "RK45" := by rw [(sameConfig_method hc).1, r2, hr]
  obtain ⟨tab, hs', h1, h2, -⟩ := (r.congr hc).step henv hpi (.inl hm45) ha (S := fun _ => True) (fun _ _ => trivial)
    (Stable.univ _) hs trivial hok
  rcases h1.kind with ⟨-, rfl⟩ | ⟨hE, -⟩
  · rw [h2, pointModel_post, pointModel_chain, h1.sum, pointModel_sat]
  · rw [hm45] at hE; simp at hE

/-- a 2-d integrator of mass 2 built by the constructor body, and a step of it -/
example : ∃ e0 : Entity ratFmt, initIntegrator (rkEnv dopri (fun _ _ _ => [3])) { m := 2, damping := 0, kwargs := [("name", .str "a"), ("x", .num 1)] } 2 = .ok e0 ∧
    e0.state = toFl (Fin.append ![1, 0] ![0, 0]) ∧ Asks (rkEnv dopri (fun _ _ _ => [3])) e0 (.ndarray .f64 [.fin 2, .fin (-1/2)]) ![2, -1/2] ∧
    (e0.step (rkEnv dopri (fun _ _ _ => [3])) (.fin 2) (.ndarray .f64 [.fin 2, .fin (-1/2)])).outcome = .ok () ∧
    (e0.step (rkEnv dopri (fun _ _ _ => [3])) (.fin 2) (.ndarray .f64 [.fin 2, .fin (-1/2)])).entity.state = [.fin 2, .fin (-1/2), .fin 1, .fin (-1/2)] :=
  ⟨_, rfl, by decide +kernel, asks_iff.2 ⟨.f64, rfl⟩, by decide +kernel, by decide +kernel⟩

/-! ## C26 independent axes -/

theorem pointModel_axis (tab : KTab K) (k : Nat) (m c : K) (u1 u2 : Fin k → K) (j : Fin k) (hu : u1 j = u2 j) (y1 y2 : Fin (k + k) → K)
    (hx : y1 (Fin.castAdd k j) = y2 (Fin.castAdd k j)) (hv : y1 (Fin.natAdd k j) = y2 (Fin.natAdd k j)) (hs : List K) :
    rkChain tab ((pointModel k m c).field u1) 0 y1 hs (Fin.castAdd k j) = rkChain tab ((pointModel k m c).field u2) 0 y2 hs (Fin.castAdd k j) ∧
    rkChain tab ((pointModel k m c).field u1) 0 y1 hs (Fin.natAdd k j) = rkChain tab ((pointModel k m c).field u2) 0 y2 hs (Fin.natAdd k j) := by
  let L : (Fin (k + k) → K) →ₗ[K] K × K := (LinearMap.proj (Fin.castAdd k j)).prod (LinearMap.proj (Fin.natAdd k j))
  have key : ∀ (u : Fin k → K) (y : Fin (k + k) → K), L (rkChain tab ((pointModel k m c).field u) 0 y hs)
      = rkChain tab (fun _ p => (p.2, -c * p.2 + u j / m)) 0 (L y) hs := by
    intro u y
    apply rkChain_map
    intro t y
    simp [L, pointModel_field, -Fin.natAdd_eq_addNat]
  have : L (rkChain tab ((pointModel k m c).field u1) 0 y1 hs) = L (rkChain tab ((pointModel k m c).field u2) 0 y2 hs) := by
    rw [key, key, hu]
    congr 1
    simp [L, hx, hv, -Fin.natAdd_eq_addNat]
  simpa [L, -Fin.natAdd_eq_addNat] using this

/-- Two integrators with the same parameters, driven through the same sequence of step sizes with any actions: if their
initial states and all their requested thrusts agree on axis `j`, their positions and velocities on axis `j` stay equal,
whatever happens on the other axes, with or without damping, for Euler and for every choice of a Runge-Kutta schedule for each
step (the same for both; an adaptive solver may choose different ones for the two). -/
theorem C26_axes_independent (hpi : 0 < R.pi) (env : Env R) (k : Nat) (args1 args2 : IntegratorArgs R) (m c : K)
    (hm1 : args1.m = .fin m) (hc1 : args1.damping = .fin c) (hm2 : args2.m = .fin m) (hc2 : args2.damping = .fin c)
    (e1 e2 : Entity R) (h1 : initIntegrator env args1 k = .ok e1)
    (h2 : initIntegrator env args2 k = .ok e2)
    (hm : PlainMethod e1.dynamics) (hm2' : PlainMethod e2.dynamics)
    (hmeth : e2.dynamics.integrationMethod = e1.dynamics.integrationMethod)
    (j : Fin k) (x1 v1 x2 v2 : Fin k → K) (hx : x1 j = x2 j) (hv : v1 j = v2 j)
    (hist : List (List K × K × Action R × Action R))
    (hreq : ∀ h ∈ hist, ∃ u1 u2 : Fin k → K, Asks (scheduled h.1) e1 h.2.2.1 u1 ∧
      Asks (scheduled h.1) e2 h.2.2.2 u2 ∧ u1 j = u2 j) :
    ∃ x1' v1' x2' v2' : Fin k → K,
      (runScheduled { e1 with state := (toFl (Fin.append x1 v1)) } (hist.map (fun h => (h.1, h.2.1, h.2.2.1)))).state
        = toFl (Fin.append x1' v1') ∧
      (runScheduled { e2 with state := (toFl (Fin.append x2 v2)) } (hist.map (fun h => (h.1, h.2.1, h.2.2.2)))).state
        = toFl (Fin.append x2' v2') ∧
      x1' j = x2' j ∧ v1' j = v2' j := by
  obtain ⟨r1, -, -⟩ := integratorEntity_realised hm1 hc1 h1
  obtain ⟨r2, -, -⟩ := integratorEntity_realised hm2 hc2 h2
  have c1 : SameConfig e1 { e1 with state := toFl (Fin.append x1 v1) } := ⟨rfl, rfl, rfl, rfl, rfl, rfl⟩
  have c2 : SameConfig e2 { e2 with state := toFl (Fin.append x2 v2) } := ⟨rfl, rfl, rfl, rfl, rfl, rfl⟩
  obtain ⟨z1, z2, g1, g2, g3, g4⟩ := Realises.run_pair hpi (M := pointModel k m c) (d := e1.dynamics) hm
    (fun y1 y2 => y1 (Fin.castAdd k j) = y2 (Fin.castAdd k j) ∧ y1 (Fin.natAdd k j) = y2 (Fin.natAdd k j))
    (fun u1 u2 => u1 j = u2 j) (S := fun _ => True) (D := ⊤) (fun _ _ => trivial) (fun _ => Stable.univ _) (fun _ _ _ => ⟨trivial, trivial⟩)
    (by
      intro u1 u2 hu ws T y1 y2 hy
      rw [pointModel_post, pointModel_post]
      exact pointModel_axis _ k m c _ _ j (by simp only [pointModel_sat, hu]) y1 y2 hy.1 hy.2 _)
    hist (r1.congr c1) (r2.congr c2) hm hm2' rfl hmeth
    (fun h hh => by
      obtain ⟨u1, u2, a1, a2, a⟩ := hreq h hh
      exact ⟨u1, u2, requests_congr c1 a1, requests_congr c2 a2, a⟩)
    (y1 := Fin.append x1 v1) (y2 := Fin.append x2 v2) rfl rfl (by simp [hx, hv, -Fin.natAdd_eq_addNat])
  have split : ∀ z : Fin (k + k) → K, z = Fin.append (fun i => z (Fin.castAdd k i)) (fun i => z (Fin.natAdd k i)) := by
    intro z; funext i
    refine Fin.addCases (fun i => ?_) (fun i => ?_) i <;> simp [-Fin.natAdd_eq_addNat]
  exact ⟨fun i => z1 (Fin.castAdd k i), fun i => z1 (Fin.natAdd k i), fun i => z2 (Fin.castAdd k i), fun i => z2 (Fin.natAdd k i),
    by rw [← split]; exact g1, by rw [← split]; exact g2, g3, g4⟩

/-- damped integrators whose other axis differs -/
example : ∃ e1 e2 : Entity ratFmt,
    initIntegrator (R := ratFmt) (rkEnv dopri (fun _ _ _ => [])) { m := 2, damping := .fin (1/3), kwargs := [("name", .str "a")] } 2 = .ok e1 ∧
    initIntegrator (R := ratFmt) (rkEnv dopri (fun _ _ _ => [])) { m := 2, damping := .fin (1/3), kwargs := [("name", .str "b"), ("y", .num 7)] } 2 = .ok e2 ∧
    PlainMethod e1.dynamics ∧ Asks (rkEnv dopri (fun _ _ _ => [])) e1 (.ndarray .f64 [.fin 1, .fin 0]) ![1, 0] ∧
    Asks (rkEnv dopri (fun _ _ _ => [])) e2 (.dict [("thrust_x", 1)]) ![1, 0] :=
  ⟨_, _, rfl, rfl, .inl rfl, asks_iff.2 ⟨.f64, rfl⟩, asks_iff.2 ⟨.f64, by decide +kernel⟩⟩

end

/-! ## C27 dict actions -/

section dict
variable {K : Type} {R : Fmt K} [Field K] [LinearOrder K] [FloorRing K]

/-- applying entries that all map to index 0 -/
theorem applyDict_zero (map : List (String × Nat)) (hmap : ∀ name i, (name, i) ∈ map → i = 0) (items : List (String × Fl R))
    (x : Fl R) (rest : Vec R) :
    ((∀ name v, (name, v) ∈ items → name ∈ map.map Prod.fst) →
      applyDict map items (x :: rest) = .ok (((items.map Prod.snd).getLast?.getD x) :: rest)) ∧
    ((∃ name v, (name, v) ∈ items ∧ name ∉ map.map Prod.fst) → applyDict map items (x :: rest) = .error .keyError) := by
  induction items generalizing x with
  | nil => simp [applyDict]
  | cons it items ih =>
    obtain ⟨name, v⟩ := it
    constructor
    · intro h
      have hn := h name v (by simp)
      cases hl : lookup map name with
      | none =>
        rw [lookup_none] at hl
        obtain ⟨p, hp, rfl⟩ := List.mem_map.1 hn
        exact absurd hp (hl p.2)
      | some i =>
        have hi := hmap name i (lookup_mem hl)
        subst hi
        simp only [applyDict, hl, setIdx, List.length_cons, Nat.zero_lt_succ, if_true, bind, Except.bind, List.set_cons_zero]
        rw [(ih v).1 (fun n w hw => h n w (by simp [hw]))]
        cases items with
        | nil => simp
        | cons b bs => simp [List.getLast?_cons]
    · rintro ⟨n, w, hw, hn⟩
      cases hl : lookup map name with
      | none => simp [applyDict, hl]
      | some i =>
        have hi := hmap name i (lookup_mem hl)
        subst hi
        simp only [applyDict, hl, setIdx, List.length_cons, Nat.zero_lt_succ, if_true, bind, Except.bind, List.set_cons_zero]
        apply (ih v).2
        rcases List.mem_cons.1 hw with h | h
        · cases h
          exact absurd (List.mem_map.2 ⟨(name, 0), lookup_mem hl, rfl⟩) hn
        · exact ⟨n, w, h, hn⟩

/-- actuator names of the integrators -/
def Spec.integratorActuators : Nat → List String
  | 1 => ["thrust_x"]
  | 2 => ["thrust_x", "thrust_y"]
  | _ => ["thrust_x", "thrust_y", "thrust_z"]

/-- For the 2-d and 3-d integrators, every dict action behaves as the array action whose first thrust is the value given
last (0 for an empty dict) and whose other thrusts are all 0; a dict with another actuator name raises `KeyError`. In every
arithmetic, for every reachable entity. -/
theorem C27_dict_only_x (env : Env R) (args : IntegratorArgs R) (k : Nat) (hk : k = 2 ∨ k = 3) (e0 : Entity R)
    (h0 : initIntegrator env args k = .ok e0) (ops : List (Op R)) (dt : Fl R) (items : List (String × Fl R)) :
    ((∀ name v, (name, v) ∈ items → name ∈ integratorActuators k) →
      (e0.run env ops).step env dt (.dict items)
        = (e0.run env ops).step env dt (.ndarray .f64 (((items.map Prod.snd).getLast?.getD 0) :: List.replicate (k - 1) 0))) ∧
    ((∃ name v, (name, v) ∈ items ∧ name ∉ integratorActuators k) →
      ((e0.run env ops).step env dt (.dict items)).outcome = .error .keyError) := by
  obtain ⟨-, h2, -, -, h5, -⟩ := run_sameConfig env ops e0
  have hcfg : ∃ map, e0.controlMap = some map ∧ map.map Prod.fst = integratorActuators k ∧
      (∀ name i, (name, i) ∈ map → i = 0) ∧ e0.controlDefault = 0 :: List.replicate (k - 1) 0 := by
    rcases hk with rfl | rfl
    · obtain ⟨d, -, h⟩ := Except.bind_ok.1 h0
      obtain ⟨-, b2, -, -, b5⟩ := baseInit_ok h
      exact ⟨_, b5, rfl, by simp; tauto, b2⟩
    · obtain ⟨d, -, h⟩ := Except.bind_ok.1 h0
      obtain ⟨-, b2, -, -, b5⟩ := baseInit_ok h
      exact ⟨_, b5, rfl, by simp; tauto, b2⟩
  obtain ⟨map, c1, c2, c3, c4⟩ := hcfg
  rw [c4] at h2
  rw [c1] at h5
  have key := applyDict_zero map c3 items 0 (List.replicate (k - 1) 0)
  rw [c2] at key
  constructor
  · intro h
    apply step_congr
    simp only [Entity.resolve, h5, h2]
    rw [key.1 h]
    rfl
  · intro h
    unfold Entity.step
    simp only [Entity.resolve, h5, h2]
    rw [key.2 h]
    rfl

example : ∃ e0 : Entity ratFmt, initIntegrator Demo.env { m := 1, damping := 0, kwargs := [("name", .str "a")] } 3 = .ok e0 ∧
    (e0.step Demo.env 1 (.dict [("thrust_x", .fin 1), ("thrust_z", .fin (1/2))])).entity.state = [.fin 0, .fin 0, .fin 0, .fin (1/2), .fin 0, .fin 0] :=
  ⟨_, rfl, by decide +kernel⟩

/-! ## C28 construction and equality -/

/-- No call of the integrator classes succeeds: they inherit the abstract `orientation`. -/
theorem C28_not_constructible (env : Env R) (args : IntegratorArgs R) :
    newIntegrator1d env args = .error .typeError ∧ newIntegrator2d env args = .error .typeError ∧
    newIntegrator3d env args = .error .typeError := by
  have h : ∀ name, abstractMethods (mroIntegrator name) ≠ [] := by
    intro name
    have : "orientation" ∈ abstractMethods (mroIntegrator name) := by
      unfold abstractMethods
      rw [List.mem_dedup, List.mem_filter]
      refine ⟨?_, rfl⟩
      rw [List.mem_flatMap]
      exact ⟨clsBaseEntity, by simp [mroIntegrator], by decide⟩
    intro he
    rw [he] at this
    cases this
  refine ⟨?_, ?_, ?_⟩ <;> simp only [newIntegrator1d, newIntegrator2d, newIntegrator3d, instantiate, h, if_false]

/-- `orientation` is all that is missing: a subclass whose members are not abstract can be constructed if and only if it defines
`orientation`. -/
theorem C28_subclass_constructible {α : Type} (name sub : String) (members : List (String × Bool)) (hm : ∀ q ∈ members, q.2 = false)
    (init : Py α) :
    ("orientation" ∈ members.map Prod.fst → instantiate (⟨sub, members⟩ :: mroIntegrator name) init = init) ∧
    ("orientation" ∉ members.map Prod.fst → instantiate (⟨sub, members⟩ :: mroIntegrator name) init = .error .typeError) := by
  have hl : ∀ (ms : List (String × Bool)) (k : String), (lookup ms k = none ∧ k ∉ ms.map Prod.fst) ∨ ∃ b, lookup ms k = some b ∧ (k, b) ∈ ms := by
    intro ms k
    induction ms with
    | nil => exact .inl ⟨rfl, by simp⟩
    | cons q ms ih =>
      obtain ⟨k', b⟩ := q
      by_cases hk : k' = k
      · exact .inr ⟨b, by simp [lookup, hk], by simp [hk]⟩
      · rcases ih with ⟨h1, h2⟩ | ⟨b', h1, h2⟩
        · exact .inl ⟨by simpa [lookup, hk] using h1, by simpa [Ne.symm hk] using h2⟩
        · exact .inr ⟨b', by simpa [lookup, hk] using h1, by simp [h2]⟩
  constructor
  · intro ho
    unfold instantiate
    rw [if_pos]
    unfold abstractMethods
    rw [List.dedup_eq_nil, List.filter_eq_nil_iff]
    intro k hk
    rw [Bool.not_eq_true]
    unfold isAbstractIn
    rcases hl members k with ⟨h1, h2⟩ | ⟨b, h1, h2⟩
    · simp only [h1]
      have hk' : k ≠ "orientation" := fun h => h2 (h ▸ ho)
      have hb : ∀ k ∈ (mroIntegrator "").flatMap (fun c => c.members.map Prod.fst), k ≠ "orientation" → isAbstractIn (mroIntegrator "") k = false := by decide
      rw [List.flatMap_cons, List.mem_append] at hk
      exact hb k (hk.resolve_left h2) hk'
    · simp only [h1]
      exact hm _ h2
  · intro ho
    unfold instantiate
    rw [if_neg]
    intro he
    have : "orientation" ∈ abstractMethods (⟨sub, members⟩ :: mroIntegrator name) := by
      unfold abstractMethods
      rw [List.mem_dedup, List.mem_filter]
      refine ⟨?_, ?_⟩
      · rw [List.mem_flatMap]
        exact ⟨clsBaseEntity, by simp [mroIntegrator], by decide⟩
      · unfold isAbstractIn
        rcases hl members "orientation" with ⟨h1, -⟩ | ⟨b, -, h2⟩
        · simp only [h1]; rfl
        · exact absurd (List.mem_map_of_mem h2) ho
    rw [he] at this
    cases this

example : ∀ init : Py Nat, instantiate (⟨"Craft", [("orientation", false)]⟩ :: mroIntegrator "Integrator2d") init = init :=
  fun init => (C28_subclass_constructible "Integrator2d" "Craft" _ (by simp) init).1 (by simp)

/-- The other shipped entity classes have no abstract members left: constructing them runs their `__init__`. -/
theorem C28_others_constructible {α : Type} (init : Py α) : ∀ mro ∈ [mroCWHSpacecraft, mroCWHRotation2d, mroSixDOF, mroSun, mroDubins2d, mroDubins3d],
    instantiate mro init = init := by
  have h : ∀ mro ∈ [mroCWHSpacecraft, mroCWHRotation2d, mroSixDOF, mroSun, mroDubins2d, mroDubins3d],
      abstractMethods mro = [] := by decide
  intro mro hm
  unfold instantiate
  rw [if_pos (h mro hm)]

/-- `Integrator2d` and `Integrator3d` objects never equal an object of their own class, not even themselves. -/
theorem C28_never_equal (a b : IntegratorObj R) (h1 : a.cls ≠ .one) (h2 : b.cls = a.cls) : a.eq b = .ok false := by
  unfold IntegratorObj.eq
  rw [if_neg (by rw [h2]; exact h1)]

/-- ... while they do equal an `Integrator1d` whose position and velocity match all their coordinates; that `Integrator1d` does
not equal them. -/
theorem C28_equality_not_symmetric (x v : K) (n : Nat) (c : IntegratorClass) (hc : (c, n) = (.two, 2) ∨ (c, n) = (.three, 3)) :
    ∃ a b : IntegratorObj R, a.cls = c ∧ b.cls = .one ∧ a.state = List.replicate n (.fin x) ++ List.replicate n (.fin v) ∧
      b.state = [.fin x, .fin v] ∧ a.eq b = .ok true ∧ b.eq a = .ok false := by
  rcases hc with h | h <;> cases h
  · exact ⟨⟨.two, _⟩, ⟨.one, _⟩, rfl, rfl, rfl, rfl, by
      simp [IntegratorObj.eq, IntegratorObj.velocity, IntegratorObj.position, allEq, bcast2, Fl.eqb, bind, Except.bind], by
      simp [IntegratorObj.eq]⟩
  · exact ⟨⟨.three, _⟩, ⟨.one, _⟩, rfl, rfl, rfl, rfl, by
      simp [IntegratorObj.eq, IntegratorObj.velocity, IntegratorObj.position, allEq, bcast2, Fl.eqb, bind, Except.bind], by
      simp [IntegratorObj.eq]⟩

end dict
end SAD
