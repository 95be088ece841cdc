import Verif.Props.Epicycle

/-!
# C125: what thrust does to the centre of a relative orbit
-/

set_option linter.unusedSectionVars false

namespace SAD
open Spec

section
variable {K : Type} [Field K] {V : Type} [AddCommGroup V] [Module K V]

/-- `x' = v + d`, `v' = a` with constants: the stages of a consistent method -/
theorem rkStages_pushed (F : K → V → V) (X U : V →ₗ[K] K) (a d : K)
    (hX : ∀ t y, X (F t y) = U y + d) (hU : ∀ t y, U (F t y) = a) (t h : K) (y : V) :
    ∀ (st : List (K × List K)) (ks : List V) (cs : List K), RowsOk ks.length st → ks.length = cs.length →
      ks.map X = cs.map (fun c => U y + d + c * (h * a)) → (∀ k ∈ ks, U k = a) →
      (rkStages F t h y st ks).map X = (cs ++ st.map Prod.fst).map (fun c => U y + d + c * (h * a)) ∧
      ∀ k ∈ rkStages F t h y st ks, U k = a := by
  intro st
  induction st with
  | nil => intro ks cs _ _ h1 h2; exact ⟨by simpa [rkStages] using h1, h2⟩
  | cons p st ih2 =>
    intro ks cs hr hl h1 h2
    obtain ⟨c, row⟩ := p
    obtain ⟨r1, r2, r3⟩ := hr
    simp only [rkStages]
    have := ih2 (ks ++ [F (t + c * h) (y + h • combo row ks)]) (cs ++ [c]) (by simpa using r3) (by simp [hl]) (by
      rw [List.map_append, h1, List.map_append]
      congr 1
      simp only [List.map_cons, List.map_nil, List.cons.injEq, and_true]
      rw [hX, map_add, map_smul, combo_const a row ks U h2 r1, r2, smul_eq_mul]; ring) (by
      intro k hk
      rcases List.mem_append.1 hk with h' | h'
      · exact h2 k h'
      · simp at h'; subst h'; exact hU _ _)
    refine ⟨?_, this.2⟩
    rw [this.1]
    simp

/-- `x' = v + d`, `v' = a` with constants: any consistent method is exact. -/
theorem rkChain_pushed [CharZero K] (tab : KTab K) (hc : tab.Consistent) (F : K → V → V) (X U : V →ₗ[K] K) (a d : K)
    (hX : ∀ t y, X (F t y) = U y + d) (hU : ∀ t y, U (F t y) = a) (t : K) (y : V) (hs : List K) :
    X (rkChain tab F t y hs) = X y + (U y + d) * hs.sum + a * hs.sum ^ 2 * (1 / 2) := by
  induction hs generalizing t y with
  | nil => simp [rkChain]
  | cons h hs ih =>
    simp only [rkChain]
    rw [ih]
    have hUstep : U (rkStep tab F t h y) = U y + a * h := by
      have := rkChain_const_rate tab hc.b1 hc.blen F U a hU t y [h]
      simpa [rkChain] using this
    have hst := (rkStages_pushed F X U a d hX hU t h y tab.stages [F t y] [0] hc.rows rfl (by simp [hX])
      (by intro k hk; simp at hk; subst hk; exact hU _ _)).1
    have hXstep : X (rkStep tab F t h y) = X y + (U y + d) * h + a * h ^ 2 * (1 / 2) := by
      simp only [rkStep, map_add, map_smul, combo_map]
      rw [hst, combo_eq, zip_affine_sum _ _ (by simp [hc.blen]), hc.b1]
      have := hc.b2
      simp only [List.singleton_append] at *
      rw [this, smul_eq_mul]; ring
    rw [hUstep, hXstep]
    simp only [List.sum_cons]; ring

end

section
variable {K : Type} {R : Fmt K} [Field K] [LinearOrder K] [IsStrictOrderedRing K] [FloorRing K] [Exact R]

/-- a thrust within the limits -/
def Spec.limited (f : K) : K := min (max f (-1)) 1

/-- what a history of calls `(T, u)` does to the radial position of the centre: each adds `2 T u_y / (m n)` -/
def Spec.centreXThrust (m n : K) : List (K × (Fin 3 → K)) → K → K
  | [], x => x
  | (T, u) :: rest, x => centreXThrust m n rest (x + 2 * (limited (u 1) * T) / (m * n))

/-- what they do to the along-track position of the centre, which drifts at `-3/2 n` times the radial position. Euler (`c = 0`) lets it drift
at the rate of the beginning of a call, the exact motion (`c = 1`) at the average rate. -/
def Spec.centreYThrust (c m n : K) : List (K × (Fin 3 → K)) → K → K → K
  | [], _, y => y
  | (T, u) :: rest, x, y => centreYThrust c m n rest (x + 2 * (limited (u 1) * T) / (m * n))
      (y - 3 / 2 * n * x * T - 2 * (limited (u 0) * T) / (m * n) - c * (3 / 2 * (limited (u 1) * T ^ 2) / m))

theorem cwModel_push {d : Dyn R} {T : K} {tab : KTab K} {hs : List K} (hr : Run d T tab hs) (m n : K) (hm : m ≠ 0) (hn : n ≠ 0) (u : Fin 3 → K)
    (y : Fin 6 → K) (c : K) (hc : c = if d.integrationMethod = "Euler" then 0 else 1) :
    centreX n (rkChain tab ((cwModel m n).field u) 0 y hs) = centreX n y + 2 * (u 1 * T) / (m * n) ∧
    centreY n (rkChain tab ((cwModel m n).field u) 0 y hs)
      = centreY n y - 3 / 2 * n * centreX n y * T - 2 * (u 0 * T) / (m * n) - c * (3 / 2 * (u 1 * T ^ 2) / m) := by
  let L : (Fin 6 → K) →ₗ[K] K := (4 : K) • LinearMap.proj 0 + (2 / n) • LinearMap.proj 4
  let X : (Fin 6 → K) →ₗ[K] K := LinearMap.proj 1 - (2 / n) • LinearMap.proj 3
  let U : (Fin 6 → K) →ₗ[K] K := (-(3 / 2 * n)) • L
  have e1 : ∀ y, L y = centreX n y := by intro y; simp [L, centreX]; ring
  have e2 : ∀ y, X y = centreY n y := by intro y; simp [X, centreY]; ring
  have hL : ∀ t y, L ((cwModel m n).field u t y) = 2 * u 1 / (m * n) := by
    intro t y
    simp [L, cwModel_field]
    field_simp
    ring
  have hU : ∀ t y, U ((cwModel m n).field u t y) = -(3 * u 1 / m) := by
    intro t y
    simp only [U, LinearMap.smul_apply, hL, smul_eq_mul]
    field_simp
  have hX : ∀ t y, X ((cwModel m n).field u t y) = U y + -(2 * u 0 / (m * n)) := by
    intro t y
    simp [X, U, L, cwModel_field]
    field_simp
    ring
  have eU : ∀ y, U y = -(3 / 2 * n) * centreX n y := by intro y; rw [← e1]; rfl
  constructor
  · have := rkChain_const_rate tab hr.b.1 hr.b.2 ((cwModel m n).field u) L _ hL 0 y hs
    rw [e1, e1, hr.sum] at this
    rw [this]; ring
  · rw [hc]
    rcases hr.kind with ⟨h, rfl⟩ | ⟨h, rfl, rfl⟩
    · rw [if_neg (by rw [h]; decide)]
      have := rkChain_pushed kdopri kdopri_consistent ((cwModel m n).field u) X U _ _ hX hU 0 y hs
      rw [e2, e2, eU, hr.sum] at this
      rw [this]; ring
    · rw [if_pos h, rkChain_keuler, ← e2, ← e2, map_add, map_smul, hX, eU, smul_eq_mul]
      ring

/-- the thrusts asked for in the calls that return normally -/
def Spec.Done (env : Env R) : Entity R → List (K × Action R) → List (K × (Fin 3 → K)) → Prop
  | _, [], done => done = []
  | e, (T, a) :: hist, done => match (e.step env (.fin T) a).outcome with
    | .ok () => ∃ u rest, Asks env e a u ∧ done = (T, u) :: rest ∧ Done env (e.step env (.fin T) a).entity hist rest
    | .error _ => Done env (e.step env (.fin T) a).entity hist done

theorem push_run {env : Env R} (henv : IsRk dopri env) (hpi : 0 < R.pi) {m n : K} (hm : m ≠ 0) (hn : n ≠ 0) (c : K) (hist : List (K × Action R)) :
    ∀ {e : Entity R}, Realises e (cwModel m n) → PlainMethod e.dynamics → c = (if e.dynamics.integrationMethod = "Euler" then 0 else 1) →
      ∀ (done : List (K × (Fin 3 → K))), Done env e hist done → ∀ {s : Fin 6 → K}, e.state = toFl s →
      ∃ s' : Fin 6 → K, (e.run env (stepsOf hist)).state = toFl s' ∧ centreX n s' = centreXThrust m n done (centreX n s) ∧
        centreY n s' = centreYThrust c m n done (centreX n s) (centreY n s) := by
  induction hist with
  | nil =>
    intro e _ _ _ done hd s hs
    obtain rfl : done = [] := hd
    exact ⟨s, hs, rfl, rfl⟩
  | cons h hist ih =>
    intro e hr hp hc done hd s hs
    obtain ⟨T, a⟩ := h
    have hcf : SameConfig e (e.step env (.fin T) a).entity := step_sameConfig env e _ _
    have hrun : e.run env (stepsOf ((T, a) :: hist)) = (e.step env (.fin T) a).entity.run env (stepsOf hist) := rfl
    rw [hrun]
    have hc' : c = (if (e.step env (.fin T) a).entity.dynamics.integrationMethod = "Euler" then 0 else 1) := by
      rw [(sameConfig_method hcf).1]; exact hc
    cases ho : (e.step env (.fin T) a).outcome with
    | error x =>
      simp only [Done, ho] at hd
      exact ih (hr.congr hcf) (plain_congr hcf hp) hc' done hd (by rw [(step_error ho).1, hs])
    | ok _ =>
      simp only [Done, ho] at hd
      obtain ⟨u, rest, ha, rfl, hd⟩ := hd
      obtain ⟨tab, hs', h1, h2, -⟩ := hr.step henv hpi hp ha (S := fun _ => True) (fun _ _ => trivial) (Stable.univ _) hs trivial ho
      rw [cwModel_post] at h2
      obtain ⟨k1, k2⟩ := cwModel_push h1 m n hm hn ((cwModel m n).sat u) s c hc
      obtain ⟨s', g1, g2, g3⟩ := ih (hr.congr hcf) (plain_congr hcf hp) hc' rest hd h2
      refine ⟨s', g1, ?_, ?_⟩
      · rw [g2, k1]; rfl
      · rw [g3, k1, k2]; rfl

/-- C125: every call moves the centre of the relative orbit of a point-mass spacecraft by an amount that depends on the thrust, the duration and
the radial position of the centre only: whatever the state, and exactly, for any solver steps. -/
theorem C125_centre (hpi : 0 < R.pi) (env : Env R) (henv : IsRk dopri env) (args : CwhArgs R) (m n : K) (hm : args.m = .fin m)
    (hn : args.n = .fin n) (hn0 : n ≠ 0) (e0 : Entity R) (h0 : newCwhSpacecraft env args = .ok e0) (hp : PlainMethod e0.dynamics)
    (ops : List (Op R)) (e : Entity R) (he : e = e0.run env ops) (s : Fin 6 → K) (hs : e.state = toFl s) (hist : List (K × Action R))
    (done : List (K × (Fin 3 → K))) (hdone : Done env e hist done) :
    ∃ s' : Fin 6 → K, (e.run env (stepsOf hist)).state = toFl s' ∧ centreX n s' = centreXThrust m n done (centreX n s) ∧
      centreY n s' = centreYThrust (if args.integrationMethod = "Euler" then 0 else 1) m n done (centreX n s) (centreY n s) := by
  obtain ⟨r, hm0, hmeth, -⟩ := cwhSpacecraft_realised hm hn h0
  have hc := run_sameConfig env ops e0
  rw [← he] at hc
  exact push_run henv hpi hm0 hn0 _ hist (r.congr hc) (plain_congr hc hp) (by rw [(sameConfig_method hc).1, hmeth]) done hdone hs

theorem centreXThrust_sum (m n : K) (done : List (K × (Fin 3 → K))) : ∀ x, centreXThrust m n done x
    = x + 2 / (m * n) * (done.map fun h => limited (h.2 1) * h.1).sum := by
  induction done with
  | nil => intro x; simp [centreXThrust]
  | cons h done ih =>
    intro x
    obtain ⟨T, u⟩ := h
    rw [centreXThrust, ih, List.map_cons, List.sum_cons]
    ring

/-- C125: so the drift of a relative orbit is stopped exactly by the calls whose along-track thrusts (within the limits) times durations add up to
`-m n / 2` times the radial position of the centre, however they are spread over time, and by no others. -/
theorem C125_stops_drift (hpi : 0 < R.pi) (env : Env R) (henv : IsRk dopri env) (args : CwhArgs R) (m n : K) (hm : args.m = .fin m)
    (hn : args.n = .fin n) (hn0 : n ≠ 0) (e0 : Entity R) (h0 : newCwhSpacecraft env args = .ok e0) (hp : PlainMethod e0.dynamics)
    (ops : List (Op R)) (e : Entity R) (he : e = e0.run env ops) (s : Fin 6 → K) (hs : e.state = toFl s) (hist : List (K × Action R))
    (done : List (K × (Fin 3 → K))) (hdone : Done env e hist done) :
    ∃ s' : Fin 6 → K, (e.run env (stepsOf hist)).state = toFl s' ∧
      (s' 4 = -2 * n * s' 0 ↔ (done.map fun h => limited (h.2 1) * h.1).sum = -(m * n / 2) * centreX n s) := by
  obtain ⟨s', h1, h2, -⟩ := C125_centre hpi env henv args m n hm hn hn0 e0 h0 hp ops e he s hs hist done hdone
  have hm0 := (cwhSpacecraft_realised hm hn h0).2.1
  rw [centreXThrust_sum] at h2
  refine ⟨s', h1, ?_⟩
  generalize (done.map fun h => limited (h.2 1) * h.1).sum = S at h2 ⊢
  generalize centreX n s = x at h2 ⊢
  have e1 : s' 4 = -2 * n * s' 0 ↔ centreX n s' = 0 := by
    unfold centreX
    constructor
    · intro h; rw [h]; field_simp; ring
    · intro h; field_simp at h; linear_combination h / 2
  rw [e1, h2]
  constructor
  · intro h
    field_simp at h
    linear_combination h / 2
  · intro h
    rw [h]
    field_simp
    ring

end

/-- a spacecraft of 12 kg whose centre is 4 m below the reference orbit: one second of 0.24 N along the track stops the drift, in RK45 with any
solver steps; here two equal ones -/
example : centreX (1 / 100 : ℚ) ![4, 0, 3, 0, -1 / 10, 0] = -4 ∧ limited (6 / 25 : ℚ) * 1 = -(12 * (1 / 100) / 2) * -4 := by decide +kernel
example : ∃ e : Entity ratFmt, newCwhSpacecraft (R := ratFmt) (rkEnv dopri (fun _ _ _ => [1, 2]))
      { n := .fin (1 / 100), kwargs := [("name", .str "a"), ("x", .num 4), ("y_dot", .num (.fin (-1 / 10))), ("z", .num 3)] } = .ok e ∧
    (decide (e.resolve (rkEnv dopri (fun _ _ _ => [1, 2])) (.dict [("thrust_y", .fin (6 / 25))]) = .ok (.f64, toFl (![0, 6 / 25, 0] : Fin 3 → ℚ))) &&
    decide ((e.step (rkEnv dopri (fun _ _ _ => [1, 2])) 1 (.dict [("thrust_y", .fin (6 / 25))])).outcome = .ok ())) = true :=
  Demo.of_okAnd (by decide +kernel)
/-- the history of one call that is done, and one that raises and is not -/
example (env : Env ratFmt) (e : Entity ratFmt) (T : ℚ) (a : Action ratFmt) (u : Fin 3 → ℚ) (ha : Asks env e a u)
    (ho : (e.step env (.fin T) a).outcome = .ok ()) : Done env e [(T, a)] [(T, u)] := by
  simp only [Done, ho]
  exact ⟨u, [], ha, rfl, rfl⟩

end SAD
