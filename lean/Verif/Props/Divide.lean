import Verif.Lemmas.Accuracy
import Verif.Props.Reach
import Mathlib.Tactic.LinearCombination

/-!
# C130: dividing a duration into calls
-/

set_option linter.unusedSectionVars false

namespace SAD
open Spec

section
variable {K : Type} {R : Fmt K} [Field K] [LinearOrder K] [IsStrictOrderedRing K] [FloorRing K] [Exact R] {n m : Nat}

/-- The durations of the calls of a history that return normally. -/
def Spec.completed (env : Env R) : Entity R → List (K × Action R) → List K
  | _, [] => []
  | e, (T, a) :: hist => (match (e.step env (.fin T) a).outcome with | .ok () => [T] | .error _ => []) ++
      completed env (e.step env (.fin T) a).entity hist

/-- any positive first step followed by non-negative ones is a schedule -/
theorem schedule_exists {h : K} (hpos : 0 < h) (hs : List K) (hn : ∀ x ∈ hs, 0 ≤ x) : ∃ ws, schedule (h + hs.sum) ws = h :: hs := by
  refine ⟨hs.map (· / h), ?_⟩
  unfold schedule
  have hab : ∀ l : List K, (∀ x ∈ l, 0 ≤ x) → l.map (fun w => if w < 0 then -w else w) = l := by
    intro l hl
    conv_rhs => rw [← List.map_id l]
    exact List.map_congr_left (fun x hx => if_neg (not_lt.2 (hl x hx)))
  have hall : ∀ x ∈ (1 : K) :: hs.map (· / h), 0 ≤ x := by
    intro x hx
    rcases List.mem_cons.1 hx with rfl | hx
    · exact zero_le_one
    · obtain ⟨y, hy, rfl⟩ := List.mem_map.1 hx
      exact div_nonneg (hn y hy) hpos.le
  rw [hab _ hall, List.sum_cons]
  have hsum : 1 + (hs.map (· / h)).sum = (h + hs.sum) / h := by
    have h1 : ∀ l : List K, (l.map (· / h)).sum = l.sum / h := by
      intro l
      induction l with
      | nil => simp
      | cons x l ih => rw [List.map_cons, List.sum_cons, List.sum_cons, ih, add_div]
    rw [h1, add_div, div_self hpos.ne']
  have hS : 0 < h + hs.sum := add_pos_of_pos_of_nonneg hpos (List.sum_nonneg hn)
  rw [hsum]
  have hh := hpos.ne'
  have hS' := hS.ne'
  have e : ∀ w : K, 0 ≤ w → (h + hs.sum) * ((if w < 0 then -w else w) / ((h + hs.sum) / h)) = w * h := by
    intro w hw
    rw [if_neg (not_lt.2 hw)]
    field_simp
  rw [List.map_cons, e 1 zero_le_one, one_mul, List.map_map]
  congr 1
  conv_rhs => rw [← List.map_id hs]
  refine List.map_congr_left (fun x hx => ?_)
  simp only [Function.comp_apply, id]
  rw [e _ (div_nonneg (hn x hx) hpos.le)]
  field_simp

theorem schedules_join (hist : List (List K × K × Action R)) (hT : ∀ h ∈ hist, 0 < h.2.1) (hne : hist ≠ []) :
    ∃ ws, schedule (hist.map (fun h => h.2.1)).sum ws = hist.flatMap fun h => schedule h.2.1 h.1 := by
  obtain ⟨⟨ws, T, a⟩, hist, rfl⟩ := List.exists_cons_of_ne_nil hne
  have hsum : ∀ l : List (List K × K × Action R), (l.flatMap fun h => schedule h.2.1 h.1).sum = (l.map (fun h => h.2.1)).sum := by
    intro l
    induction l with
    | nil => rfl
    | cons h l ih => rw [List.flatMap_cons, List.sum_append, schedule_sum, ih, List.map_cons, List.sum_cons]
  have hnn : ∀ l : List (List K × K × Action R), (∀ h ∈ l, 0 < h.2.1) → ∀ x ∈ l.flatMap (fun h => schedule h.2.1 h.1), 0 ≤ x := by
    intro l hl x hx
    obtain ⟨h, hh, hx⟩ := List.mem_flatMap.1 hx
    exact (schedule_sign h.2.1 h.1).1 (hl h hh).le x hx
  have hT0 : 0 < T := hT (ws, T, a) (by simp)
  have hfirst : ∃ h tl, schedule T ws = h :: tl ∧ 0 < h := by
    refine ⟨_, _, rfl, ?_⟩
    have := absSum_pos ws
    simp only [if_neg (not_lt.2 (zero_le_one (α := K)))]
    exact mul_pos hT0 (div_pos one_pos this)
  obtain ⟨h, tl, e, hpos⟩ := hfirst
  have hall : ((ws, T, a) :: hist).flatMap (fun h => schedule h.2.1 h.1) = h :: (tl ++ hist.flatMap fun h => schedule h.2.1 h.1) := by
    rw [List.flatMap_cons]; simp only [e]; rfl
  obtain ⟨ws', hws⟩ := schedule_exists hpos (tl ++ hist.flatMap fun h => schedule h.2.1 h.1) (by
    intro x hx
    exact hnn _ hT x (by rw [hall]; simp [hx] at *))
  refine ⟨ws', ?_⟩
  rw [← hsum, hall, List.sum_cons]
  exact hws

theorem Realises.one_call (hpi : 0 < R.pi) {M : KModel K n m} (hdom : ∀ y, M.dom y) (hpost : ∀ y, M.post R.pi y = y) {u : Fin m → K}
    (hF : ∀ t t' y, M.field (M.sat u) t y = M.field (M.sat u) t' y) {e : Entity R} (hr : Realises e M)
    (hmeth : e.dynamics.integrationMethod = "RK45") (hist : List (List K × K × Action R)) (hne : hist ≠ [])
    (hT : ∀ h ∈ hist, 0 < h.2.1) (ha : ∀ ws, ∀ h ∈ hist, Asks (scheduled ws) e h.2.2 u) {y : Fin n → K} (he : e.state = toFl y) :
    ∃ ws, ∀ h ∈ hist, (runScheduled e hist).state = (e.step (scheduled ws) (.fin (hist.map fun h => h.2.1).sum) h.2.2).entity.state := by
  have hp : PlainMethod e.dynamics := .inl hmeth
  obtain ⟨ws, hws⟩ := schedules_join hist hT hne
  refine ⟨ws, fun h hh => ?_⟩
  have hE : e.dynamics.integrationMethod ≠ "Euler" := by rw [hmeth]; decide
  rw [hr.run_chain hpi hdom hpost hF hist hp rfl (fun g hg => ha _ g hg) he]
  have h1 := (hr.step_fixed ws hpi hp (ha ws h hh) (S := fun _ => True) (D := ⊤) (fun y _ => hdom y) (Stable.univ _) he trivial
    (hist.map fun h => h.2.1).sum).2.1
  rw [hpost] at h1
  have h2 : flowHs e.dynamics ws (hist.map fun h => h.2.1).sum = hist.flatMap fun h => flowHs e.dynamics h.1 h.2.1 := by
    simp only [flowHs, hE, if_false]; exact hws
  rw [h2] at h1
  exact h1.symm

/-- C130: for the integrators, damped or not, with RK45: any number of calls of positive durations with actions that ask for the same thrust, each
with any solver steps, end in the state in which one call of the whole duration ends for some choice of solver steps. -/
theorem C130_integrator_one_call (hpi : 0 < R.pi) (env : Env R) (k : Nat) (args : IntegratorArgs R) (m c : K) (hm : args.m = .fin m)
    (hc : args.damping = .fin c) (hrk : args.integrationMethod = "RK45") (e0 : Entity R) (h0 : initIntegrator env args k = .ok e0)
    (y : Fin (k + k) → K) (hs : e0.state = toFl y) (u : Fin k → K) (hist : List (List K × K × Action R)) (hne : hist ≠ [])
    (hT : ∀ h ∈ hist, 0 < h.2.1) (ha : ∀ ws, ∀ h ∈ hist, Asks (scheduled ws) e0 h.2.2 u) :
    ∃ ws, ∀ h ∈ hist, (runScheduled e0 hist).state = (e0.step (scheduled ws) (.fin (hist.map fun h => h.2.1).sum) h.2.2).entity.state := by
  obtain ⟨r, r2, -⟩ := integratorEntity_realised hm hc h0
  exact r.one_call hpi (fun _ => trivial) (fun y => pointModel_post k m c _ y) (fun t t' y => by rw [pointModel_field, pointModel_field])
    (r2.trans hrk) hist hne hT ha hs

/-- C130: the same for the point-mass spacecraft. -/
theorem C130_spacecraft_one_call (hpi : 0 < R.pi) (env : Env R) (args : CwhArgs R) (m n : K) (hm : args.m = .fin m)
    (hn : args.n = .fin n) (hrk : args.integrationMethod = "RK45") (e0 : Entity R) (h0 : newCwhSpacecraft env args = .ok e0)
    (y : Fin 6 → K) (hs : e0.state = toFl y) (u : Fin 3 → K) (hist : List (List K × K × Action R)) (hne : hist ≠ [])
    (hT : ∀ h ∈ hist, 0 < h.2.1) (ha : ∀ ws, ∀ h ∈ hist, Asks (scheduled ws) e0 h.2.2 u) :
    ∃ ws, ∀ h ∈ hist, (runScheduled e0 hist).state = (e0.step (scheduled ws) (.fin (hist.map fun h => h.2.1).sum) h.2.2).entity.state := by
  obtain ⟨r, -, r2, -⟩ := cwhSpacecraft_realised hm hn h0
  exact r.one_call hpi (fun _ => trivial) (fun y => cwModel_post m n _ y) (fun t t' y => by rw [cwModel_field, cwModel_field])
    (r2.trans hrk) hist hne hT ha hs

theorem divide_run {env : Env R} (henv : IsRk dopri env) (hpi : 0 < R.pi) {k : Nat} {m : K} (u : Fin k → K) (E : Prop) [Decidable E]
    (hist : List (K × Action R)) : ∀ {e : Entity R}, Realises e (pointModel k m 0) → PlainMethod e.dynamics →
      (e.dynamics.integrationMethod = "Euler" ↔ E) → (∀ h ∈ hist, Asks env e h.2 u) →
      ∀ {y : Fin (k + k) → K}, e.state = toFl y →
      ∃ y' : Fin (k + k) → K, (e.run env (stepsOf hist)).state = toFl y' ∧ ∀ i,
        y' (Fin.natAdd k i) = y (Fin.natAdd k i) + min (max (u i) (-1)) 1 / m * (completed env e hist).sum ∧
        y' (Fin.castAdd k i) = y (Fin.castAdd k i) + y (Fin.natAdd k i) * (completed env e hist).sum
          + min (max (u i) (-1)) 1 / m * ((completed env e hist).sum ^ 2 - if E then ((completed env e hist).map (· ^ 2)).sum else 0) / 2 := by
  induction hist with
  | nil => intro e _ _ _ _ y hy; exact ⟨y, hy, fun i => by simp [completed]⟩
  | cons h hist ih =>
    intro e hr hp hE ha y hy
    obtain ⟨T, a⟩ := h
    have hcf : SameConfig e (e.step env (.fin T) a).entity := step_sameConfig env e _ _
    have hrun : e.run env (stepsOf ((T, a) :: hist)) = (e.step env (.fin T) a).entity.run env (stepsOf hist) := rfl
    have ha' : ∀ h ∈ hist, Asks env (e.step env (.fin T) a).entity h.2 u := fun g hg => requests_congr hcf (ha g (by simp [hg]))
    have hE' : (e.step env (.fin T) a).entity.dynamics.integrationMethod = "Euler" ↔ E := by rw [(sameConfig_method hcf).1]; exact hE
    rw [hrun]
    cases ho : (e.step env (.fin T) a).outcome with
    | error x =>
      have hcmp : completed env e ((T, a) :: hist) = completed env (e.step env (.fin T) a).entity hist := by simp [completed, ho]
      rw [hcmp]
      exact ih (hr.congr hcf) (plain_congr hcf hp) hE' ha' (by rw [(step_error ho).1, hy])
    | ok _ =>
      have hcmp : completed env e ((T, a) :: hist) = T :: completed env (e.step env (.fin T) a).entity hist := by simp [completed, ho]
      rw [hcmp]
      obtain ⟨tab, hs', h1, h2, -⟩ := hr.step henv hpi hp (ha (T, a) (by simp)) (S := fun _ => True) (fun _ _ => trivial) (Stable.univ _) hy trivial ho
      rw [pointModel_post] at h2
      obtain ⟨y', g1, g2⟩ := ih (hr.congr hcf) (plain_congr hcf hp) hE' ha' h2
      refine ⟨y', g1, fun i => ?_⟩
      obtain ⟨c1, c2⟩ := pointModel_call k m ((pointModel k m 0).sat u) h1 y i
      obtain ⟨k1, k2⟩ := g2 i
      rw [k1, k2, c1, c2]
      simp only [pointModel_sat, hE, List.sum_cons, List.map_cons]
      generalize min (max (u i) (-1)) 1 / m = w
      generalize (completed env (e.step env (.fin T) a).entity hist).sum = S
      refine ⟨by ring, ?_⟩
      split <;> ring

/-- C130: what an undamped integrator does under a constant request, however the time is divided into calls, by either method: the velocity is that
of uniform acceleration over the time of the calls that returned; the position is too with RK45, and with Euler it lags behind by the acceleration
times half the sum of the squared durations. -/
theorem C130_divided (hpi : 0 < R.pi) (env : Env R) (henv : IsRk dopri env) (k : Nat) (args : IntegratorArgs R) (m : K)
    (hm : args.m = .fin m) (hc : args.damping = 0) (e0 : Entity R)
    (h0 : initIntegrator env args k = .ok e0) (hp : PlainMethod e0.dynamics) (ops : List (Op R)) (e : Entity R) (he : e = e0.run env ops)
    (x v u : Fin k → K) (hs : e.state = toFl (Fin.append x v)) (hist : List (K × Action R)) (ha : ∀ h ∈ hist, Asks env e h.2 u) :
    ∃ x' v' : Fin k → K, (e.run env (stepsOf hist)).state = toFl (Fin.append x' v') ∧ ∀ i,
      v' i = v i + min (max (u i) (-1)) 1 / m * (completed env e hist).sum ∧
      x' i = x i + v i * (completed env e hist).sum + min (max (u i) (-1)) 1 / m * (completed env e hist).sum ^ 2 / 2
        - (if args.integrationMethod = "Euler" then min (max (u i) (-1)) 1 / m * ((completed env e hist).map (· ^ 2)).sum / 2 else 0) := by
  obtain ⟨r, r2, -⟩ := integratorEntity_realised hm (hc.trans Fl.zero_fin) h0
  have hcf := run_sameConfig env ops e0
  rw [← he] at hcf
  obtain ⟨y', g1, g2⟩ := divide_run henv hpi u (args.integrationMethod = "Euler") hist (r.congr hcf) (plain_congr hcf hp)
    (by rw [(sameConfig_method hcf).1, r2]) ha hs
  simp only [Fin.append_left, Fin.append_right] at g2
  have sp : y' = Fin.append (fun i => y' (Fin.castAdd k i)) (fun i => y' (Fin.natAdd k i)) := by
    funext j
    refine Fin.addCases (fun i => ?_) (fun i => ?_) j <;> simp [-Fin.natAdd_eq_addNat]
  rw [sp] at g1
  refine ⟨_, _, g1, fun i => ⟨(g2 i).1, ?_⟩⟩
  rw [(g2 i).2]
  split <;> ring

/-- C130: so with RK45 only the total time matters. -/
theorem C130_total_time (hpi : 0 < R.pi) (env : Env R) (henv : IsRk dopri env) (k : Nat) (args : IntegratorArgs R) (m : K)
    (hm : args.m = .fin m) (hc : args.damping = 0) (hrk : args.integrationMethod = "RK45") (e0 : Entity R)
    (h0 : initIntegrator env args k = .ok e0) (ops : List (Op R)) (e : Entity R) (he : e = e0.run env ops)
    (x v u : Fin k → K) (hs : e.state = toFl (Fin.append x v)) (hist hist' : List (K × Action R)) (ha : ∀ h ∈ hist, Asks env e h.2 u)
    (ha' : ∀ h ∈ hist', Asks env e h.2 u) (hsum : (completed env e hist).sum = (completed env e hist').sum) :
    (e.run env (stepsOf hist)).state = (e.run env (stepsOf hist')).state := by
  obtain ⟨-, r2, -⟩ := integratorEntity_realised hm (hc.trans Fl.zero_fin) h0
  have hp : PlainMethod e0.dynamics := .inl (r2.trans hrk)
  obtain ⟨x1, v1, a1, b1⟩ := C130_divided hpi env henv k args m hm hc e0 h0 hp ops e he x v u hs hist ha
  obtain ⟨x2, v2, a2, b2⟩ := C130_divided hpi env henv k args m hm hc e0 h0 hp ops e he x v u hs hist' ha'
  have hE : args.integrationMethod ≠ "Euler" := by rw [hrk]; decide
  simp only [hE, if_false, hsum] at b1 b2
  have hv : v1 = v2 := funext fun i => (b1 i).1.trans (b2 i).1.symm
  have hx : x1 = x2 := funext fun i => (b1 i).2.trans (b2 i).2.symm
  rw [a1, a2, hv, hx]

/-- C130: and with Euler the position after `N` equal calls is short of the uniformly accelerated one by one `N`-th of `a T ^ 2 / 2`: the lag is
removed only in the limit of many short calls. -/
theorem C130_euler_lag (hpi : 0 < R.pi) (env : Env R) (henv : IsRk dopri env) (k : Nat) (args : IntegratorArgs R) (m : K)
    (hm : args.m = .fin m) (hc : args.damping = 0) (hE : args.integrationMethod = "Euler") (e0 : Entity R)
    (h0 : initIntegrator env args k = .ok e0) (hp : PlainMethod e0.dynamics) (ops : List (Op R)) (e : Entity R) (he : e = e0.run env ops)
    (x v u : Fin k → K) (hs : e.state = toFl (Fin.append x v)) (N : Nat) (hN : 0 < N) (T : K) (a : Action R) (ha : Asks env e a u)
    (hok : completed env e (List.replicate N (T / N, a)) = List.replicate N (T / N)) :
    ∃ x' v' : Fin k → K, (e.run env (stepsOf (List.replicate N (T / N, a)))).state = toFl (Fin.append x' v') ∧ ∀ i,
      v' i = v i + min (max (u i) (-1)) 1 / m * T ∧
      x' i = x i + v i * T + min (max (u i) (-1)) 1 / m * T ^ 2 / 2 - min (max (u i) (-1)) 1 / m * T ^ 2 / 2 / N := by
  obtain ⟨x', v', g1, g2⟩ := C130_divided hpi env henv k args m hm hc e0 h0 hp ops e he x v u hs (List.replicate N (T / N, a))
    (fun h hh => by rw [List.eq_of_mem_replicate hh]; exact ha)
  have hN' : (N : K) ≠ 0 := by exact_mod_cast hN.ne'
  have e1 : (List.replicate N (T / N)).sum = T := by rw [List.sum_replicate, nsmul_eq_mul]; field_simp
  have e2 : ((List.replicate N (T / N)).map (· ^ 2)).sum = T ^ 2 / N := by
    rw [List.map_replicate, List.sum_replicate, nsmul_eq_mul]; field_simp
  refine ⟨x', v', g1, fun i => ?_⟩
  obtain ⟨b1, b2⟩ := g2 i
  rw [hok, e1] at b1 b2
  rw [e2, if_pos hE] at b2
  refine ⟨b1, b2.trans ?_⟩
  ring

end

/-- a vehicle of 2 kg under full thrust: after 4 seconds it is 4 m away, in one call or two with RK45, any solver steps; with two calls of Euler it
is 2 m away -/
example : ∃ e0 : Entity ratFmt, initIntegrator (rkEnv dopri (fun _ _ _ => [3])) { m := 2, damping := 0, kwargs := [("name", .str "a")] } 1 = .ok e0 ∧
    PlainMethod e0.dynamics ∧ e0.state = toFl (Fin.append ![0] ![0]) ∧
    Asks (rkEnv dopri (fun _ _ _ => [3])) e0 (.ndarray .f64 [.fin 1]) ![1] ∧
    completed (rkEnv dopri (fun _ _ _ => [3])) e0 [(1, .ndarray .f64 [.fin 1]), (3, .ndarray .f64 [.fin 1])] = [1, 3] ∧
    (e0.run (rkEnv dopri (fun _ _ _ => [3])) (stepsOf [(1, .ndarray .f64 [.fin 1]), (3, .ndarray .f64 [.fin 1])])).state = toFl (Fin.append ![4] ![2]) ∧
    (e0.run (rkEnv dopri (fun _ _ _ => [3])) (stepsOf [(4, .ndarray .f64 [.fin 1])])).state = toFl (Fin.append ![4] ![2]) :=
  ⟨_, rfl, .inl rfl, by decide +kernel, ⟨.f64, .array _ _⟩, by decide +kernel, by decide +kernel, by decide +kernel⟩

example : ∃ e0 : Entity ratFmt, initIntegrator (rkEnv dopri (fun _ _ _ => [3])) { m := 2, damping := 0, integrationMethod := "Euler", kwargs := [("name", .str "a")] } 1 = .ok e0 ∧
    PlainMethod e0.dynamics ∧
    completed (rkEnv dopri (fun _ _ _ => [3])) e0 (List.replicate 2 (4 / (2 : Nat), .ndarray .f64 [.fin 1])) = List.replicate 2 (4 / (2 : Nat)) ∧
    (e0.run (rkEnv dopri (fun _ _ _ => [3])) (stepsOf [(2, .ndarray .f64 [.fin 1]), (2, .ndarray .f64 [.fin 1])])).state = toFl (Fin.append ![2] ![2]) :=
  ⟨_, rfl, .inr ⟨rfl, by decide⟩, by decide +kernel, by decide +kernel⟩

/-- a spacecraft in two calls -/
example : ∃ e0 : Entity ratFmt, newCwhSpacecraft (R := ratFmt) (rkEnv dopri (fun _ _ _ => [3])) { m := 2, n := .fin (1/1000), kwargs := [("name", .str "a"), ("x", .num 1)] } = .ok e0 ∧
    e0.state = toFl ![1, 0, 0, 0, 0, 0] ∧ ∀ ws, Asks (scheduled ws) e0 (.ndarray .f64 [.fin 1, .fin 0, .fin 0]) ![1, 0, 0] :=
  ⟨_, rfl, by decide +kernel, fun _ => ⟨.f64, .array _ _⟩⟩

end SAD
