import Verif.Lemmas.SciPyEnds
import Verif.Lemmas.Rotational

/-! # Steps of entities with SciPy's solver in exact arithmetic -/

set_option linter.unusedSectionVars false

namespace SAD
open Spec

section times
variable {K : Type} {R : Fmt K} [Field K] [LinearOrder K] [IsStrictOrderedRing K] [Exact R]

theorem adjacent_of_pairwise {r : Fl R → Fl R → Bool} : ∀ {l : Vec R}, l.Pairwise (fun a b => r a b = true) → adjacent r l = true
  | [], _ => rfl
  | [_], _ => rfl
  | a :: b :: rest, h => by
    rw [List.pairwise_cons] at h
    simp only [adjacent, Bool.and_eq_true]
    exact ⟨h.1 b (by simp), adjacent_of_pairwise h.2⟩

/-- the sample times -/
def ktimes (T : K) (N : Nat) : List K := (List.range N).map fun k => ((k + 1 : Nat) : K) * (T / N)

theorem ktimes_pairwise {T δ : K} (h : 0 < δ * T) {N : Nat} : (ktimes T N).Pairwise (fun a b => 0 < δ * (b - a)) := by
  rw [ktimes, List.pairwise_map]
  refine List.Pairwise.imp_of_mem ?_ List.pairwise_lt_range
  intro a b ha hb hab
  have hN : (0 : K) < N := by
    have : 0 < N := by have := List.mem_range.1 ha; omega
    exact_mod_cast this
  have h1 : ((a : Nat) : K) < (b : Nat) := by exact_mod_cast hab
  have : δ * (((b + 1 : Nat) : K) * (T / N) - ((a + 1 : Nat) : K) * (T / N)) = δ * T / N * ((b : K) - a) := by
    push_cast; field_simp; ring
  rw [this]
  have := sub_pos.2 h1
  positivity

theorem ktimes_mem {T δ : K} (h : 0 < δ * T) {N : Nat} {u : K} (hu : u ∈ ktimes T N) : 0 < δ * u ∧ 0 ≤ δ * (T - u) := by
  obtain ⟨k, hk, rfl⟩ := List.mem_map.1 hu
  have hk := List.mem_range.1 hk
  have hN : (0 : K) < N := by
    have : 0 < N := by omega
    exact_mod_cast this
  have h1 : ((k + 1 : Nat) : K) ≤ N := by exact_mod_cast hk
  have h0 : (0 : K) < ((k + 1 : Nat) : K) := by exact_mod_cast Nat.succ_pos k
  have e1 : δ * (((k + 1 : Nat) : K) * (T / N)) = δ * T / N * ((k + 1 : Nat) : K) := by ring
  have e2 : δ * (T - ((k + 1 : Nat) : K) * (T / N)) = δ * T / N * (N - ((k + 1 : Nat) : K)) := by
    field_simp
  rw [e1, e2]
  have := sub_nonneg.2 h1
  exact ⟨by positivity, by positivity⟩

theorem tEvalOk_ktimes {T : K} (hT : T ≠ 0) (N : Nat) : tEvalOk (.fin T : Fl R) ((ktimes T N).map .fin) = true := by
  have hsgn : ∃ δ : K, (δ = 1 ∨ δ = -1) ∧ 0 < δ * T := by
    rcases lt_or_gt_of_ne hT with h | h
    · exact ⟨-1, .inr rfl, by linarith⟩
    · exact ⟨1, .inl rfl, by linarith⟩
  obtain ⟨δ, hδ, hpos⟩ := hsgn
  unfold tEvalOk
  rw [Bool.and_eq_true]
  constructor
  · rw [List.all_eq_true]
    intro x hx
    obtain ⟨u, hu, rfl⟩ := List.mem_map.1 hx
    obtain ⟨h1, h2⟩ := ktimes_mem hpos hu
    rw [Fl.zero_fin, pyMin_fin, pyMax_fin]
    simp only [Fl.fin_lt_fin, Bool.and_eq_true, Bool.not_eq_true', decide_eq_false_iff_not, not_lt]
    rcases hδ with rfl | rfl
    · rw [min_eq_left (by linarith), max_eq_right (by linarith)]
      exact ⟨by linarith, by linarith⟩
    · rw [min_eq_right (by linarith), max_eq_left (by linarith)]
      exact ⟨by linarith, by linarith⟩
  · simp only [Fl.zero_fin, Fl.fin_lt_fin]
    rcases hδ with rfl | rfl
    · rw [if_pos (by linarith)]
      apply adjacent_of_pairwise
      rw [List.pairwise_map]
      refine (ktimes_pairwise hpos).imp ?_
      intro a b hab
      simp only [Fl.fin_sub_fin, Fl.fin_le_fin, Bool.not_eq_true', decide_eq_false_iff_not, not_le]
      linarith
    · rw [if_neg (by linarith), if_pos (by linarith)]
      apply adjacent_of_pairwise
      rw [List.pairwise_map]
      refine (ktimes_pairwise hpos).imp ?_
      intro a b hab
      simp only [Fl.fin_sub_fin, Fl.fin_le_fin, Bool.not_eq_true', decide_eq_false_iff_not, not_le]
      linarith

theorem tEval_ktimes (d : Dyn R) (T : K) (hn : 0 < d.trajectorySamples) :
    d.tEval (.fin T) = some ((ktimes T d.trajectorySamples.toNat).map .fin) := tEval_eq d T hn

end times

theorem Realises.applied {K : Type} {R : Fmt K} [Field K] [LinearOrder K] [IsStrictOrderedRing K] [FloorRing K] [Exact R] {n m : Nat} {env : Env R}
    {e : Entity R} {M : KModel K n m} (h : Realises e M) {a : Action R} {u : Fin m → K} (ha : Asks env e a u) {v : Vec R}
    (hv : Applied env e a v) : v = toFl (M.sat u) := by
  obtain ⟨ty, hres⟩ := asks_iff.1 ha
  obtain ⟨ty', u', h1, h2⟩ := applied_iff.1 hv
  rw [hres] at h1
  cases h1
  rw [forDType_exact, forDType_exact, npClip_toFl u h.ulo h.uhi] at h2
  exact (Except.ok.inj h2).symm

section returns
variable {n m : Nat}

/-- The step of the dynamics returns, with an answer that does not depend on the fuel. -/
theorem odeStep_returns (hn : 0 < n) {d : Dyn realFmt} (hm : d.integrationMethod = "RK45") {v : Vec realFmt}
    {F : ℝ → (Fin n → ℝ) → (Fin n → ℝ)} {S : (Fin n → ℝ) → Prop} {D : Submodule ℝ (Fin n → ℝ)} (hf : LiftsOn S (d.field v) F)
    (hst : Stable F S D) (T : ℝ) (hT : T = 0 → d.trajectorySamples ≤ 0) {y : Fin n → ℝ} (hy : S y) {G : ℝ} {P : ℝ → (Fin n → ℝ) → Prop}
    (hg : Confined F G P) (hyP : P |T| y) :
    ∃ N d' z, S z ∧ ∀ fuel, N ≤ fuel →
      d.odeStep (exactScipy fuel) (.fin T) (toFl y) v = (d', .ok (toFl z, toFl (F T z))) := by
  have hte : ∀ ts, d.tEval (.fin T) = some ts → T ≠ 0 ∧ tEvalOk (.fin T) ts = true ∧ ts.getLast? = some (.fin T) ∧ ∀ x ∈ ts, x.isFin = true := by
    intro ts hts
    have hpos : 0 < d.trajectorySamples := by
      by_contra h
      simp [Dyn.tEval, h] at hts
    have hT' : T ≠ 0 := fun h => by have := hT h; omega
    obtain ⟨h1, h2⟩ := tEval_last d T ts hts
    rw [tEval_ktimes d T hpos] at hts
    cases hts
    exact ⟨hT', tEvalOk_ktimes hT' _, h1, h2⟩
  obtain ⟨N, sol, hsol⟩ := scipySolve_returns hn hf hst T hy hg hyP (d.tEval (.fin T)) hte
  obtain ⟨hs, -, -, -, h3⟩ := isRk_lift (env := exactScipy N) (scipy_isRk powNonneg_real (fun _ _ => rfl) N) hf hst
    (fun ts h => ⟨(hte ts h).2.2.1, (hte ts h).2.2.2⟩) hsol hy
  have hz := rkChain_inv kdopri F S D hst.field hst.move 0 y hs hy
  generalize rkChain kdopri F 0 y hs = z at h3 hz
  refine ⟨N, { d with trajectory := some sol.y, trajectoryT := some sol.t }, z, hz, ?_⟩
  intro fuel hfuel
  have hsol' := scipySolve_mono hfuel hsol
  have e : (exactScipy fuel).solveIvp (fun t y => d.computeStateDot t y v) (.fin T) (toFl y) (d.tEval (.fin T)) = .ok sol := hsol'
  unfold Dyn.odeStep
  rw [if_pos hm, e]
  simp only [lastRow, h3, bind, Except.bind]
  have := hf T z hz
  unfold Dyn.field at this
  rw [this]
  rfl

theorem resolve_scipy (e : Entity realFmt) (a : Action realFmt) (f g : Nat) : e.resolve (exactScipy f) a = e.resolve (exactScipy g) a := by
  cases a <;> rfl

/-- A step returns, with a result that does not depend on the fuel. -/
theorem step_returns (hn : 0 < n) {e : Entity realFmt} (hc : e.dynamics.custom = none) (hm : e.dynamics.integrationMethod = "RK45")
    {ac : Action realFmt} {v : Vec realFmt} (hv : Applied (exactScipy 0) e ac v) {F : ℝ → (Fin n → ℝ) → (Fin n → ℝ)}
    {S : (Fin n → ℝ) → Prop} {D : Submodule ℝ (Fin n → ℝ)} (hf : LiftsOn S (e.dynamics.field v) F)
    (hst : Stable F S D)
    (hpost : ∀ z : Fin n → ℝ, ∃ c w : Fin n → ℝ, npClip (toFl z) e.dynamics.stateMin e.dynamics.stateMax = .ok (toFl c) ∧
      e.dynamics.wrapAngles (toFl c) = .ok (toFl w))
    (T : ℝ) (hT : T = 0 → e.dynamics.trajectorySamples ≤ 0) {y : Fin n → ℝ} (he : e.state = toFl y) (hy : S y) {G : ℝ}
    {P : ℝ → (Fin n → ℝ) → Prop} (hg : Confined F G P) (hyP : P |T| y) :
    ∃ N r, (∃ w : Fin n → ℝ, r.entity.state = toFl w) ∧ (∃ w : Fin n → ℝ, r.entity.stateDot = toFl w) ∧ r.outcome = .ok () ∧
      ∀ fuel, N ≤ fuel → e.step (exactScipy fuel) (.fin T) ac = r := by
  obtain ⟨ty, u, hr, hcl⟩ := applied_iff.1 hv
  obtain ⟨w, hw⟩ := exceeds_of_npClip hcl
  obtain ⟨N, d', z, hz, hode⟩ := odeStep_returns hn hm hf hst T hT hy hg hyP
  obtain ⟨c, x, h1, h2⟩ := hpost z
  refine ⟨N, ⟨{ e with dynamics := d', state := toFl x, stateDot := toFl (F T z) }, w, .ok ()⟩, ⟨x, rfl⟩, ⟨_, rfl⟩, rfl, ?_⟩
  intro fuel hfuel
  have hd : e.dynamics.step (exactScipy fuel) (.fin T) e.state v = (d', .ok (toFl x, toFl (F T z))) := by
    unfold Dyn.step
    rw [rawStep_ode hc, he, hode fuel hfuel]
    simp only [bind, Except.bind, h1, h2, pure, Except.pure]
  unfold Entity.step
  rw [resolve_scipy e ac fuel 0, hr]
  simp only [hw, hcl, hd]

theorem kclip_abs_le (lo hi : Option ℝ) (x : ℝ) : |kclip lo hi x| ≤ |x| + (|lo.getD 0| + |hi.getD 0|) := by
  have h0 := abs_nonneg x
  cases lo with
  | none =>
    cases hi with
    | none => simp [kclip]
    | some h =>
      simp only [kclip, Option.getD]
      rcases min_choice x h with e | e <;> rw [e] <;> have := abs_nonneg h <;> simp <;> linarith
  | some l =>
    have hl := abs_nonneg l
    cases hi with
    | none =>
      simp only [kclip, Option.getD]
      rcases max_choice x l with e | e <;> rw [e] <;> simp <;> linarith
    | some h =>
      have hh := abs_nonneg h
      simp only [kclip, Option.getD]
      rcases min_choice (max x l) h with e | e <;> rw [e]
      · rcases max_choice x l with e | e <;> rw [e] <;> linarith
      · linarith

theorem klimit_abs_le (lo hi dlo dhi : Option ℝ) (y x : ℝ) : |klimit lo hi dlo dhi y x| ≤ |x| + (|dlo.getD 0| + |dhi.getD 0|) := by
  have h := kclip_abs_le dlo dhi x
  have h0 := abs_nonneg (kclip dlo dhi x)
  simp only [klimit]
  split
  · rcases min_choice (kclip dlo dhi x) 0 with e | e <;> rw [e] <;> simp <;> linarith
  · split
    · rcases max_choice (kclip dlo dhi x) 0 with e | e <;> rw [e] <;> simp <;> linarith
    · exact h

/-- limits preserve linear growth -/
theorem KModel.growth {M : KModel ℝ n m} {u : Fin m → ℝ} {a b : ℝ} (ha : 0 ≤ a) (hb : 0 ≤ b)
    (h : ∀ t y i, |M.rate t y u i| ≤ a * ‖y‖ + b) : ∃ b', Growth (M.field u) (fun _ => True) a b' := by
  let B : ℝ := ∑ i, (|(M.dlo i).getD 0| + |(M.dhi i).getD 0|)
  have hB : 0 ≤ B := Finset.sum_nonneg fun i _ => by positivity
  refine ⟨b + B, ha, by linarith, fun t y _ => ?_⟩
  have hy := norm_nonneg y
  rw [pi_norm_le_iff_of_nonneg (by positivity)]
  intro i
  rw [Real.norm_eq_abs]
  have h1 := klimit_abs_le (M.lo i) (M.hi i) (M.dlo i) (M.dhi i) (y i) (M.rate t y u i)
  have h2 : |(M.dlo i).getD 0| + |(M.dhi i).getD 0| ≤ B :=
    Finset.single_le_sum (f := fun i => |(M.dlo i).getD 0| + |(M.dhi i).getD 0|) (fun i _ => by positivity) (Finset.mem_univ i)
  have h3 := h t y i
  simp only [KModel.field]
  linarith

/-- A step of an entity that realises a model whose integrations are confined returns. -/
theorem Realises.step_confined (hn : 0 < n) {e : Entity realFmt} {M : KModel ℝ n m} (h : Realises e M)
    (hm : e.dynamics.integrationMethod = "RK45") (hdom : ∀ y, M.dom y) {ac : Action realFmt} {u : Fin m → ℝ} (ha : Asks (exactScipy 0) e ac u) (T : ℝ)
    (hT : T = 0 → e.dynamics.trajectorySamples ≤ 0) {y : Fin n → ℝ} (he : e.state = toFl y)
    {G : ℝ} {P : ℝ → (Fin n → ℝ) → Prop} (hg : Confined (M.field (M.sat u)) G P) (hyP : P |T| y) :
    ∃ N r, (∃ w : Fin n → ℝ, r.entity.state = toFl w) ∧ (∃ w : Fin n → ℝ, r.entity.stateDot = toFl w) ∧ r.outcome = .ok () ∧
      ∀ fuel, N ≤ fuel → e.step (exactScipy fuel) (.fin T) ac = r := by
  obtain ⟨ty, hr⟩ := asks_iff.1 ha
  have hv : Applied (exactScipy 0) e ac (toFl (M.sat u)) := by
    rw [applied_iff]
    refine ⟨ty, toFl u, hr, ?_⟩
    rw [forDType_exact, forDType_exact, npClip_toFl u h.ulo h.uhi]
    rfl
  refine SAD.step_returns hn h.dyn.custom hm hv (h.dyn.liftsOn (M.sat u) (S := fun _ => True) (fun y _ => hdom y)) (Stable.univ _) ?_ T hT he
    trivial hg hyP
  intro z
  exact ⟨_, _, npClip_toFl z h.dyn.lo h.dyn.hi, wrap_lift Real.pi_pos h.dyn z⟩

/-- A step of an entity that realises a model of linear growth returns. -/
theorem Realises.step_returns (hn : 0 < n) {e : Entity realFmt} {M : KModel ℝ n m} (h : Realises e M)
    (hm : e.dynamics.integrationMethod = "RK45") (hdom : ∀ y, M.dom y) {ac : Action realFmt} {u : Fin m → ℝ} (ha : Asks (exactScipy 0) e ac u)
    {a b : ℝ} (ha0 : 0 ≤ a) (hb0 : 0 ≤ b) (hg : ∀ t y i, |M.rate t y (M.sat u) i| ≤ a * ‖y‖ + b) (T : ℝ)
    (hT : T = 0 → e.dynamics.trajectorySamples ≤ 0) {y : Fin n → ℝ} (he : e.state = toFl y) :
    ∃ N r, (∃ w : Fin n → ℝ, r.entity.state = toFl w) ∧ (∃ w : Fin n → ℝ, r.entity.stateDot = toFl w) ∧ r.outcome = .ok () ∧
      ∀ fuel, N ≤ fuel → e.step (exactScipy fuel) (.fin T) ac = r := by
  obtain ⟨b', hg'⟩ := KModel.growth ha0 hb0 hg
  obtain ⟨G, P, hc, hP⟩ := hg'.confined (Stable.univ _) |T| (abs_nonneg T) (y := y) trivial
  exact h.step_confined hn hm hdom ha T hT he hc hP

end returns
end SAD

namespace SAD
open Spec

section controlled
variable {n : Nat}

/-- every answer of the solver in the reals is the end of an error-controlled integration over the time span -/
theorem scipySolve_controlled {fuel : Nat} {f : Rhs realFmt} {F : ℝ → (Fin n → ℝ) → (Fin n → ℝ)} {S : (Fin n → ℝ) → Prop}
    {D : Submodule ℝ (Fin n → ℝ)} (hf : LiftsOn S f F) (hst : Stable F S D) {T : ℝ} {y : Fin n → ℝ} (hy : S y) {te : Option (Vec realFmt)}
    {sol : Sol realFmt} (hte : ∀ ts, te = some ts → ts.getLast? = some (.fin T) ∧ ∀ x ∈ ts, x.isFin = true)
    (h : scipySolve (fun _ _ => 0) fuel f (.fin T) (toFl y) te = .ok sol) :
    ∃ hs yf, hs.sum = T ∧ (0 ≤ T → ∀ h ∈ hs, 0 ≤ h) ∧ (T ≤ 0 → ∀ h ∈ hs, h ≤ 0) ∧ ErrorControlled F 0 y hs yf ∧ S yf ∧
      sol.y.getLast? = some (toFl yf) ∧ sol.success = true := by
  by_cases hT : T = 0
  · subst hT
    unfold scipySolve at h
    split at h
    · cases h
    split at h
    · cases h
    split at h
    · cases h
    obtain ⟨k, h1, h⟩ := Except.bind_ok.1 h
    obtain ⟨f0, h2, h⟩ := Except.bind_ok.1 h
    rw [if_pos (by rw [Fl.zero_fin]; simp [Fl.eqb])] at h
    cases te with
    | some ts => cases h
    | none => cases h; exact ⟨[], y, by simp, by simp, by simp, .nil _ _, hy, rfl, rfl⟩
  · obtain ⟨n', y', yf, δ, hs, as, e, hδ, hpos, hsteps, hsucc, h1, h2⟩ := scipySolve_steps powNonneg_real (fun _ _ => rfl) hT h
    have hn' : n = n' := by simpa using congrArg List.length e
    subst hn'
    have := toFl_inj e
    subst this
    have hn : 0 < n := by
      by_contra h0
      have h0 : n = 0 := by omega
      subst h0
      unfold scipySolve at h
      split at h
      · cases h
      split at h
      · cases h
      rw [if_pos (by simp [toFl])] at h
      cases h
    refine ⟨hs, yf, by rw [hsteps.sum, sub_zero], ?_, ?_, hsteps.controlled hn hf hst hy, ?_, ?_, hsucc⟩
    · intro h0 x hx
      have := hsteps.sign x hx
      rcases hδ with rfl | rfl
      · linarith
      · exfalso; linarith
    · intro h0 x hx
      have := hsteps.sign x hx
      rcases hδ with rfl | rfl
      · exfalso; linarith
      · linarith
    · have hc := hsteps.chain
      rw [dopri_lift, rkChainFl_liftOn hf hst _ _ _ hy] at hc
      have := toFl_inj (Except.ok.inj hc)
      rw [← this]
      exact rkChain_inv kdopri F S D hst.field hst.move 0 _ hs hy
    · cases te with
      | none => rw [h2 rfl]; exact hsteps.last_state _
      | some ts =>
        obtain ⟨hok, hy, -⟩ := h1 ts rfl
        obtain ⟨hl, hfin⟩ := hte ts rfl
        rw [hy, List.getLast?_map, hsteps.dense_last hδ ts hl ?_]
        · rfl
        · intro x hx
          obtain ⟨u, rfl, g1, g2⟩ := tEvalOk_mem hok hfin x hx
          refine ⟨u, rfl, ?_⟩
          rcases hδ with rfl | rfl
          · rw [max_eq_right (by linarith)] at g2; linarith
          · rw [min_eq_right (by linarith)] at g1; linarith

end controlled
end SAD
