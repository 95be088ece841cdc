import Verif.Lemmas.SciPyStep

/-! # SciPy's RK45 loop when the derivative is NaN, in any arithmetic -/

set_option linter.unusedSectionVars false

namespace SAD
open Spec

section
variable {K : Type} {R : Fmt K} [Field K] [LinearOrder K]

theorem anyNan_mul (a : Fl R) : (Fl.nan * a : Fl R) = .nan := by cases a <;> rfl
theorem anyMul_nan (a : Fl R) : (a * Fl.nan : Fl R) = .nan := by cases a <;> rfl
theorem anyNan_add (a : Fl R) : (Fl.nan + a : Fl R) = .nan := by cases a <;> rfl
theorem anyAdd_nan (a : Fl R) : (a + Fl.nan : Fl R) = .nan := by cases a <;> rfl
theorem anyNan_sub (a : Fl R) : (Fl.nan - a : Fl R) = .nan := by cases a <;> rfl
theorem anySub_nan (a : Fl R) : (a - Fl.nan : Fl R) = .nan := by cases a <;> rfl
theorem anyNan_div (a : Fl R) : (Fl.nan / a : Fl R) = .nan := by cases a <;> rfl
theorem anyDiv_nan (a : Fl R) : (a / Fl.nan : Fl R) = .nan := by cases a <;> rfl

theorem pyMin_nan (a : Fl R) : Fl.pyMin .nan a = .nan := by unfold Fl.pyMin; rw [if_neg (Fl.lt_nan _)]
theorem pyMin_nan_right (a : Fl R) : Fl.pyMin a .nan = a := by unfold Fl.pyMin; rw [if_neg (Fl.nan_lt _)]
theorem pyMax_nan_right (a : Fl R) : Fl.pyMax a .nan = a := by unfold Fl.pyMax; rw [if_neg (Fl.lt_nan _)]

theorem foldl_sq_nan : ∀ (x : Vec R) (acc : Fl R), acc = .nan ∨ .nan ∈ x → x.foldl (fun acc a => acc + a * a) acc = .nan
  | [], acc, h => by simpa using h
  | a :: x, acc, h => by
    refine foldl_sq_nan x _ ?_
    rcases h with rfl | h
    · exact .inl (anyNan_add _)
    · rcases List.mem_cons.1 h with rfl | h
      · left; show acc + Fl.nan * Fl.nan = .nan; rw [anyNan_mul, anyAdd_nan]
      · exact .inr h

/-- the norm of an array with a NaN is NaN -/
theorem rmsNorm_nan {x : Vec R} (h : .nan ∈ x) : rmsNorm x = .nan := by
  unfold rmsNorm
  rw [foldl_sq_nan x 0 (.inr h)]
  exact anyNan_div _

theorem zipWith_nan {α : Type} {g : Fl R → α → Fl R} (hg : ∀ b, g .nan b = .nan) : ∀ {xs : Vec R} {ys : List α},
    xs.length = ys.length → .nan ∈ xs → .nan ∈ List.zipWith g xs ys
  | x :: xs, y :: ys, hl, h => by
    rcases List.mem_cons.1 h with rfl | h
    · simp [hg]
    · have := zipWith_nan hg (by simpa using hl) h
      simp [this]

theorem comboLen (m : Nat) (row : Vec R) (ks : List (Vec R)) (hk : ∀ k ∈ ks, k.length = m) : (comboFl m row ks).length = m := by
  unfold comboFl
  have : ∀ (l : List (Fl R × Vec R)) (acc : Vec R), (∀ p ∈ l, p.2.length = m) → acc.length = m →
      (l.foldl (fun acc p => List.zipWith (· + ·) acc (p.2.map (· * p.1))) acc).length = m := by
    intro l
    induction l with
    | nil => intro acc _ h; exact h
    | cons p l ih =>
      intro acc hl h
      refine ih _ (fun q hq => hl q (by simp [hq])) ?_
      simp [h, hl p (by simp)]
  exact this _ _ (fun p hp => hk _ (List.of_mem_zip hp).2) (by simp)

/-- The derivative can be computed in every state of the right length. -/
def Total (f : Rhs R) (m : Nat) : Prop := ∀ t y, y.length = m → ∃ k, f t y = .ok k ∧ k.length = m

theorem fitRow_self {m : Nat} {k : Vec R} (h : k.length = m) : fitRow m k = .ok k := by unfold fitRow; rw [if_pos h]

theorem rkStagesFl_total {f : Rhs R} {y : Vec R} (hf : Total f y.length) (t h : Fl R) : ∀ (st : List (Fl R × Vec R)) (ks : List (Vec R)),
    (∀ k ∈ ks, k.length = y.length) → ∃ ks', rkStagesFl f t h y st ks = .ok ks' ∧ ∀ k ∈ ks', k.length = y.length
  | [], ks, hk => ⟨ks, rfl, hk⟩
  | (c, row) :: rest, ks, hk => by
    obtain ⟨k, h1, h2⟩ := hf (t + c * h) (List.zipWith (· + ·) y ((comboFl y.length row ks).map (· * h)))
      (by simp [comboLen _ _ _ hk])
    obtain ⟨ks', h3, h4⟩ := rkStagesFl_total hf t h rest (ks ++ [k]) (by
      intro k' hk'
      rcases List.mem_append.1 hk' with h | h
      · exact hk _ h
      · rw [List.mem_singleton.1 h, h2])
    refine ⟨ks', ?_, h4⟩
    simp only [rkStagesFl, h1, fitRow_self h2, bind, Except.bind, h3]

theorem rkStepK_total {f : Rhs R} {y f0 : Vec R} (hf : Total f y.length) (h0 : f0.length = y.length) (t h : Fl R) :
    ∃ yNew ks fNew, rkStepK f t h y f0 = .ok (yNew, ks, fNew) ∧ yNew.length = y.length ∧ ∀ k ∈ ks, k.length = y.length := by
  obtain ⟨ks, h1, h2⟩ := rkStagesFl_total hf t h dopri.stages [f0] (by simpa using h0)
  have h3 : (List.zipWith (· + ·) y ((comboFl y.length dopri.b ks).map (h * ·))).length = y.length := by
    simp [comboLen _ _ _ h2]
  obtain ⟨k, h4, h5⟩ := hf (t + h) _ h3
  refine ⟨_, ks ++ [k], k, ?_, h3, ?_⟩
  · simp only [rkStepK, h1, h4, fitRow_self h5, bind, Except.bind, pure, Except.pure]
  · intro k' hk'
    rcases List.mem_append.1 hk' with h | h
    · exact h2 _ h
    · rw [List.mem_singleton.1 h, h5]

theorem errorNorm_nan {y yNew : Vec R} {ks : List (Vec R)} (hy : y ≠ []) (hl : yNew.length = y.length) (hk : ∀ k ∈ ks, k.length = y.length) :
    errorNorm y yNew ks .nan = .nan := by
  unfold errorNorm
  apply rmsNorm_nan
  have hc := comboLen y.length dopriE ks hk
  refine zipWith_nan anyNan_div (by simp [errorScale, hc, hl]) ?_
  cases hd : comboFl y.length dopriE ks with
  | nil => rw [hd] at hc; exact absurd (List.length_eq_zero_iff.1 hc.symm) hy
  | cons a l => simp [anyMul_nan]

/-- With a NaN step size the loop `while not step_accepted` does not end. -/
theorem rkTry_nan {f : Rhs R} {tb dir m : Fl R} {s : RkState R} (hf : Total f s.y.length) (h0 : s.f.length = s.y.length) (hy : s.y ≠ []) :
    ∀ (fuel : Nat) (rej : Bool), rkTry f tb dir m s fuel .nan rej = .error .diverges
  | 0, _ => rfl
  | fuel + 1, rej => by
    obtain ⟨yNew, ks, fNew, h1, h2, h3⟩ := rkStepK_total hf h0 s.t .nan
    unfold rkTry
    rw [if_neg (Fl.nan_lt _)]
    simp only [anyNan_mul, anyAdd_nan, anyNan_sub, anyMul_nan]
    rw [if_neg (Fl.lt_nan _)]
    simp only [anyNan_sub, h1, bind, Except.bind, errorNorm_nan hy h2 h3]
    rw [if_neg (Fl.nan_lt _), show (Fl.nan : Fl R).abs = .nan from rfl, anyNan_mul]
    exact rkTry_nan hf h0 hy fuel true

theorem rkDrive_nan {gap : Fl R → Fl R → Fl R} {k : Nat} {f : Rhs R} {tb dir : Fl R} {s : RkState R} (hf : Total f s.y.length)
    (h0 : s.f.length = s.y.length) (hy : s.y ≠ []) (hh : s.hAbs = .nan) (n : Nat) : rkDrive gap k f tb dir n s = .error .diverges := by
  cases n with
  | zero => rfl
  | succ n =>
    unfold rkDrive rkStepImpl
    rw [hh]
    simp only [Fl.nan_lt, if_false, rkTry_nan hf h0 hy]
    rfl

/-- the size of the state in the norm of `select_initial_step` -/
def startNorm (y0 : Vec R) : Fl R := rmsNorm (List.zipWith (· / ·) y0 (y0.map fun y => atol + y.abs * rtol))

/-- A NaN derivative in a state that is not tiny: the first step size is NaN. -/
theorem initialStep_nan {f : Rhs R} {tb dir : Fl R} {y0 f0 : Vec R} (hf : Total f y0.length) (h0 : f0.length = y0.length) (hn : .nan ∈ f0)
    (hbig : ¬ startNorm y0 < 1 / 100000) : initialStep f tb dir y0 f0 = .ok .nan := by
  have hd1 : rmsNorm (List.zipWith (· / ·) f0 (y0.map fun y => atol + y.abs * rtol)) = .nan :=
    rmsNorm_nan (zipWith_nan anyNan_div (by simp [h0]) hn)
  unfold startNorm at hbig
  unfold initialStep
  simp only [hd1]
  rw [if_neg (by rintro (h | h); exact hbig h; exact Fl.nan_lt _ h)]
  simp only [anyDiv_nan, pyMin_nan, anyNan_mul, anyAdd_nan]
  obtain ⟨k, h1, h2⟩ := hf .nan (List.zipWith (fun _ _ => .nan) y0 f0) (by simp [h0])
  simp only [h1, fitRow_self h2, bind, Except.bind, pure, Except.pure, anyMul_nan, pyMin_nan]

/-- The solver does not return. -/
theorem scipySolve_nan {gap : Fl R → Fl R → Fl R} {fuel : Nat} {f : Rhs R} {tb : Fl R} {y0 f0 : Vec R} {te : Option (Vec R)}
    (hte : te.all (tEvalOk tb) = true) (hfin : y0.all Fl.isFin = true) (hne : y0 ≠ []) (hT : Fl.eqb tb 0 = false)
    (hf : Total f y0.length) (h0 : f 0 y0 = .ok f0) (hn : .nan ∈ f0) (hbig : ¬ startNorm y0 < 1 / 100000) :
    scipySolve gap fuel f tb y0 te = .error .diverges := by
  obtain ⟨k, h1, h2⟩ := hf 0 y0 rfl
  rw [h0] at h1
  cases h1
  unfold scipySolve
  rw [if_neg (by simp [hte]), if_neg (by simp [hfin]), if_neg hne]
  simp only [h0, fitRow_self h2, bind, Except.bind]
  rw [if_neg (by rw [hT]; decide)]
  rw [initialStep_nan hf h2 hn hbig]
  simp only
  rw [rkDrive_nan (s := ⟨0, y0, f0, .nan⟩) hf h2 hne rfl]

/-! ### linear dynamics -/

theorem dot_foldl_nan : ∀ (l : Vec R) (acc : Fl R), acc = .nan ∨ .nan ∈ l → l.foldl (· + ·) acc = .nan
  | [], acc, h => by simpa using h
  | a :: x, acc, h => by
    refine dot_foldl_nan x _ ?_
    rcases h with rfl | h
    · exact .inl (anyNan_add _)
    · rcases List.mem_cons.1 h with rfl | h
      · exact .inl (anyAdd_nan _)
      · exact .inr h

theorem dot_nan {r v : Vec R} (hl : v.length = r.length) (h : .nan ∈ v) : dot r v = .nan := by
  unfold dot
  refine dot_foldl_nan _ _ (.inr ?_)
  have : List.zipWith (· * ·) r v = List.zipWith (fun a b => b * a) v r := by
    rw [List.zipWith_comm]
  rw [this]
  exact zipWith_nan (g := fun a b => b * a) (fun b => anyMul_nan b) hl h

theorem bcast2_replicate {α β γ : Type} (f : α → β → γ) (n : Nat) (a : α) (b : β) :
    bcast2 f (List.replicate n a) [b] = .ok (List.replicate n (f a b)) := by
  rw [bcast2_single_right, List.map_replicate]

theorem npWhere_same {α : Type} {c : List Bool} {n : Nat} {a : α} (h : c.length = n) :
    npWhere c (List.replicate n a) (List.replicate n a) = .ok (List.replicate n a) := by
  unfold npWhere
  rw [bcast2_same (by simp)]
  simp only [bind, Except.bind]
  rw [bcast2_same (by simp [h])]
  congr 1
  apply List.ext_getElem
  · simp [h]
  · intro i h1 h2
    simp

/-- Controls with a NaN make the whole derivative NaN. -/
def NanDot (d : Dyn R) (n m : Nat) : Prop :=
  ∀ t y v, y.length = n → v.length = m → .nan ∈ v → d.computeStateDot t y v = .ok (List.replicate n .nan)

theorem nanDot_of {d : Dyn R} (hu : Unlimited d) {n m : Nat}
    (h : ∀ t y v, y.length = n → v.length = m → .nan ∈ v → d.rhs t y v = .ok (List.replicate n .nan)) : NanDot d n m := by
  intro t y v hy hv hn
  have hclip : ∀ lo hi : Fl R, Fl.npMin (Fl.npMax .nan lo) hi = .nan := fun lo hi => by simp [Fl.npMax, Fl.npMin]
  unfold Dyn.computeStateDot Dyn.clipStateDotDirect Dyn.clipStateDotByStateLimits npClip
  simp only [h t y v hy hv hn, hu.stateMin, hu.stateMax, hu.stateDotMin, hu.stateDotMax, Arr.toVec, bcast2_replicate, bcast2_single_right, bind,
    Except.bind, hclip, List.map_replicate, Fl.clip_nan]
  rw [npWhere_same (by simp [hy])]
  simp only
  rw [npWhere_same (by simp [hy])]

/-- A matrix of the given size -/
def Mat.Is (A : Mat R) (n m : Nat) : Prop := A.rows.length = n ∧ A.ncols = m ∧ ∀ r ∈ A.rows, r.length = m

theorem affine_nan {A B : Mat R} {n m : Nat} (hA : A.Is n n) (hB : B.Is n m) (t : Fl R) {y v : Vec R} (hy : y.length = n) (hv : v.length = m)
    (hn : .nan ∈ v) : affineRhs (fun x => matVec A x) (fun _ => .ok B) t y v = .ok (List.replicate n .nan) := by
  obtain ⟨a1, a2, a3⟩ := hA
  obtain ⟨b1, b2, b3⟩ := hB
  have hm : B.rows.map (fun r => dot r v) = List.replicate n .nan := by
    rw [List.eq_replicate_iff]
    refine ⟨by simp [b1], ?_⟩
    intro x hx
    obtain ⟨r, hr, rfl⟩ := List.mem_map.1 hx
    exact dot_nan (by rw [hv, b3 r hr]) hn
  unfold affineRhs matVec
  simp only [a2, b2, hy, hv, if_true, bind, Except.bind, hm]
  unfold vadd
  rw [bcast2_same (by simp [a1])]
  congr 1
  rw [List.eq_replicate_iff]
  refine ⟨by simp [a1], ?_⟩
  intro x hx
  obtain ⟨i, hi, rfl⟩ := List.getElem_of_mem hx
  simp [anyAdd_nan]

theorem linear_nanDot {env : Env R} {args : DynArgs R} {A B : Mat R} {d : Dyn R} (h : mkLinearDyn env args A B = .ok d) (hu : Unlimited d)
    {n m : Nat} (hA : A.Is n n) (hB : B.Is n m) : NanDot d n m := by
  have hr : d.rhs = affineRhs (fun x => matVec A x) (fun _ => .ok B) := by
    obtain ⟨n, -, -, rfl⟩ := mkOdeDyn_ok (mkLinearDyn_ok h)
    rfl
  refine nanDot_of hu fun t y v hy hv hn => ?_
  rw [hr]
  exact affine_nan hA hB t hy hv hn

theorem NanDot.congr {e e' : Entity R} (hc : SameConfig e e') {n m : Nat} (h : NanDot e.dynamics n m) : NanDot e'.dynamics n m := by
  obtain ⟨-, -, -, -, -, h6⟩ := hc
  rw [← h6] at h
  exact h

theorem NanDot.total {d : Dyn R} {n m : Nat} (h : NanDot d n m) {v : Vec R} (hv : v.length = m) (hn : .nan ∈ v) :
    Total (fun t y => d.computeStateDot t y v) n := fun t y hy => ⟨_, h t y v hy hv hn, by simp⟩

/-! ### steps -/

/-- what the entities with linear dynamics have in common -/
structure LinearNan (e : Entity R) (n m : Nat) : Prop where
  custom : e.dynamics.custom = none
  limits : e.dynamics.stateMin = .scalar .ninf ∧ e.dynamics.stateMax = .scalar .pinf ∧ e.dynamics.angleWrapCenters = none
  dot : NanDot e.dynamics n m
  control : ∃ lo hi, e.controlMin = .scalar lo ∧ e.controlMax = .scalar hi

theorem LinearNan.congr {e e' : Entity R} (hc : SameConfig e e') {n m : Nat} (h : LinearNan e n m) : LinearNan e' n m := by
  refine ⟨?_, ?_, h.dot.congr hc, ?_⟩
  · obtain ⟨-, -, -, -, -, h6⟩ := hc
    have := h.custom
    rw [← h6] at this
    exact this
  · obtain ⟨-, -, -, -, -, h6⟩ := hc
    have := h.limits
    rw [← h6] at this
    exact this
  · obtain ⟨-, -, h3, h4, -⟩ := hc
    rw [h3, h4]
    exact h.control

/-- a NaN in the request is in the applied control -/
theorem LinearNan.applied {env : Env R} {e : Entity R} {n m : Nat} (h : LinearNan e n m) {a : Action R} {ty : DType} {u : Vec R}
    (hr : e.resolve env a = .ok (ty, u)) (hl : u.length = m) (hn : .nan ∈ u) :
    ∃ v, npClip u (e.controlMin.forDType ty) (e.controlMax.forDType ty) = .ok v ∧ v.length = m ∧ .nan ∈ v := by
  obtain ⟨lo, hi, h1, h2⟩ := h.control
  rw [h1, h2]
  cases ty <;> simp only [Arr.forDType, npClip, Arr.toVec, bcast2_single_right, bind, Except.bind] <;>
    exact ⟨_, rfl, by simp [hl], by simp only [List.map_map, List.mem_map]; exact ⟨_, hn, by simp [Fl.npMax, Fl.npMin]⟩⟩

/-- A step of an entity with linear dynamics under a control with a NaN, in terms of the solver. -/
theorem LinearNan.step [FloorRing K] {env : Env R} {e : Entity R} {n m : Nat} (h : LinearNan e n m) (hm : e.dynamics.integrationMethod = "RK45")
    {a : Action R} {ty : DType} {u v : Vec R} (hr : e.resolve env a = .ok (ty, u))
    (h1 : npClip u (e.controlMin.forDType ty) (e.controlMax.forDType ty) = .ok v) (h2 : v.length = m) (h3 : .nan ∈ v) (T : Fl R) :
      (∀ x, env.solveIvp (fun t y => e.dynamics.computeStateDot t y v) T e.state (e.dynamics.tEval T) = .error x →
        (e.step env T a).outcome = .error x ∧ (e.step env T a).entity = e) ∧
      (∀ sol next, env.solveIvp (fun t y => e.dynamics.computeStateDot t y v) T e.state (e.dynamics.tEval T) = .ok sol →
        sol.y.getLast? = some next → next.length = n → (∀ x ∈ next, x.isFin = true) →
        (e.step env T a).outcome = .ok () ∧ (e.step env T a).entity.state = next ∧ (e.step env T a).entity.stateDot = List.replicate n .nan) := by
  obtain ⟨w, h4⟩ := exceeds_of_npClip h1
  refine ⟨?_, ?_⟩
  · intro x hx
    have hd : e.dynamics.step env T e.state v = (e.dynamics, .error x) := by
      unfold Dyn.step Dyn.rawStep
      rw [h.custom]
      simp only [Dyn.odeStep, hm, if_true, hx, bind, Except.bind]
    unfold Entity.step
    simp only [hr, h4, h1, hd, and_self]
  · intro sol next hs hlast hlen hfin
    have hclip : ∀ x : Fl R, x.isFin = true → Fl.npMin (Fl.npMax x .ninf) .pinf = x := by
      intro x hx
      cases x <;> simp_all [Fl.isFin, Fl.npMax, Fl.npMin]
    have hc : npClip next e.dynamics.stateMin e.dynamics.stateMax = .ok next := by
      rw [h.limits.1, h.limits.2.1]
      simp only [npClip, Arr.toVec, bcast2_single_right, bind, Except.bind, List.map_map]
      congr 1
      conv_rhs => rw [← List.map_id next]
      exact List.map_congr_left fun x hx => hclip x (hfin x hx)
    have hd : e.dynamics.step env T e.state v =
        ({ e.dynamics with trajectory := some sol.y, trajectoryT := some sol.t }, .ok (next, List.replicate n .nan)) := by
      unfold Dyn.step Dyn.rawStep
      rw [h.custom]
      simp only [Dyn.odeStep, hm, if_true, hs, bind, Except.bind, lastRow, hlast, h.dot T next v hlen h2 h3, pure, Except.pure, hc, Dyn.wrapAngles,
        h.limits.2.2]
    unfold Entity.step
    simp only [hr, h4, h1, hd, and_self]

end

/-! ### the reals -/

section real
variable {n : Nat}

theorem startNorm_real (hn : 0 < n) (y : Fin n → ℝ) :
    startNorm (toFl y : Vec realFmt) = .fin (Real.sqrt (ksq (fun i => y i / (1/1000000 + |y i| * (1/1000))) / n)) := by
  unfold startNorm
  have e : (toFl y : Vec realFmt).map (fun y => atol + y.abs * rtol) = toFl (fun i => 1/1000000 + |y i| * (1/1000)) := by
    simp only [toFl, List.map_ofFn]
    congr 1
    funext i
    simp only [Function.comp, sciAbs_fin, atol_fin, rtol_fin, Fl.fin_mul_fin, Fl.fin_add_fin]
  rw [e, toFl_div _ _ (fun i => by positivity), rmsNorm_real hn]

theorem startNorm_big (hn : 0 < n) (hn' : n ≤ 8100) {y : Fin n → ℝ} (i : Fin n) (h : 1 / 1000000000 ≤ |y i|) :
    ¬ startNorm (toFl y : Vec realFmt) < 1 / 100000 := by
  have hl : (1 / 100000 : Fl realFmt) = .fin (1/100000) := div_lit_eq 1 100000 (by norm_num) _ (by norm_num)
  rw [startNorm_real hn, hl, Fl.fin_lt_fin, not_lt]
  apply Real.le_sqrt_of_sq_le
  have h0 : (0 : ℝ) < n := by exact_mod_cast hn
  have h1 : (n : ℝ) ≤ 8100 := by exact_mod_cast hn'
  rw [le_div_iff₀ h0]
  have h2 : (9/10000 : ℝ) ^ 2 ≤ ksq (fun i => y i / (1/1000000 + |y i| * (1/1000))) := by
    unfold ksq
    refine le_trans ?_ (Finset.single_le_sum (f := fun i => y i / (1/1000000 + |y i| * (1/1000)) * (y i / (1/1000000 + |y i| * (1/1000))))
      (fun j _ => mul_self_nonneg _) (Finset.mem_univ i))
    rw [← pow_two, ← sq_abs (y i / _), abs_div, abs_of_pos (a := 1/1000000 + |y i| * (1/1000)) (by positivity)]
    refine pow_le_pow_left₀ (by norm_num) ?_ 2
    rw [le_div_iff₀ (by positivity)]
    linarith
  nlinarith

/-- The derivative is NaN everywhere. -/
def NanRhs (f : Rhs realFmt) (n : Nat) : Prop := ∀ t y, y.length = n → f t y = .ok (List.replicate n .nan)

theorem NanRhs.total {f : Rhs realFmt} (h : NanRhs f n) : Total f n := fun t y hy => ⟨_, h t y hy, by simp⟩

theorem comboFl_nan (e : Fl realFmt) (row : Vec realFmt) (ks : List (Vec realFmt)) (hk : ∀ k ∈ ks, k.length = n) :
    comboFl n (e :: row) (List.replicate n .nan :: ks) = List.replicate n .nan := by
  have key : ∀ l : List (Fl realFmt × Vec realFmt), (∀ p ∈ l, p.2.length = n) →
      l.foldl (fun acc p => List.zipWith (· + ·) acc (p.2.map (· * p.1))) (List.replicate n (.nan : Fl realFmt)) = List.replicate n .nan := by
    intro l
    induction l with
    | nil => intro _; rfl
    | cons p l ih =>
      intro hl
      rw [List.foldl_cons, show List.zipWith (· + ·) (List.replicate n (.nan : Fl realFmt)) (p.2.map (· * p.1)) = List.replicate n .nan from ?_]
      · exact ih fun q hq => hl q (by simp [hq])
      · rw [List.eq_replicate_iff]
        refine ⟨by simp [hl p (by simp)], ?_⟩
        intro x hx
        obtain ⟨i, hi, rfl⟩ := List.getElem_of_mem hx
        simp [anyNan_add]
  unfold comboFl
  rw [List.zip_cons_cons, List.foldl_cons]
  have : List.zipWith (· + ·) (List.replicate n (0 : Fl realFmt)) ((List.replicate n (.nan : Fl realFmt)).map (· * e)) = List.replicate n .nan := by
    rw [List.map_replicate, List.zipWith_replicate, anyNan_mul, anyAdd_nan, Nat.min_self]
  rw [this]
  exact key _ fun p hp => hk _ (List.of_mem_zip hp).2

theorem rkStagesFl_head {f : Rhs realFmt} {y : Vec realFmt} (t h : Fl realFmt) : ∀ (st : List (Fl realFmt × Vec realFmt)) (k : Vec realFmt)
    (ks ks' : List (Vec realFmt)), rkStagesFl f t h y st (k :: ks) = .ok ks' → ∃ r, ks' = k :: r
  | [], k, ks, ks', hk => by cases hk; exact ⟨ks, rfl⟩
  | (c, row) :: rest, k, ks, ks', hk => by
    unfold rkStagesFl at hk
    obtain ⟨k1, -, hk⟩ := Except.bind_ok.1 hk
    obtain ⟨k2, -, hk⟩ := Except.bind_ok.1 hk
    rw [List.cons_append] at hk
    exact rkStagesFl_head t h rest k _ ks' hk

theorem NanRhs.errorNorm {f : Rhs realFmt} {y : Vec realFmt} (hf : NanRhs f y.length) (hy : y ≠ []) (t h : Fl realFmt) :
    ∃ yNew ks fNew, rkStepK f t h y (List.replicate y.length .nan) = .ok (yNew, ks, fNew) ∧ errorNorm y yNew ks h = .nan := by
  obtain ⟨yNew, ks, fNew, h1, h2, h3⟩ := rkStepK_total (f0 := List.replicate y.length .nan) hf.total (by simp) t h
  refine ⟨yNew, ks, fNew, h1, ?_⟩
  obtain ⟨r, rfl⟩ : ∃ r, ks = List.replicate y.length .nan :: r := by
    unfold rkStepK at h1
    obtain ⟨ks', g1, h1⟩ := Except.bind_ok.1 h1
    obtain ⟨_, -, h1⟩ := Except.bind_ok.1 h1
    obtain ⟨_, -, h1⟩ := Except.bind_ok.1 h1
    obtain ⟨r, rfl⟩ := rkStagesFl_head _ _ _ _ _ _ g1
    cases h1
    exact ⟨_, rfl⟩
  unfold SAD.errorNorm
  apply rmsNorm_nan
  have hE : ∃ e row, (dopriE : Vec realFmt) = e :: row := ⟨_, _, rfl⟩
  obtain ⟨e, row, hE⟩ := hE
  rw [hE, comboFl_nan e row r (fun k hk => h3 k (by simp [hk]))]
  refine zipWith_nan anyNan_div (by simp [errorScale, h2]) ?_
  rw [List.map_replicate, anyNan_mul, List.mem_replicate]
  exact ⟨by simpa using hy, rfl⟩

/-- The step size is cut to a fifth until it is too small. -/
theorem NanRhs.rkTry {f : Rhs realFmt} {s : RkState realFmt} (hf : NanRhs f s.y.length) (hy : s.y ≠ []) (hs : s.f = List.replicate s.y.length .nan)
    {t T δ μ : ℝ} (ht : s.t = .fin t) (hδ : δ = 1 ∨ δ = -1) (hT : 0 ≤ δ * (T - t)) (hμ : 0 < μ) : ∀ (N : Nat) (x : ℝ), 0 ≤ x → x < μ * 5 ^ N →
    ∀ (fuel : Nat), N < fuel → ∀ rej, SAD.rkTry f (.fin T) (.fin δ) (.fin μ) s fuel (.fin x) rej = .ok none := by
  intro N
  induction N with
  | zero =>
    intro x _ hx fuel hfuel rej
    obtain ⟨k, rfl⟩ : ∃ k, fuel = k + 1 := ⟨fuel - 1, by omega⟩
    unfold SAD.rkTry
    rw [if_pos (by simpa using hx)]
  | succ N ih =>
    intro x hx0 hx fuel hfuel rej
    obtain ⟨k, rfl⟩ : ∃ k, fuel = k + 1 := ⟨fuel - 1, by omega⟩
    unfold SAD.rkTry
    by_cases hlt : x < μ
    · rw [if_pos (by simpa using hlt)]
    · rw [if_neg (by simpa using hlt)]
      obtain ⟨h, hh, he⟩ : ∃ h : ℝ, |h| ≤ x ∧ (if 0 < (.fin δ : Fl realFmt) * (s.t + .fin x * .fin δ - .fin T) then .fin T
          else s.t + .fin x * .fin δ) - s.t = .fin h := by
        rw [ht]
        simp only [Fl.zero_fin, Fl.fin_mul_fin, Fl.fin_add_fin, Fl.fin_sub_fin, Fl.fin_lt_fin]
        split_ifs with hc
        · refine ⟨T - t, ?_, by simp⟩
          rcases hδ with rfl | rfl
          · rw [abs_of_nonneg (by linarith)]; linarith
          · rw [abs_of_nonpos (by linarith)]; linarith
        · refine ⟨x * δ, ?_, by simp⟩
          rcases hδ with rfl | rfl <;> simp [abs_of_nonneg hx0]
      obtain ⟨yNew, ks, fNew, g1, g2⟩ := hf.errorNorm hy s.t (.fin h)
      simp only [he, hs, g1, bind, Except.bind, g2]
      rw [if_neg (Fl.nan_lt _)]
      have hstep : (.fin h : Fl realFmt).abs * Fl.pyMax (1 / 5) (stepFactor .nan) = .fin (|h| * (1/5)) := by
        have h1 : stepFactor (.nan : Fl realFmt) = .nan := anyMul_nan _
        have h2 : (1 / 5 : Fl realFmt) = .fin (1/5) := div_lit_eq 1 5 (by norm_num) _ (by norm_num)
        rw [h1, pyMax_nan_right, h2, sciAbs_fin, Fl.fin_mul_fin]
      rw [hstep]
      refine ih _ (by positivity) ?_ k (by omega) true
      rw [pow_succ] at hx
      linarith

theorem NanRhs.initialStep_zero (hn : 0 < n) {f : Rhs realFmt} (hf : NanRhs f n) {T : ℝ} (hT : T ≠ 0) (dir : Fl realFmt) :
    ∃ x : ℝ, 0 < x ∧ initialStep f (.fin T) dir (toFl (0 : Fin n → ℝ)) (List.replicate n .nan) = .ok (.fin x) := by
  have hl : (1 / 100000 : Fl realFmt) = .fin (1/100000) := div_lit_eq 1 100000 (by norm_num) _ (by norm_num)
  have hl2 : (1 / 1000000 : Fl realFmt) = .fin (1/1000000) := div_lit_eq 1 1000000 (by norm_num) _ (by norm_num)
  have hs0 : startNorm (toFl (0 : Fin n → ℝ) : Vec realFmt) < 1 / 100000 := by
    rw [startNorm_real hn, hl, Fl.fin_lt_fin]
    simp [ksq]
  unfold startNorm at hs0
  have hmem : (Fl.nan : Fl realFmt) ∈ List.replicate n .nan := by rw [List.mem_replicate]; exact ⟨hn.ne', rfl⟩
  have hd1 : rmsNorm (List.zipWith (· / ·) (List.replicate n (.nan : Fl realFmt)) ((toFl (0 : Fin n → ℝ) : Vec realFmt).map fun y => atol + y.abs * rtol)) = .nan :=
    rmsNorm_nan (zipWith_nan anyNan_div (by simp) hmem)
  unfold initialStep
  simp only [hd1]
  rw [if_pos (.inl hs0), hl2, sciAbs_fin, sciMin_fin]
  have hlen : ∀ g : Fl realFmt → Fl realFmt → Fl realFmt, (List.zipWith g (toFl (0 : Fin n → ℝ) : Vec realFmt) (List.replicate n .nan)).length = n := by
    simp
  simp only [hf _ _ (hlen _), toFl_length, fitRow_self (List.length_replicate), bind, Except.bind]
  have h3 : ¬ ((Fl.nan : Fl realFmt) ≤ 1 / 1000000000000000 ∧ rmsNorm (List.zipWith (· / ·) (List.zipWith (· - ·) (List.replicate n (.nan : Fl realFmt))
      (List.replicate n .nan)) ((toFl (0 : Fin n → ℝ) : Vec realFmt).map fun y => atol + y.abs * rtol)) / .fin (min (1 / 1000000) |T|) ≤ 1 / 1000000000000000) :=
    fun h => Fl.nan_le _ h.1
  rw [if_neg h3]
  have h4 : rmsNorm (List.zipWith (· / ·) (List.zipWith (· - ·) (List.replicate n (.nan : Fl realFmt))
      (List.replicate n .nan)) ((toFl (0 : Fin n → ℝ) : Vec realFmt).map fun y => atol + y.abs * rtol)) = .nan := by
    refine rmsNorm_nan (zipWith_nan anyNan_div (by simp) ?_)
    rw [List.zipWith_replicate, anyNan_sub, Nat.min_self]
    exact hmem
  rw [h4, anyNan_div, pyMax_nan_right, anyDiv_nan, show powSci (.nan : Fl realFmt) (1/5) = .nan from rfl, pyMin_nan_right,
    show (100 : Fl realFmt) = .fin 100 from Fl.ofNat_fin 100, Fl.fin_mul_fin, sciMin_fin]
  have := abs_pos.2 hT
  exact ⟨_, by positivity, rfl⟩

/-- At rest in the origin the solver gives up, and its only row is the start. -/
theorem NanRhs.scipySolve_zero (hn : 0 < n) {f : Rhs realFmt} (hf : NanRhs f n) {T : ℝ} (hT : T ≠ 0) {gap : Fl realFmt → Fl realFmt → Fl realFmt}
    (hg : ∀ t d, ∃ g : ℝ, 0 < g ∧ gap t d = .fin g) :
    ∃ N, ∀ fuel, N ≤ fuel →
      scipySolve gap fuel f (.fin T) (toFl (0 : Fin n → ℝ)) none = .ok ⟨[0], [toFl (0 : Fin n → ℝ)], false⟩ ∧
      ∀ ts, tEvalOk (.fin T) ts = true → scipySolve gap fuel f (.fin T) (toFl (0 : Fin n → ℝ)) (some ts) = .error .attributeError := by
  obtain ⟨δ, hδ, hpos, hsgn⟩ : ∃ δ : ℝ, (δ = 1 ∨ δ = -1) ∧ 0 < δ * T ∧ npSign (.fin T : Fl realFmt) = .fin δ := by
    rcases lt_or_gt_of_ne hT with h | h
    · refine ⟨-1, .inr rfl, by linarith, ?_⟩
      simp [npSign, h, h.le, Fl.zero_fin, Fl.one_fin]
    · refine ⟨1, .inl rfl, by linarith, ?_⟩
      simp [npSign, h, Fl.zero_fin, Fl.one_fin]
  obtain ⟨x, hx, hin⟩ := hf.initialStep_zero hn hT (.fin δ)
  obtain ⟨g, hg0, hg⟩ := hg (.fin 0) (.fin δ)
  obtain ⟨N, hN⟩ := pow_unbounded_of_one_lt (max x (10 * g) / (10 * g)) (show (1 : ℝ) < 5 by norm_num)
  rw [div_lt_iff₀ (by positivity)] at hN
  have hne : (toFl (0 : Fin n → ℝ) : Vec realFmt) ≠ [] := by
    intro h
    have := congrArg List.length h
    simp at this
    omega
  have hall : (toFl (0 : Fin n → ℝ) : Vec realFmt).all Fl.isFin = true := by
    rw [List.all_eq_true]
    intro a ha
    obtain ⟨i, rfl⟩ := (List.mem_ofFn' _ _).1 ha
    rfl
  have hdrive : ∀ fuel, N + 1 ≤ fuel →
      rkDrive gap fuel f (.fin T) (.fin δ) fuel ⟨0, toFl (0 : Fin n → ℝ), List.replicate n .nan, .fin x⟩ = .ok ([], false) := by
    intro fuel hfuel
    obtain ⟨k, rfl⟩ : ∃ k, fuel = k + 1 := ⟨fuel - 1, by omega⟩
    unfold rkDrive rkStepImpl
    simp only [Fl.zero_fin]
    rw [hg, ten_fin, Fl.fin_mul_fin]
    have hh : (if (.fin x : Fl realFmt) < .fin (10 * g) then .fin (10 * g) else .fin x : Fl realFmt) = .fin (max x (10 * g)) := by
      simp only [Fl.fin_lt_fin]
      split_ifs with h
      · rw [max_eq_right h.le]
      · rw [max_eq_left (not_lt.1 h)]
    rw [hh, NanRhs.rkTry (s := ⟨.fin 0, toFl (0 : Fin n → ℝ), List.replicate n .nan, .fin x⟩) (t := 0) (T := T) (δ := δ) (μ := 10 * g)
      (by simpa using hf) hne (by simp) rfl hδ (by simpa using hpos.le) (by positivity) N _ (by positivity) (by linarith) (k + 1) (by omega) false]
    rfl
  have hT0 : Fl.eqb (.fin T : Fl realFmt) (.fin 0) = false := by simp [Fl.eqb, hT]
  refine ⟨N + 1, fun fuel hfuel => ⟨?_, fun ts hts => ?_⟩⟩
  · unfold scipySolve
    rw [if_neg (by simp), if_neg (by simp [hall]), if_neg hne]
    simp only [hf 0 (toFl (0 : Fin n → ℝ)) (by simp), toFl_length, fitRow_self (List.length_replicate), bind, Except.bind]
    simp only [Fl.zero_fin] at hdrive ⊢
    simp only [hT0, hsgn, hin, hdrive fuel hfuel, pure, Except.pure, List.map_nil, Bool.false_eq_true, if_false]
  · unfold scipySolve
    rw [if_neg (by simp [hts]), if_neg (by simp [hall]), if_neg hne]
    simp only [hf 0 (toFl (0 : Fin n → ℝ)) (by simp), toFl_length, fitRow_self (List.length_replicate), bind, Except.bind]
    simp only [Fl.zero_fin] at hdrive ⊢
    simp only [hT0, hsgn, hin, hdrive fuel hfuel, denseRows, Bool.false_eq_true, if_false]

end real
end SAD
