import Verif.Props.Attributes

/-! # Arrays of integers as actions and as states -/

set_option linter.unusedSectionVars false

namespace SAD
open Spec

section
variable {K : Type} {R : Fmt K} [Field K] [LinearOrder K] [FloorRing K]

/-- C112: at any point of any history an array of integers is an action like the array of these numbers as floats: the step does the same, raises
the same and warns the same. -/
theorem C112_action (env : Env R) (e0 : Entity R) (ops : List (Op R)) (dt : Fl R) (xs : Vec R) :
    (e0.run env ops).step env dt (.ndarray .i64 xs) = (e0.run env ops).step env dt (.ndarray .f64 xs) := by
  rw [Entity.step, Entity.step]
  have h : ∀ lim : Arr R, lim.forDType .i64 = lim.forDType .f64 := fun lim => by cases lim <;> rfl
  simp only [Entity.resolve, h]

/-- C112: the step after the assignment of an array of integers to `state` is the step after the assignment of these numbers as floats, and if it
completes the state is an array of floats afterwards. -/
theorem C112_step (env : Env R) (rhs32 : Fl R → Vec R → Vec R → Py (Vec R)) (c : Kind) (t : TypedEntity R) (v : Vec R) (dt : Fl R) (a : Action R) :
    ((t.setAttr c.props "state" (.array .i64 v)).1.step env rhs32 dt a).2 = ((t.setAttr c.props "state" (.array .f64 v)).1.step env rhs32 dt a).2 ∧
    ((t.setAttr c.props "state" (.array .i64 v)).1.step env rhs32 dt a).1.entity =
      ((t.setAttr c.props "state" (.array .f64 v)).1.step env rhs32 dt a).1.entity ∧
    (((t.setAttr c.props "state" (.array .i64 v)).1.step env rhs32 dt a).2 = .ok () →
      ((t.setAttr c.props "state" (.array .i64 v)).1.step env rhs32 dt a).1.dtype = .f64) := by
  rw [(C108_state c t .i64 v 0).1, (C108_state c t .f64 v 0).1]
  refine ⟨?_, ?_, (step_dtype env rhs32 _ dt a).1⟩
  · simp only [TypedEntity.step]; split <;> rfl
  · simp only [TypedEntity.step]; split <;> rfl

/-- C112: while the state is an array of integers, assigning a number to a property stores it without its fraction: the integer nearest to it
between it and 0. -/
theorem C112_truncates [IsStrictOrderedRing K] (c : Kind) (name : String) (i : Nat) (hn : (name, i) ∈ c.assignable) (t : TypedEntity R)
    (hs : t.entity.state.length = c.size) (hd : t.dtype = .i64) (x : K) (hx : |x| < 2 ^ 63) :
    ∃ n : ℤ, (t.setAttr c.props name (.num (.fin x))).1.entity.readNumber c.props name = some (.ok (.fin (n : K))) ∧
      (t.setAttr c.props name (.num (.fin x))) = ({ t with entity := { t.entity with state := t.entity.state.set i (.fin (n : K)) } }, .ok ()) ∧
      |(n : K)| ≤ |x| ∧ |x| < |(n : K)| + 1 ∧ 0 ≤ (n : K) * x := by
  obtain ⟨hi, h⟩ := setter_assignable c _ hn
  simp only at hi h
  have hg : findGetter c.props name = some (.elem i) := by
    have : ∀ p ∈ c.assignable, findGetter c.props p.1 = some (.elem p.2) := by cases c <;> decide +kernel
    exact this _ hn
  obtain ⟨n, hn⟩ : ∃ n : ℤ, n = if 0 ≤ x then ⌊x⌋ else ⌈x⌉ := ⟨_, rfl⟩
  have hb : |(n : K)| ≤ |x| ∧ |x| < |(n : K)| + 1 ∧ 0 ≤ (n : K) * x := by
    by_cases h0 : 0 ≤ x
    · rw [if_pos h0] at hn
      have hn0 : (0 : K) ≤ n := by rw [hn]; exact_mod_cast Int.floor_nonneg.2 h0
      rw [abs_of_nonneg h0, abs_of_nonneg hn0]
      exact ⟨by rw [hn]; exact Int.floor_le x, by rw [hn]; exact Int.lt_floor_add_one x, mul_nonneg hn0 h0⟩
    · rw [if_neg h0] at hn
      have hx0 := (not_le.1 h0).le
      have hn0 : (n : K) ≤ 0 := by rw [hn]; exact_mod_cast Int.ceil_nonpos.2 hx0
      rw [abs_of_nonpos hx0, abs_of_nonpos hn0]
      have := Int.le_ceil x
      have h2 := Int.ceil_lt_add_one x
      rw [← hn] at this h2
      exact ⟨by linarith, by linarith, mul_nonneg_of_nonpos_of_nonpos hn0 hx0⟩
  have hr : -(2 ^ 63) ≤ n ∧ n < 2 ^ 63 := by
    have h1 : |(n : K)| < 2 ^ 63 := hb.1.trans_lt hx
    have h2 : |n| < 2 ^ 63 := by exact_mod_cast h1
    rw [abs_lt] at h2
    exact ⟨h2.1.le, h2.2⟩
  have key : (t.setAttr c.props name (.num (.fin x))) = ({ t with entity := { t.entity with state := t.entity.state.set i (.fin (n : K)) } }, .ok ()) := by
    rw [TypedEntity.setAttr]
    cases hp : findProperty c.props name with
    | none => rw [hp] at h; cases h
    | some p =>
      rw [hp] at h
      simp only [Option.map_some, Option.some.injEq] at h
      simp only [h, hs, if_pos hi, hd, DType.store, ← hn, if_pos hr]
  refine ⟨n, ?_, key, hb⟩
  rw [key, Entity.readNumber, hg]
  simp [getIdx, hs, hi]

/-- C112: assigning NaN raises `ValueError`, assigning an infinity or a number of magnitude `2^63 + 1` or more `OverflowError`, and nothing changes. -/
theorem C112_rejects [IsStrictOrderedRing K] (c : Kind) (name : String) (i : Nat) (hn : (name, i) ∈ c.assignable) (t : TypedEntity R)
    (hs : t.entity.state.length = c.size) (hd : t.dtype = .i64) :
    t.setAttr c.props name (.num .nan) = (t, .error .valueError) ∧ t.setAttr c.props name (.num .pinf) = (t, .error .overflowError) ∧
    t.setAttr c.props name (.num .ninf) = (t, .error .overflowError) ∧
    ∀ x : K, 2 ^ 63 + 1 ≤ |x| → t.setAttr c.props name (.num (.fin x)) = (t, .error .overflowError) := by
  obtain ⟨hi, h⟩ := setter_assignable c _ hn
  simp only at hi h
  have key : ∀ (y : Fl R) er, DType.store .i64 y = .error er → t.setAttr c.props name (.num y) = (t, .error er) := by
    intro y er hy
    rw [TypedEntity.setAttr]
    cases hp : findProperty c.props name with
    | none => rw [hp] at h; cases h
    | some p =>
      rw [hp] at h
      simp only [Option.map_some, Option.some.injEq] at h
      simp only [h, hs, if_pos hi, hd, hy]
  refine ⟨key _ _ rfl, key _ _ rfl, key _ _ rfl, fun x hx => key _ _ ?_⟩
  rw [DType.store]
  refine if_neg fun hr => ?_
  by_cases h0 : 0 ≤ x
  · rw [if_pos h0] at hr
    rw [abs_of_nonneg h0] at hx
    have h1 := Int.lt_floor_add_one x
    have h2 : ((⌊x⌋ : ℤ) : K) < 2 ^ 63 := by exact_mod_cast hr.2
    linarith
  · rw [if_neg h0] at hr
    rw [abs_of_neg (not_le.1 h0)] at hx
    have h1 := Int.ceil_lt_add_one x
    have h2 : -(2 ^ 63) ≤ ((⌈x⌉ : ℤ) : K) := by exact_mod_cast hr.1
    linarith

/-- C112: from the assignment of an array of integers until a step completes or another array is assigned, whatever else is done to the aircraft,
its properties hold integers only: a number that is assigned to one of them loses its fraction. -/
theorem C112_until_step [IsStrictOrderedRing K] (env : Env R) (rhs32 : Fl R → Vec R → Vec R → Py (Vec R)) (c : Kind) (t0 : TypedEntity R) (v : List ℤ)
    (ops : List (AttrOp R)) (hops : Plain ops) (t : TypedEntity R)
    (ht : t = (t0.setAttr c.props "state" (.array .i64 (v.map fun n : ℤ => .fin (n : K)))).1.run env rhs32 c.props ops)
    (hfail : ∀ pre dt a post, ops = pre ++ .step dt a :: post →
      (((t0.setAttr c.props "state" (.array .i64 (v.map fun n : ℤ => .fin (n : K)))).1.run env rhs32 c.props pre).step env rhs32 dt a).2 ≠ .ok ()) :
    t.dtype = .i64 ∧ t.entity.state.length = v.length ∧ ∀ y ∈ t.entity.state, ∃ n : ℤ, y = .fin (n : K) := by
  have keep : ∀ (ops : List (AttrOp R)), Plain ops → ∀ t : TypedEntity R,
      (∀ pre dt a post, ops = pre ++ .step dt a :: post → ((t.run env rhs32 c.props pre).step env rhs32 dt a).2 ≠ .ok ()) →
      (t.dtype = .i64 ∧ t.entity.state.length = v.length ∧ ∀ y ∈ t.entity.state, ∃ n : ℤ, y = .fin (n : K)) →
      ((t.run env rhs32 c.props ops).dtype = .i64 ∧ (t.run env rhs32 c.props ops).entity.state.length = v.length ∧
        ∀ y ∈ (t.run env rhs32 c.props ops).entity.state, ∃ n : ℤ, y = .fin (n : K)) := by
    intro ops
    induction ops with
    | nil => exact fun _ t _ ht => ht
    | cons op ops ih =>
      intro hp t hf ht
      refine ih (fun o ho => hp o (List.mem_cons_of_mem _ ho)) _ ?_ ?_
      · intro pre dt a post he
        exact hf (op :: pre) dt a post (by rw [he]; rfl)
      · cases op with
        | step dt a =>
          have hne := hf [] dt a ops rfl
          refine ⟨((step_dtype env rhs32 t dt a).2 hne).trans ht.1, ?_⟩
          have hst : (t.step env rhs32 dt a).1.entity.state = t.entity.state := by
            have hne' : (t.step env rhs32 dt a).2 ≠ .ok () := hne
            rw [TypedEntity.step] at hne' ⊢
            simp only [ht.1] at hne' ⊢
            cases ho : (t.entity.step env dt a).outcome with
            | ok u => rw [ho] at hne'; exact absurd rfl hne'
            | error er => exact (C07_failed_step_atomic env t.entity dt a er ho).1
          show (t.step env rhs32 dt a).1.entity.state.length = _ ∧ ∀ y ∈ (t.step env rhs32 dt a).1.entity.state, _
          rw [hst]
          exact ht.2
        | set name value =>
          refine ⟨(setAttr_dtype c t name value (hp _ List.mem_cons_self name value rfl)).trans ht.1, ?_⟩
          show (t.setAttr c.props name value).1.entity.state.length = _ ∧ ∀ y ∈ (t.setAttr c.props name value).1.entity.state, _
          have put : ∀ (i : Nat) (x y : Fl R), DType.store .i64 x = .ok y → (t.entity.state.set i y).length = v.length ∧
              ∀ z ∈ t.entity.state.set i y, ∃ n : ℤ, z = .fin (n : K) := by
            intro i x y hxy
            refine ⟨by rw [List.length_set]; exact ht.2.1, fun z hz => ?_⟩
            rcases List.mem_or_eq_of_mem_set hz with hz | rfl
            · exact ht.2.2 z hz
            · cases x with
              | fin q =>
                rw [DType.store] at hxy
                split_ifs at hxy <;> exact ⟨_, (Except.ok.inj hxy).symm⟩
              | _ => cases hxy
          by_cases hst : name = "state"
          · obtain ⟨x, rfl⟩ := hp _ List.mem_cons_self name value rfl hst
            rw [hst, (C108_state c t .f64 [] x).2]
            exact ht.2
          · have only : (findProperty c.props name).map (·.setter) ≠ some .state := setter_not_state c name hst
            rw [TypedEntity.setAttr]
            split
            · exact ht.2
            · rename_i p hp'
              rw [hp', Option.map_some] at only
              split
              · exact ht.2
              · split
                · simp only [ht.1]
                  split
                  · rename_i y hy; exact put _ _ y hy
                  · exact ht.2
                · exact ht.2
              · split
                · simp only [ht.1]
                  split
                  · rename_i y hy; exact put _ _ y hy
                  · exact ht.2
                · exact ht.2
              · exact ht.2
              · rename_i hs; exact absurd (congrArg some hs) only
              · exact ht.2
  rw [ht]
  refine keep ops hops _ hfail ?_
  rw [(C108_state c t0 .i64 _ 0).1]
  refine ⟨rfl, by simp, fun y hy => ?_⟩
  obtain ⟨n, -, hn⟩ := List.mem_map.1 hy
  exact ⟨n, hn.symm⟩

end

/-- an aircraft at the origin is put at 300 feet per second with an array of integers; `aircraft.heading = 1.5` gives it the heading 1, also after a
step that failed, and an assignment of NaN raises -/
example (env : Env realFmt) (rhs32 : Fl realFmt → Vec realFmt → Vec realFmt → Py (Vec realFmt)) (t0 t : TypedEntity realFmt)
    (ht : t = (t0.setAttr propsDubins2d "state" (.array .i64 [.fin 0, .fin 0, .fin 0, .fin 300])).1.run env rhs32 propsDubins2d [.step 1 .other]) :
    (t.setAttr propsDubins2d "heading" (.num (.fin (3 / 2)))).1.entity.readNumber propsDubins2d "heading" = some (.ok (.fin 1)) ∧
    t.setAttr propsDubins2d "heading" (.num .nan) = (t, .error .valueError) := by
  have hv : ([0, 0, 0, 300] : List ℤ).map (fun n : ℤ => (.fin (n : ℝ) : Fl realFmt)) = [.fin 0, .fin 0, .fin 0, .fin 300] := by simp
  obtain ⟨h1, h2, -⟩ := C112_until_step env rhs32 .dubins2d t0 [0, 0, 0, 300] [.step 1 .other] (by simp [Plain]) t (by rw [hv]; exact ht) (by
    intro pre dt a post he
    rcases pre with _ | ⟨o, pre⟩
    · simp only [List.nil_append, List.cons.injEq, AttrOp.step.injEq] at he
      obtain ⟨⟨rfl, rfl⟩, -⟩ := he
      rw [(C108_state .dubins2d t0 .i64 _ 0).1]
      simp [TypedEntity.run, TypedEntity.step, Entity.step, Entity.resolve]
    · simp at he)
  obtain ⟨n, e1, -, b1, b2, b3⟩ := C112_truncates .dubins2d "heading" 2 (by decide) t h2 h1 (3 / 2) (by norm_num [abs_of_pos])
  refine ⟨?_, (C112_rejects .dubins2d "heading" 2 (by decide) t h2 h1).1⟩
  have hn : n = 1 := by
    have hb : |(3 / 2 : ℝ)| = 3 / 2 := by norm_num
    rw [hb] at b1 b2
    have n0 : (0 : ℝ) ≤ n := by linarith
    rw [abs_of_nonneg n0] at b1 b2
    have c1 : n < 2 := by exact_mod_cast (show (n : ℝ) < 2 by linarith)
    have c2 : 0 < n := by exact_mod_cast (show (0 : ℝ) < n by linarith)
    omega
  rw [hn, Int.cast_one] at e1
  exact e1

/-- a completed step from a state of integers -/
example : ∃ e0 : Entity realFmt, newDubins2d (rkEnv dopri (fun _ _ _ => []))
      { headingRateMin := -1, headingRateMax := 1, accMin := -96, accMax := 96, integrationMethod := "Euler", trajectorySamples := some 0,
        kwargs := [("name", .str "a")] } = .ok e0 ∧
    (((TypedEntity.built e0).setAttr propsDubins2d "state" (.array .i64 [0, 0, 0, 200])).1.step (rkEnv dopri (fun _ _ _ => []))
      (affineRhs (dubins2dF32 (realFmt.single realFmt)) dubins2dG) (.fin 1) (.ndarray .i64 [.fin 1, .fin 50])).2 = .ok () := by
  have hp : Dubins2dParams.Of (R := realFmt) ⟨200, 400, -1, 1, -96, 96⟩
      { headingRateMin := -1, headingRateMax := 1, accMin := -96, accMax := 96, integrationMethod := "Euler", trajectorySamples := some 0,
        kwargs := [("name", .str "a")] } :=
    ⟨Fl.ofNat_fin 200, Fl.ofNat_fin 400, congrArg Fl.neg Fl.one_fin, Fl.one_fin, congrArg Fl.neg (Fl.ofNat_fin 96), Fl.ofNat_fin 96⟩
  refine ⟨_, rfl, ?_⟩
  rw [show propsDubins2d = Kind.dubins2d.props from rfl, (C108_state .dubins2d _ .i64 _ 0).1, (typed_step_2d _ _ rfl _ _).2]
  exact (Realises.step_euler _ Real.pi_pos ((dubins2d_realised hp (env := rkEnv dopri (fun _ _ _ => [])) rfl).congr (e' := _) ⟨rfl, rfl, rfl, rfl, rfl, rfl⟩) rfl le_rfl (u := ![1, 50])
    ⟨.i64, .array _ _⟩ (fun _ => trivial) (y := ![0, 0, 0, 200]) (by
    show [(0 : Fl realFmt), 0, 0, 200] = _
    rw [Fl.zero_fin, show (200 : Fl realFmt) = .fin 200 from Fl.ofNat_fin 200, toFl4]; rfl) 1).1

end SAD
