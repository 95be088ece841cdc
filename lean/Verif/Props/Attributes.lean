import Verif.Spec.Attributes
import Verif.Props.FirstStep

/-! # Attributes of the entities -/

set_option linter.unusedSectionVars false

namespace SAD
open Spec

section
variable {K : Type} {R : Fmt K} [Field K] [LinearOrder K] [FloorRing K]

/-- the getter of a documented number-valued property -/
theorem getter_check (c : Kind) : ∀ p ∈ c.numbers, (match p.2 with
    | .entry i => decide (i < c.size) && decide (findGetter c.props p.1 = some (.elem i))
    | .zero => decide (findGetter c.props p.1 = some .zero)) = true := by
  cases c <;> decide +kernel

theorem getter_entry {c : Kind} {name : String} {i : Nat} (h : (name, Shows.entry i) ∈ c.numbers) :
    i < c.size ∧ findGetter c.props name = some (.elem i) := by
  simpa using getter_check c _ h

theorem getter_zero {c : Kind} {name : String} (h : (name, Shows.zero) ∈ c.numbers) : findGetter c.props name = some .zero := by
  simpa using getter_check c _ h

/-- the setter of a documented property -/
theorem setter_assignable (c : Kind) : ∀ p ∈ c.assignable, p.2 < c.size ∧ (findProperty c.props p.1).map (·.setter) = some (.elem p.2) := by
  cases c <;> decide +kernel

theorem setter_none (c : Kind) : ∀ name ∈ c.numbers.map Prod.fst ++ c.derived, name ∉ c.assignable.map Prod.fst →
    (findProperty c.props name).map (·.setter) = some .none := by
  cases c <;> decide +kernel

theorem setter_state (c : Kind) : (findProperty c.props "state").map (·.setter) = some .state := by
  cases c <;> decide +kernel

/-- C108: the number-valued properties of every class show the documented entry of the state vector, or 0; on the sun `x`, `y` and `z` raise
`NotImplementedError`. -/
theorem C108_reads (c : Kind) (e : Entity R) (s : Fin c.size → Fl R) (hs : e.state = List.ofFn s) :
    (∀ name i, (name, Shows.entry i) ∈ c.numbers → ∃ h : i < c.size, e.readNumber c.props name = some (.ok (s ⟨i, h⟩))) ∧
    (∀ name, (name, Shows.zero) ∈ c.numbers → e.readNumber c.props name = some (.ok 0)) ∧
    (c = .sun → ∀ name ∈ ["x", "y", "z"], e.readNumber c.props name = some (.error .notImplementedError)) := by
  refine ⟨?_, ?_, ?_⟩
  · intro name i hm
    obtain ⟨h, hg⟩ := getter_entry hm
    refine ⟨h, ?_⟩
    rw [Entity.readNumber, hg]
    simp only [getIdx, hs, List.getElem?_ofFn, dif_pos h]
  · intro name hm
    rw [Entity.readNumber, getter_zero hm]
  · rintro rfl name hm
    have : findGetter Kind.sun.props name = some .raises := by
      revert name; decide +kernel
    rw [Entity.readNumber, this]

/-- C108: of the documented properties of a class only those listed in `assignable` (the elements of the state of a Dubins aircraft) and `state`
can be assigned. Assigning any other raises `AttributeError` and changes nothing. -/
theorem C108_read_only (c : Kind) (name : String) (hn : name ∈ c.numbers.map Prod.fst ++ c.derived) (ha : name ∉ c.assignable.map Prod.fst)
    (t : TypedEntity R) (value : AttrVal R) : t.setAttr c.props name value = (t, .error .attributeError) := by
  have h := setter_none c name hn ha
  rw [TypedEntity.setAttr]
  cases hp : findProperty c.props name with
  | none => rw [hp] at h; cases h
  | some p =>
    rw [hp] at h
    simp only [Option.map_some, Option.some.injEq] at h
    simp only [h]

/-- C108: assigning a number to an assignable property changes its entry of the state and nothing else: no limit is applied, no angle wrapped. The
entry is the number, or the number rounded to float32 when the state is a float32 array; C112 is about integer arrays. -/
theorem C108_assigns (c : Kind) (name : String) (i : Nat) (hn : (name, i) ∈ c.assignable) (t : TypedEntity R) (hs : t.entity.state.length = c.size)
    (hd : t.dtype ≠ .i64) (x : Fl R) :
    t.setAttr c.props name (.num x) =
      ({ t with entity := { t.entity with state := t.entity.state.set i (if t.dtype = .f32 then x.cast32 else x) } }, .ok ()) ∧
    (t.setAttr c.props name (.num x)).1.entity.readNumber c.props name = some (.ok (if t.dtype = .f32 then x.cast32 else x)) ∧
    (∀ other j, (other, Shows.entry j) ∈ c.numbers → j ≠ i →
      (t.setAttr c.props name (.num x)).1.entity.readNumber c.props other = t.entity.readNumber c.props other) := by
  obtain ⟨hi, h⟩ := setter_assignable c _ hn
  simp only at hi h
  have key : t.setAttr c.props name (.num x) =
      ({ t with entity := { t.entity with state := t.entity.state.set i (if t.dtype = .f32 then x.cast32 else x) } }, .ok ()) := by
    rw [TypedEntity.setAttr]
    cases hp : findProperty c.props name with
    | none => rw [hp] at h; cases h
    | some p =>
      rw [hp] at h
      simp only [Option.map_some, Option.some.injEq] at h
      simp only [h, hs, if_pos hi]
      cases hd' : t.dtype <;> first | exact absurd hd' hd | simp [DType.store]
  have hg : findGetter c.props name = some (.elem i) := by
    have : ∀ p ∈ c.assignable, findGetter c.props p.1 = some (.elem p.2) := by cases c <;> decide +kernel
    exact this _ hn
  refine ⟨key, ?_, ?_⟩
  · rw [key, Entity.readNumber, hg]
    simp [getIdx, hs, hi]
  · intro other j hm hj
    obtain ⟨-, ho⟩ := getter_entry hm
    rw [key, Entity.readNumber, Entity.readNumber, ho]
    simp [getIdx, List.getElem?_set_ne (Ne.symm hj)]

/-- C108: assigning an array to `state` stores a copy, with its dtype; a number raises `AttributeError` and changes nothing. -/
theorem C108_state (c : Kind) (t : TypedEntity R) (d : DType) (v : Vec R) (x : Fl R) :
    t.setAttr c.props "state" (.array d v) = (⟨{ t.entity with state := v }, d⟩, .ok ()) ∧
    t.setAttr c.props "state" (.num x) = (t, .error .attributeError) := by
  have h := setter_state c
  rw [TypedEntity.setAttr, TypedEntity.setAttr]
  cases hp : findProperty c.props "state" with
  | none => rw [hp] at h; cases h
  | some p =>
    rw [hp] at h
    simp only [Option.map_some, Option.some.injEq] at h
    simp only [h, and_self]

/-- C108: no entity can be hashed, hence none can be a key of a dictionary or a member of a set: `hash` raises `TypeError`. -/
theorem C108_unhashable (c : Kind) : hashEntity c.members = .error .typeError := by
  cases c <;> decide +kernel

/-- only `state` has the setter of `state` -/
theorem setter_not_state (c : Kind) (name : String) (hn : name ≠ "state") : (findProperty c.props name).map (·.setter) ≠ some .state := by
  have only : ∀ tab ∈ c.props, ∀ q ∈ tab, q.2.setter = .state → q.1 = "state" := by cases c <;> decide +kernel
  have find : ∀ (mro : List PropTable) p, findProperty mro name = some p → ∃ tab ∈ mro, (name, p) ∈ tab := by
    intro mro p
    induction mro with
    | nil => simp [findProperty]
    | cons tab rest ih =>
      rw [findProperty]
      split
      · rename_i q hq
        rintro ⟨⟩
        refine ⟨tab, by simp, ?_⟩
        clear ih
        induction tab with
        | nil => cases hq
        | cons r tab ih =>
          obtain ⟨k, v⟩ := r
          rw [lookup] at hq
          split at hq
          · rename_i hk
            cases hq
            rw [hk]; simp
          · exact List.mem_cons_of_mem _ (ih hq)
      · intro hp
        obtain ⟨tab', h1, h2⟩ := ih hp
        exact ⟨tab', List.mem_cons_of_mem _ h1, h2⟩
  intro h
  cases hp : findProperty c.props name with
  | none => rw [hp] at h; cases h
  | some p =>
    rw [hp, Option.map_some, Option.some.injEq] at h
    obtain ⟨tab, h1, h2⟩ := find _ _ hp
    exact hn (only tab h1 _ h2 h)

/-- assigning anything but an array to `state` keeps the dtype -/
theorem setAttr_dtype (c : Kind) (t : TypedEntity R) (name : String) (value : AttrVal R) (h : name = "state" → ∃ x, value = .num x) :
    (t.setAttr c.props name value).1.dtype = t.dtype := by
  by_cases hn : name = "state"
  · obtain ⟨x, rfl⟩ := h hn
    rw [hn, (C108_state c t .f64 [] x).2]
  · have only := setter_not_state c name hn
    rw [TypedEntity.setAttr]
    split
    · rfl
    · rename_i p hp
      have hset : p.setter ≠ .state := fun hst => only (by rw [hp, Option.map_some, hst])
      split
      · rfl
      · split <;> [split <;> rfl; rfl]
      · split <;> [split <;> rfl; rfl]
      · rfl
      · rename_i hst; exact absurd hst hset
      · rfl

/-- assigning an attribute changes nothing but the state -/
theorem setAttr_sameConfig (mro : List PropTable) (t : TypedEntity R) (name : String) (value : AttrVal R) :
    SameConfig t.entity (t.setAttr mro name value).1.entity := by
  rw [TypedEntity.setAttr]
  split
  · exact SameConfig.refl _
  · split
    · exact SameConfig.refl _
    · split <;> [split <;> exact SameConfig.refl _; exact SameConfig.refl _]
    · split <;> [split <;> exact SameConfig.refl _; exact SameConfig.refl _]
    · exact SameConfig.refl _
    · exact SameConfig.refl _
    · exact SameConfig.refl _

/-- the numbers a user assigns, and nothing else -/
def Plain (ops : List (AttrOp R)) : Prop := ∀ op ∈ ops, ∀ name value, op = .set name value → name = "state" → ∃ x, value = .num x

theorem step_dtype (env : Env R) (rhs32 : Fl R → Vec R → Vec R → Py (Vec R)) (t : TypedEntity R) (dt : Fl R) (a : Action R) :
    ((t.step env rhs32 dt a).2 = .ok () → (t.step env rhs32 dt a).1.dtype = .f64) ∧
    ((t.step env rhs32 dt a).2 ≠ .ok () → (t.step env rhs32 dt a).1.dtype = t.dtype) := by
  rw [TypedEntity.step]
  cases hd : t.dtype <;> simp only <;> split <;> simp

/-- C108: once a step has been completed, and until the user assigns an array to `state`, whatever is assigned to a property of an aircraft is read
back exactly. -/
theorem C108_exact_after_step (env : Env R) (rhs32 : Fl R → Vec R → Vec R → Py (Vec R)) (c : Kind) (t : TypedEntity R) (dt : Fl R) (a : Action R)
    (hok : (t.step env rhs32 dt a).2 = .ok ()) (ops : List (AttrOp R)) (hops : Plain ops) (name : String) (i : Nat) (hn : (name, i) ∈ c.assignable)
    (hs : ((t.step env rhs32 dt a).1.run env rhs32 c.props ops).entity.state.length = c.size) (x : Fl R) :
    (((t.step env rhs32 dt a).1.run env rhs32 c.props ops).setAttr c.props name (.num x)).1.entity.readNumber c.props name = some (.ok x) := by
  have keep : ∀ (ops : List (AttrOp R)), Plain ops → ∀ t : TypedEntity R, t.dtype = .f64 → (t.run env rhs32 c.props ops).dtype = .f64 := by
    intro ops
    induction ops with
    | nil => exact fun _ t ht => ht
    | cons op ops ih =>
      intro hp t ht
      refine ih (fun o ho => hp o (List.mem_cons_of_mem _ ho)) _ ?_
      cases op with
      | step dt a =>
        by_cases h : (t.step env rhs32 dt a).2 = .ok ()
        · exact (step_dtype env rhs32 t dt a).1 h
        · exact ((step_dtype env rhs32 t dt a).2 h).trans ht
      | set name v => exact (setAttr_dtype c t name v (hp _ List.mem_cons_self name v rfl)).trans ht
  have hd := keep ops hops _ ((step_dtype env rhs32 t dt a).1 hok)
  rw [(C108_assigns c name i hn _ hs (by rw [hd]; decide) x).2.1, hd]
  simp

/-- C108: before the first completed step, what is read back is the number rounded to float32: the array built from the configuration holds float32
numbers. -/
theorem C108_single_before_step (env : Env R) (rhs32 : Fl R → Vec R → Vec R → Py (Vec R)) (c : Kind) (e0 : Entity R) (ops : List (AttrOp R)) (hops : Plain ops)
    (hfail : ∀ pre dt a post, ops = pre ++ .step dt a :: post → ((TypedEntity.built e0).run env rhs32 c.props pre |>.step env rhs32 dt a).2 ≠ .ok ())
    (name : String) (i : Nat) (hn : (name, i) ∈ c.assignable)
    (hs : ((TypedEntity.built e0).run env rhs32 c.props ops).entity.state.length = c.size) (x : Fl R) :
    (((TypedEntity.built e0).run env rhs32 c.props ops).setAttr c.props name (.num x)).1.entity.readNumber c.props name = some (.ok x.cast32) := by
  have keep : ∀ (ops : List (AttrOp R)), Plain ops → ∀ t : TypedEntity R,
      (∀ pre dt a post, ops = pre ++ .step dt a :: post → ((t.run env rhs32 c.props pre).step env rhs32 dt a).2 ≠ .ok ()) → t.dtype = .f32 →
      (t.run env rhs32 c.props ops).dtype = .f32 := by
    intro ops
    induction ops with
    | nil => exact fun _ t _ ht => ht
    | cons op ops ih =>
      intro hp t hf ht
      refine ih (fun o ho => hp o (List.mem_cons_of_mem _ ho)) _ ?_ ?_
      · intro pre dt a post he
        exact hf (op :: pre) dt a post (by rw [he]; rfl)
      · cases op with
        | step dt a => exact ((step_dtype env rhs32 t dt a).2 (hf [] dt a ops rfl)).trans ht
        | set name v => exact (setAttr_dtype c t name v (hp _ List.mem_cons_self name v rfl)).trans ht
  have hd := keep ops hops _ hfail rfl
  rw [(C108_assigns c name i hn _ hs (by rw [hd]; decide) x).2.1, hd]
  simp

end

section
open Real

/-- in exact arithmetic the dtype does not matter to a step of the 2d aircraft -/
theorem typed_step_2d (env : Env realFmt) (t : TypedEntity realFmt) (hr : t.entity.dynamics.rhs = affineRhs dubins2dF dubins2dG) (dt : Fl realFmt)
    (a : Action realFmt) :
    (t.step env (affineRhs (dubins2dF32 (realFmt.single realFmt)) dubins2dG) dt a).1.entity = (t.entity.step env dt a).entity ∧
    (t.step env (affineRhs (dubins2dF32 (realFmt.single realFmt)) dubins2dG) dt a).2 = (t.entity.step env dt a).outcome := by
  have hf : t.entity.firstStep env (affineRhs (dubins2dF32 (realFmt.single realFmt)) dubins2dG) dt a = t.entity.step env dt a := by
    rw [(C107_exact 0 0 0 ⟨[], 0⟩ (fun _ _ => 0)).1, Entity.firstStep]
    split
    · rw [← hr]
      obtain ⟨tr, tt, hc⟩ := SameConfig.dyn (step_sameConfig env t.entity dt a)
      show { t.entity.step env dt a with
        entity := { (t.entity.step env dt a).entity with
          dynamics := { (t.entity.step env dt a).entity.dynamics with rhs := t.entity.dynamics.rhs } } } = _
      have : { (t.entity.step env dt a).entity.dynamics with rhs := t.entity.dynamics.rhs } = (t.entity.step env dt a).entity.dynamics := by rw [hc]
      rw [this]
    · rfl
  rw [TypedEntity.step]
  cases t.dtype <;> simp only [hf] <;> split <;> rename_i h <;> simp [h]

theorem typed_run_2d (env : Env realFmt) (mro : List PropTable) (ops : List (AttrOp realFmt)) : ∀ (t : TypedEntity realFmt),
    t.entity.dynamics.rhs = affineRhs dubins2dF dubins2dG →
    SameConfig t.entity (t.run env (affineRhs (dubins2dF32 (realFmt.single realFmt)) dubins2dG) mro ops).entity := by
  induction ops with
  | nil => exact fun t _ => SameConfig.refl _
  | cons op ops ih =>
    intro t hr
    have h1 : SameConfig t.entity (t.op env (affineRhs (dubins2dF32 (realFmt.single realFmt)) dubins2dG) mro op).entity := by
      cases op with
      | step dt a => show SameConfig t.entity (t.step env _ dt a).1.entity; rw [(typed_step_2d env t hr dt a).1]; exact step_sameConfig env _ _ _
      | set name v => exact setAttr_sameConfig mro t name v
    refine SameConfig.trans h1 (ih _ ?_)
    obtain ⟨_, _, hc⟩ := SameConfig.dyn h1
    rw [hc]; exact hr

/-- C108: no limit applies to what is assigned. After `aircraft.v = V` the next Euler step of a 2d aircraft covers the distance `V·T` along its
heading, whatever `v_max` is; only then the speed is brought back between the limits. -/
theorem C108_overspeed (env env' : Env realFmt) (args : Dubins2dArgs realFmt) (p : Dubins2dParams ℝ) (hp : p.Of args) (hlim : p.vMin ≤ p.vMax)
    (e0 : Entity realFmt) (h0 : newDubins2d env args = .ok e0) (hm : e0.dynamics.integrationMethod = "Euler") (hts : e0.dynamics.trajectorySamples ≤ 0)
    (ops : List (AttrOp realFmt)) (t : TypedEntity realFmt)
    (ht : t = (TypedEntity.built e0).run env' (affineRhs (dubins2dF32 (realFmt.single realFmt)) dubins2dG) propsDubins2d ops) (hti : t.dtype ≠ .i64)
    (x y heading v : ℝ) (hs : t.entity.state = [.fin x, .fin y, .fin heading, .fin v]) (V T : ℝ) (a : Action realFmt) (u : Fin 2 → ℝ) (ha : Asks env' e0 a u)
    (t' : TypedEntity realFmt) (ht' : t' = (t.setAttr propsDubins2d "v" (.num (.fin V))).1) :
    t'.entity.readNumber propsDubins2d "v" = some (.ok (.fin V)) ∧
    (t'.step env' (affineRhs (dubins2dF32 (realFmt.single realFmt)) dubins2dG) (.fin T) a).2 = .ok () ∧
    ∃ heading' v', (t'.step env' (affineRhs (dubins2dF32 (realFmt.single realFmt)) dubins2dG) (.fin T) a).1.entity.state =
        [.fin (x + T * (V * cos heading)), .fin (y + T * (V * sin heading)), .fin heading', .fin v'] ∧ p.vMin ≤ v' ∧ v' ≤ p.vMax := by
  have hrhs := (dubins2d_config h0).2.2.2.2.2.1
  have hc : SameConfig e0 t.entity := by rw [ht]; exact typed_run_2d env' propsDubins2d ops (TypedEntity.built e0) hrhs
  obtain ⟨h1, h2, -⟩ := C108_assigns .dubins2d "v" 3 (by decide) t (by rw [hs]; rfl) hti (.fin V)
  have hcast : (if t.dtype = .f32 then (Fl.fin V : Fl realFmt).cast32 else .fin V) = .fin V := by split <;> rfl
  rw [hcast] at h1 h2
  have hc' : SameConfig e0 t'.entity := SameConfig.trans hc (by rw [ht']; exact setAttr_sameConfig _ _ _ _)
  have hst' : t'.entity.state = [.fin x, .fin y, .fin heading, .fin V] := by
    rw [ht', show propsDubins2d = Kind.dubins2d.props from rfl, h1]; simp [hs]
  have hr' : t'.entity.dynamics.rhs = affineRhs dubins2dF dubins2dG := by
    obtain ⟨_, _, hd⟩ := SameConfig.dyn hc'
    rw [hd]; exact hrhs
  obtain ⟨k1, k2⟩ := sameConfig_method hc'
  obtain ⟨o1, o2⟩ := Realises.step_euler env' pi_pos ((dubins2d_realised hp h0).congr hc') (k1.trans hm) (k2 ▸ hts) (requests_congr hc' ha) (fun _ => trivial)
    (y := ![x, y, heading, V]) (by rw [hst', toFl4]; rfl) T
  obtain ⟨s1, s2⟩ := typed_step_2d env' t' hr' (.fin T) a
  refine ⟨by rw [ht']; exact h2, s2.trans o1, ?_⟩
  rw [s1, o2, toFl4]
  obtain ⟨w, hw⟩ : ∃ w, w = ![x, y, heading, V] + T • (dubins2dModel realFmt p).field ((dubins2dModel realFmt p).sat u) 0 ![x, y, heading, V] := ⟨_, rfl⟩
  have w0 : w 0 = x + T * (V * cos heading) := by rw [hw]; simp [KModel.field, dubins2dModel, klimit_free, realFmt]
  have w1 : w 1 = y + T * (V * sin heading) := by rw [hw]; simp [KModel.field, dubins2dModel, klimit_free, realFmt]
  change ∃ heading' v', [Fl.fin ((dubins2dModel realFmt p).post π _ 0), Fl.fin ((dubins2dModel realFmt p).post π _ 1), Fl.fin ((dubins2dModel realFmt p).post π _ 2),
    Fl.fin ((dubins2dModel realFmt p).post π _ 3)] = _ ∧ _
  rw [← hw]
  have p0 : (dubins2dModel realFmt p).post π w 0 = w 0 := by simp [KModel.post, dubins2dModel, kclip]
  have p1 : (dubins2dModel realFmt p).post π w 1 = w 1 := by simp [KModel.post, dubins2dModel, kclip]
  have p3 : (dubins2dModel realFmt p).post π w 3 = min (max (w 3) p.vMin) p.vMax := by simp [KModel.post, dubins2dModel, kclip]
  refine ⟨(dubins2dModel realFmt p).post π w 2, (dubins2dModel realFmt p).post π w 3, by rw [p0, p1, w0, w1], ?_, ?_⟩
  · rw [p3]; exact le_min (le_max_right _ _) hlim
  · rw [p3]; exact min_le_right _ _

end

/-- a 2d aircraft limited to 400 feet per second moves 1000 feet in the second after `aircraft.v = 1000` -/
example : ∃ (e0 : Entity realFmt) (t' : TypedEntity realFmt) (heading' v' : ℝ), newDubins2d (rkEnv dopri (fun _ _ _ => []))
      { headingRateMin := -1, headingRateMax := 1, accMin := -96, accMax := 96, integrationMethod := "Euler", trajectorySamples := some 0,
        kwargs := [("name", .str "a")] } = .ok e0 ∧
    t' = ((TypedEntity.built e0).setAttr propsDubins2d "v" (.num (.fin 1000))).1 ∧
    (t'.step (rkEnv dopri (fun _ _ _ => [])) (affineRhs (dubins2dF32 (realFmt.single realFmt)) dubins2dG) (.fin 1) (.ndarray .f64 [.fin 1, .fin 50])).1.entity.state
      = [.fin 1000, .fin 0, .fin heading', .fin v'] ∧ v' ≤ 400 := by
  have hp : Dubins2dParams.Of (R := realFmt) ⟨200, 400, -1, 1, -96, 96⟩
      { headingRateMin := -1, headingRateMax := 1, accMin := -96, accMax := 96, integrationMethod := "Euler", trajectorySamples := some 0,
        kwargs := [("name", .str "a")] } :=
    ⟨Fl.ofNat_fin 200, Fl.ofNat_fin 400, congrArg Fl.neg Fl.one_fin, Fl.one_fin, congrArg Fl.neg (Fl.ofNat_fin 96), Fl.ofNat_fin 96⟩
  obtain ⟨-, -, heading', v', h, -, h'⟩ := C108_overspeed (rkEnv dopri (fun _ _ _ => [])) (rkEnv dopri (fun _ _ _ => [])) _ _ hp (by norm_num) _ rfl rfl le_rfl
    [] _ rfl (by decide) 0 0 0 200 (by
      show [(0 : Fl realFmt), 0, 0, 200] = _
      rw [Fl.zero_fin, show (200 : Fl realFmt) = .fin 200 from Fl.ofNat_fin 200]) 1000 1 (.ndarray .f64 [.fin 1, .fin 50]) ![1, 50] ⟨.f64, .array _ _⟩ _ rfl
  exact ⟨_, _, heading', v', rfl, rfl, by simpa [TypedEntity.run] using h, h'⟩

/-- On a new aircraft `aircraft.heading = 0.1` (the double next to 0.1) reads back a float32 number, off by more than 10⁻⁹, also when another
property was assigned before. -/
example (libm : Fmt ℚ) : ∃ (e0 : Entity (b64Of libm)) (ops : List (AttrOp (b64Of libm))) (q : ℚ), ops ≠ [] ∧
    (((TypedEntity.built e0).run (rkEnv dopri (fun _ _ _ => [])) (affineRhs dubins2dF dubins2dG) propsDubins2d ops).setAttr propsDubins2d "heading"
      (.num (.fin (3602879701896397 / 36028797018963968)))).1.entity.readNumber propsDubins2d "heading" = some (.ok (.fin q)) ∧
    1 / 10 ^ 9 < |q - 1 / 10| := by
  obtain ⟨args, e0, -, -, -, -, -, a6, -⟩ := Demo.newAircraft libm
  refine ⟨e0, [.set "x" (.num (.fin 5))], 13421773 / 134217728, by simp, ?_, by norm_num [abs_of_pos]⟩
  have hx : Fl.cast32 (.fin (3602879701896397 / 36028797018963968) : Fl (b64Of libm)) = .fin (13421773 / 134217728) := by
    show Fl.ofExt (rndBin 24 (-126) 127 (3602879701896397 / 36028797018963968)) = _
    rw [show rndBin 24 (-126) 127 (3602879701896397 / 36028797018963968) = .val (13421773 / 134217728) by decide +kernel]; rfl
  rw [← hx]
  exact C108_single_before_step _ _ .dubins2d e0 _ (by simp [Plain]) (by
      intro pre dt a post h
      rcases pre with _ | ⟨o, pre⟩ <;> simp at h) "heading" 2 (by decide) (by
      rw [TypedEntity.run, List.foldl_cons, List.foldl_nil, TypedEntity.op,
        (C108_assigns .dubins2d "x" 0 (by decide) (TypedEntity.built e0) (by rw [show (TypedEntity.built e0).entity = e0 from rfl, a6]; rfl) (by simp [TypedEntity.built]) _).1]
      simp [TypedEntity.built, a6, Kind.size]) _

/-- the hypotheses of C108_exact_after_step: a step of a new aircraft is completed, and the state keeps its length -/
example : ∃ e0 : Entity realFmt, newDubins2d (rkEnv dopri (fun _ _ _ => []))
      { headingRateMin := -1, headingRateMax := 1, accMin := -96, accMax := 96, integrationMethod := "Euler", trajectorySamples := some 0,
        kwargs := [("name", .str "a")] } = .ok e0 ∧
    ((TypedEntity.built e0).step (rkEnv dopri (fun _ _ _ => [])) (affineRhs (dubins2dF32 (realFmt.single realFmt)) dubins2dG) (.fin 1)
      (.ndarray .f64 [.fin 1, .fin 50])).2 = .ok () ∧
    Plain [AttrOp.set (R := realFmt) "x" (.num (.fin 5)), .step (.fin 1) .none] := by
  have hp : Dubins2dParams.Of (R := realFmt) ⟨200, 400, -1, 1, -96, 96⟩
      { headingRateMin := -1, headingRateMax := 1, accMin := -96, accMax := 96, integrationMethod := "Euler", trajectorySamples := some 0,
        kwargs := [("name", .str "a")] } :=
    ⟨Fl.ofNat_fin 200, Fl.ofNat_fin 400, congrArg Fl.neg Fl.one_fin, Fl.one_fin, congrArg Fl.neg (Fl.ofNat_fin 96), Fl.ofNat_fin 96⟩
  refine ⟨_, rfl, ?_, by simp [Plain]⟩
  rw [(typed_step_2d _ _ rfl _ _).2]
  exact (Realises.step_euler _ Real.pi_pos (dubins2d_realised hp (env := rkEnv dopri (fun _ _ _ => [])) rfl) rfl le_rfl (u := ![1, 50]) ⟨.f64, .array _ _⟩ (fun _ => trivial) (y := ![0, 0, 0, 200]) (by
    show [(0 : Fl realFmt), 0, 0, 200] = _
    rw [Fl.zero_fin, show (200 : Fl realFmt) = .fin 200 from Fl.ofNat_fin 200, toFl4]; rfl) 1).1

end SAD
