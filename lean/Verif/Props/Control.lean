import Verif.Lemmas.Applied
import Verif.Props.Demo
import Verif.Model.Binary

/-!
# C01 - C07: actions, saturation, warnings, atomicity

All theorems hold for every floating point format `R` (any rounding) and every environment (any ODE solver).
-/

set_option linter.unusedSectionVars false

namespace SAD
open Spec

variable {K : Type} {R : Fmt K} [Field K] [LinearOrder K] [FloorRing K]

/-! ## C01 control saturation -/

/-- Every successful step applies, to the dynamics, the control `v` that the specification `Applied` describes: the requested
control `u`, each element of which is saturated to the limits (compared in the dtype of the action), hence inside them, with as
many elements as requested. The new state and derivative are exactly what the dynamics return for `v`. -/
theorem C01_applied_control_saturated (env : Env R) (e : Entity R) (dt : Fl R) (a : Action R)
    (hok : (e.step env dt a).outcome = .ok ()) :
    ∃ ty u v d s sd, Requests env e a ty u ∧ Applied env e a v ∧ e.dynamics.step env dt e.state v = (d, .ok (s, sd)) ∧
      (e.step env dt a).entity = { e with dynamics := d, state := s, stateDot := sd } ∧
      (Fits e.controlMin u.length → Fits e.controlMax u.length → v.length = u.length) ∧
      ∀ i x, bget v i = some x → ∃ r lo hi, bget u i = some r ∧
        (limitAs ty e.controlMin).at i = some lo ∧ (limitAs ty e.controlMax).at i = some hi ∧
        (lo ≤ hi → r ≠ .nan → Saturated lo hi r x ∧ Within lo hi x) := by
  obtain ⟨ty, u, v, d, s, sd, h1, h2, h3, h4⟩ := step_ok hok
  refine ⟨ty, u, v, d, s, sd, resolve_iff.1 h1, applied_of h1 h2, h3, h4, ?_, ?_⟩
  · intro hlo hhi
    have hf : ∀ {l : Arr R}, Fits l u.length → Fits (l.forDType ty) u.length := by
      intro l hl; cases l <;> exact hl
    obtain ⟨w, hw, hl⟩ := npClip_fits (hf hlo) (hf hhi)
    rw [h2] at hw
    cases hw
    exact hl
  intro i x hx
  obtain ⟨r, lo, hi, g1, g2, g3, rfl⟩ := npClip_bget h2 hx
  rw [limitAs_eq, limitAs_eq]
  exact ⟨r, lo, hi, g1, g2, g3, fun h hr => ⟨clip_saturated h, Fl.clip_mem_range hr h⟩⟩

/-- Conversely the outcome of a step is decided by the applied control: if the dynamics succeed on it the step succeeds, with
their result; if the dynamics raise on it the step raises the same exception; if no control can be applied the step raises and
the entity is unchanged. -/
theorem C01_step_decided_by_applied_control (env : Env R) (e : Entity R) (dt : Fl R) (a : Action R) :
    (∀ v, Applied env e a v →
      (∀ d s sd, e.dynamics.step env dt e.state v = (d, .ok (s, sd)) →
        (e.step env dt a).outcome = .ok () ∧ (e.step env dt a).entity = { e with dynamics := d, state := s, stateDot := sd }) ∧
      (∀ d x, e.dynamics.step env dt e.state v = (d, .error x) → (e.step env dt a).outcome = .error x)) ∧
    ((∀ v, ¬ Applied env e a v) → (e.step env dt a).entity = e ∧ ∃ x, (e.step env dt a).outcome = .error x) := by
  constructor
  · intro v hv
    obtain ⟨ty, u, h1, h2⟩ := applied_iff.1 hv
    obtain ⟨w, hw⟩ := exceeds_of_npClip h2
    constructor
    · intro d s sd hs
      simp [Entity.step, h1, hw, h2, hs]
    · intro d x hs
      simp [Entity.step, h1, hw, h2, hs]
  · intro hno
    unfold Entity.step
    split
    · exact ⟨rfl, _, rfl⟩
    · rename_i ty u h1
      simp only
      split
      · exact ⟨rfl, _, rfl⟩
      · split
        · exact ⟨rfl, _, rfl⟩
        · rename_i v h2
          exact absurd (applied_of h1 h2) (hno v)

example : ((Demo.entity (R := ratFmt) "Euler").step Demo.env 1 (.list [5, -7])).outcome = .ok () ∧
    ((Demo.entity (R := ratFmt) "Euler").step Demo.env 1 (.list [5, -7])).entity.state = [.fin 4, .fin 2] ∧
    ((Demo.entity (R := ratFmt) "Euler").step Demo.env 1 (.list [5, -7])).warned = true := by decide +kernel

/-- An out-of-range float64 array action is indistinguishable (state, derivative, trajectory, outcome) from its saturated
version. -/
theorem C01_saturated_action_equivalent (env : Env R) (e : Entity R) (dt : Fl R) (u v : Vec R)
    (hlen : v.length = u.length) (hlo : Fits e.controlMin u.length) (hhi : Fits e.controlMax u.length)
    (hord : Ordered e.controlMin e.controlMax)
    (hsat : ∀ i r x lo hi, u[i]? = some r → v[i]? = some x → e.controlMin.at i = some lo → e.controlMax.at i = some hi →
      r ≠ .nan ∧ Saturated lo hi r x) :
    (e.step env dt (.ndarray .f64 u)).entity = (e.step env dt (.ndarray .f64 v)).entity ∧
    (e.step env dt (.ndarray .f64 u)).outcome = (e.step env dt (.ndarray .f64 v)).outcome := by
  obtain ⟨wu, hwu, -⟩ := exceeds_iff hlo hhi
  obtain ⟨wv, hwv, -⟩ := exceeds_iff (u := v) (by rw [hlen]; exact hlo) (by rw [hlen]; exact hhi)
  obtain ⟨cu, hcu, hcul⟩ := npClip_fits hlo hhi
  obtain ⟨cv, hcv, hcvl⟩ := npClip_fits (u := v) (lo := e.controlMin) (hi := e.controlMax)
    (by rw [hlen]; exact hlo) (by rw [hlen]; exact hhi)
  have hc : cu = cv := by
    apply List.ext_getElem?
    intro i
    by_cases hi : i < u.length
    · obtain ⟨lo, hlo'⟩ := fits_at hlo hi
      obtain ⟨b, hhi'⟩ := fits_at hhi hi
      have hu := List.getElem?_eq_getElem hi
      have hv := List.getElem?_eq_getElem (hlen ▸ hi : i < v.length)
      rw [npClip_elem hcu hcul hu hlo' hhi', npClip_elem hcv hcvl hv hlo' hhi']
      obtain ⟨hr, hs⟩ := hsat i _ _ _ _ hu hv hlo' hhi'
      have hle := hord i _ _ hlo' hhi'
      rw [saturated_unique hle hr hs]
      have hm := Fl.clip_mem_range hr hle
      rw [Fl.clip_mem hm.1 hm.2]
    · rw [List.getElem?_eq_none (by omega), List.getElem?_eq_none (by omega)]
  subst hc
  simp only [Entity.step, Entity.resolve, forDType_f64, hwu, hwv, hcu, hcv]
  cases e.dynamics.step env dt e.state cu with
  | mk d r => cases r <;> simp

example : Fits (Demo.entity (R := ratFmt) "Euler").controlMin 2 ∧
    Ordered (Demo.entity (R := ratFmt) "Euler").controlMin (Demo.entity (R := ratFmt) "Euler").controlMax ∧
    Saturated (.fin (-1)) (.fin 1) (.fin 5) (.fin 1 : Fl ratFmt) := by
  refine ⟨Or.inr rfl, ?_, by simp [Saturated]; norm_num⟩
  intro i l h hl hh
  match i with
  | 0 => simp [Demo.entity, Arr.at] at hl hh; subst hl hh; simp
  | 1 => simp [Demo.entity, Arr.at] at hl hh; subst hl hh; simp
  | n + 2 => simp [Demo.entity, Arr.at] at hl

/-- An in-range float64 array action reaches the dynamics unchanged. -/
theorem C01_in_range_unchanged (env : Env R) (e : Entity R) (dt : Fl R) (u : Vec R)
    (hlo : Fits e.controlMin u.length) (hhi : Fits e.controlMax u.length)
    (hin : ∀ i r lo hi, u[i]? = some r → e.controlMin.at i = some lo → e.controlMax.at i = some hi → Within lo hi r)
    (hok : (e.step env dt (.ndarray .f64 u)).outcome = .ok ()) :
    ∃ d s sd, e.dynamics.step env dt e.state u = (d, .ok (s, sd)) ∧
      (e.step env dt (.ndarray .f64 u)).entity = { e with dynamics := d, state := s, stateDot := sd } := by
  obtain ⟨ty, u', v, d, s, sd, h1, h2, h3, h4⟩ := step_ok hok
  simp only [Entity.resolve, Except.ok.injEq, Prod.mk.injEq] at h1
  obtain ⟨rfl, rfl⟩ := h1
  rw [forDType_f64, forDType_f64] at h2
  obtain ⟨cu, hcu, hcul⟩ := npClip_fits hlo hhi
  rw [hcu, Except.ok.injEq] at h2; subst h2
  have : cu = u := by
    apply List.ext_getElem?
    intro i
    by_cases hi : i < u.length
    · obtain ⟨lo, hlo'⟩ := fits_at hlo hi
      obtain ⟨b, hhi'⟩ := fits_at hhi hi
      have hu := List.getElem?_eq_getElem hi
      rw [npClip_elem hcu hcul hu hlo' hhi', hu]
      have := hin i _ _ _ hu hlo' hhi'
      rw [Fl.clip_mem this.1 this.2]
    · rw [List.getElem?_eq_none (by omega), List.getElem?_eq_none (by omega)]
  subst this
  exact ⟨d, s, sd, h3, h4⟩

/-- witness for the next theorem: one state, one control, `control_max` = the double nearest to 0.1 -/
def f32Entity : Entity b64 :=
  let d : Dyn b64 := { Demo.dyn "Euler" with stateMax := .scalar (.fin 10) }
  { Demo.entity "Euler" with
    controlMin := .scalar (.fin (-1)), controlMax := .scalar 0.1, state := [.fin 0], dynamics := d }

/-- Observed deviation, in real double precision: a scalar limit is compared in the dtype of the action, so with a float32
action (in particular any `list` action) the applied control can exceed the configured scalar limit by the rounding of
that limit to float32. Here `control_max = 0.1`, the action is `[0.5]`, and the control applied is the float32 nearest
to 0.1, which is greater than `control_max`. (The state derivative of this entity is its applied control.) -/
theorem C01_float32_scalar_limit_violated :
    f32Entity.controlMax = .scalar 0.1 ∧
    (∀ t s u, f32Entity.dynamics.rhs t s u = .ok u) ∧
    (f32Entity.step Demo.env 1 (.list [0.5])).outcome = .ok () ∧
    (f32Entity.step Demo.env 1 (.list [0.5])).entity.stateDot = [.fin (13421773 / 134217728)] ∧
    (0.1 : Fl b64) < .fin (13421773 / 134217728) :=
  ⟨rfl, fun _ _ _ => rfl, by decide +kernel, by decide +kernel, by decide +kernel⟩

/-! ## C02 the warning is exact -/

/-- The warning is emitted exactly when some requested element is strictly outside its limits. -/
theorem C02_warning_iff (env : Env R) (e : Entity R) (dt : Fl R) (a : Action R) (ty : DType) (u : Vec R)
    (hr : Requests env e a ty u) (hlo : Fits e.controlMin u.length) (hhi : Fits e.controlMax u.length) :
    (e.step env dt a).warned = true ↔
      ∃ i r, u[i]? = some r ∧ ((∃ l, (limitAs ty e.controlMin).at i = some l ∧ r < l) ∨
        (∃ h, (limitAs ty e.controlMax).at i = some h ∧ h < r)) := by
  replace hr := resolve_iff.2 hr
  rw [limitAs_eq, limitAs_eq]
  obtain ⟨w, hw, hiff⟩ := exceeds_iff (u := u) (forDType_fits (ty := ty).2 hlo) (forDType_fits (ty := ty).2 hhi)
  obtain ⟨v, hv, -⟩ := npClip_fits (u := u) (forDType_fits (ty := ty).2 hlo) (forDType_fits (ty := ty).2 hhi)
  rw [← hiff]
  simp only [Entity.step, hr, hw, hv]
  cases e.dynamics.step env dt e.state v with
  | mk d r => cases r <;> simp

/-- The same for every request that leads to an applied control, including one that is stretched to the length of the limits. -/
theorem C02_warning_iff_broadcast (env : Env R) (e : Entity R) (dt : Fl R) (a : Action R) (ty : DType) (u v : Vec R)
    (hr : Requests env e a ty u) (hv : Applied env e a v) (hne : v ≠ []) :
    (e.step env dt a).warned = true ↔
      ∃ i r, i < v.length ∧ bget u i = some r ∧ ((∃ l, (limitAs ty e.controlMin).at i = some l ∧ r < l) ∨
        (∃ h, (limitAs ty e.controlMax).at i = some h ∧ h < r)) := by
  replace hr := resolve_iff.2 hr
  obtain ⟨ty', u', h1, h2⟩ := applied_iff.1 hv
  rw [hr] at h1
  cases h1
  obtain ⟨w, hw, hiff⟩ := exceeds_iff_broadcast (npClip_iff.1 h2) hne
  rw [limitAs_eq, limitAs_eq, ← hiff]
  simp only [Entity.step, hr, hw, h2]
  cases e.dynamics.step env dt e.state v with
  | mk d r => cases r <;> simp

example : ((Demo.entity (R := ratFmt) "Euler").step Demo.env 1 (.list [3])).warned = true ∧
    ((Demo.entity (R := ratFmt) "Euler").step Demo.env 1 (.list [3])).entity.stateDot = [.fin 1, .fin 2] := by decide +kernel

/-- For NaN-free array requests and ordered limits: the warning is emitted iff saturation changes the request. -/
theorem C02_warning_iff_changed (env : Env R) (e : Entity R) (dt : Fl R) (u : Vec R)
    (hlo : Fits e.controlMin u.length) (hhi : Fits e.controlMax u.length) (hord : Ordered e.controlMin e.controlMax)
    (hnan : ∀ i : Nat, u[i]? ≠ some Fl.nan) :
    (e.step env dt (.ndarray .f64 u)).warned = true ↔
      ∃ i r l h x, u[i]? = some r ∧ e.controlMin.at i = some l ∧ e.controlMax.at i = some h ∧
        Saturated l h r x ∧ x ≠ r := by
  rw [C02_warning_iff env e dt _ .f64 u (.array .f64 u) hlo hhi, limitAs_eq, limitAs_eq, forDType_f64, forDType_f64]
  constructor
  · rintro ⟨i, r, hr, hcase⟩
    have hi := (List.getElem?_eq_some_iff.1 hr).1
    obtain ⟨l, hl⟩ := fits_at hlo hi
    obtain ⟨b, hb⟩ := fits_at hhi hi
    have hle := hord i _ _ hl hb
    refine ⟨i, r, l, b, Fl.clip r l b, hr, hl, hb, clip_saturated hle, ?_⟩
    intro heq
    have hm := Fl.clip_mem_range (a := r) (by rintro rfl; exact hnan i hr) hle
    rw [heq] at hm
    rcases hcase with ⟨l', hl', hlt⟩ | ⟨b', hb', hlt⟩
    · rw [hl] at hl'; cases hl'; exact Fl.not_lt_of_le' hm.1 hlt
    · rw [hb] at hb'; cases hb'; exact Fl.not_lt_of_le' hm.2 hlt
  · rintro ⟨i, r, l, b, x, hr, hl, hb, hs, hne⟩
    have hrn : r ≠ .nan := by rintro rfl; exact hnan i hr
    have hle := hord i _ _ hl hb
    refine ⟨i, r, hr, ?_⟩
    by_contra hcon
    simp only [not_or, not_exists, not_and] at hcon
    have h1 := (Fl.not_lt' hrn (Fl.ne_nan_of_le_left hle)).1 (hcon.1 l hl)
    have h2 := (Fl.not_lt' (Fl.ne_nan_of_le_right hle) hrn).1 (hcon.2 b hb)
    exact hne (hs.2.2 h1 h2)

example : ((Demo.entity (R := ratFmt) "RK45").step Demo.env 1 (.ndarray .f64 [1, -2])).warned = false ∧
    ((Demo.entity (R := ratFmt) "RK45").step Demo.env 1 (.ndarray .f64 [1, .fin (-201 / 100)])).warned = true := by
  decide +kernel

/-! ## C03 NaN controls -/

/-- A NaN request reaches the dynamics as NaN, whatever the limits. -/
theorem C03_nan_not_clipped (env : Env R) (e : Entity R) (dt : Fl R) (u : Vec R) (i : Nat)
    (hlo : Fits e.controlMin u.length) (hhi : Fits e.controlMax u.length) (hu : u[i]? = some .nan)
    (hok : (e.step env dt (.ndarray .f64 u)).outcome = .ok ()) :
    ∃ v d s sd, e.dynamics.step env dt e.state v = (d, .ok (s, sd)) ∧
      (e.step env dt (.ndarray .f64 u)).entity = { e with dynamics := d, state := s, stateDot := sd } ∧
      v[i]? = some .nan ∧ v.length = u.length := by
  obtain ⟨ty, u', v, d, s, sd, h1, h2, h3, h4⟩ := step_ok hok
  simp only [Entity.resolve, Except.ok.injEq, Prod.mk.injEq] at h1
  obtain ⟨rfl, rfl⟩ := h1
  rw [forDType_f64, forDType_f64] at h2
  obtain ⟨cu, hcu, hcul⟩ := npClip_fits hlo hhi
  rw [hcu, Except.ok.injEq] at h2; subst h2
  have hi := (List.getElem?_eq_some_iff.1 hu).1
  obtain ⟨l, hl⟩ := fits_at hlo hi
  obtain ⟨b, hb⟩ := fits_at hhi hi
  refine ⟨cu, d, s, sd, h3, h4, ?_, hcul⟩
  rw [npClip_elem hcu hcul hu hl hb, Fl.clip_nan]

/-- An action all of whose elements are NaN or within limits produces no warning. -/
theorem C03_nan_not_warned (env : Env R) (e : Entity R) (dt : Fl R) (u : Vec R)
    (hlo : Fits e.controlMin u.length) (hhi : Fits e.controlMax u.length)
    (h : ∀ i r l b, u[i]? = some r → e.controlMin.at i = some l → e.controlMax.at i = some b → r = .nan ∨ Within l b r) :
    (e.step env dt (.ndarray .f64 u)).warned = false := by
  rw [Bool.eq_false_iff]
  intro hw
  rw [C02_warning_iff env e dt _ .f64 u (.array .f64 u) hlo hhi, limitAs_eq, limitAs_eq, forDType_f64, forDType_f64] at hw
  obtain ⟨i, r, hr, hcase⟩ := hw
  have hi := (List.getElem?_eq_some_iff.1 hr).1
  obtain ⟨l, hl⟩ := fits_at hlo hi
  obtain ⟨b, hb⟩ := fits_at hhi hi
  rcases h i r l b hr hl hb with rfl | hwi
  · rcases hcase with ⟨_, _, hlt⟩ | ⟨_, _, hlt⟩ <;> simp at hlt
  · rcases hcase with ⟨l', hl', hlt⟩ | ⟨b', hb', hlt⟩
    · rw [hl] at hl'; cases hl'; exact Fl.not_lt_of_le' hwi.1 hlt
    · rw [hb] at hb'; cases hb'; exact Fl.not_lt_of_le' hwi.2 hlt

example : ((Demo.entity (R := ratFmt) "Euler").step Demo.env 1 (.ndarray .f64 [.nan, 1])).warned = false ∧
    ((Demo.entity (R := ratFmt) "Euler").step Demo.env 1 (.ndarray .f64 [.nan, 1])).entity.state = [.nan, .fin 5] := by
  decide +kernel

/-! ## C04 dict actions -/

/-- A dict action with known keys has exactly the effect (including the warning) of the array action with the named
channels set and all others at their defaults; such an array always exists. -/
theorem C04_dict_action (env : Env R) (e : Entity R) (dt : Fl R) (map : List (String × Nat))
    (items : List (String × Fl R)) (hmap : e.controlMap = some map) (hkeys : Keys map) (hitems : Keys items)
    (hinj : MapInjective map) (hrange : MapInRange map e.controlDefault.length)
    (hknown : ∀ name v, (name, v) ∈ items → ∃ i, (name, i) ∈ map) :
    ∃ u, DictRequest map e.controlDefault items u ∧
      e.step env dt (.dict items) = e.step env dt (.ndarray .f64 u) := by
  obtain ⟨u, hu, hul, hue⟩ := applyDict_ok map items e.controlDefault (by
    intro name v hm
    obtain ⟨i, hi⟩ := hknown name v hm
    exact ⟨i, lookup_of_mem hkeys hi, hrange name i hi⟩)
  refine ⟨u, ⟨hul, ?_, ?_⟩, step_congr (by simp [Entity.resolve, hmap, hu, bind, Except.bind, pure, Except.pure])⟩
  · intro name v i hm hi
    rw [hue i]
    have hf : items.filter (fun p => lookup map p.1 = some i) = [(name, v)] := by
      have h1 : ∀ p ∈ items, (decide (lookup map p.1 = some i)) = true ↔ p.1 = name := by
        intro p hp
        simp only [decide_eq_true_eq]
        constructor
        · intro h; exact hinj _ _ i (lookup_mem h) hi
        · intro h; rw [h]; exact lookup_of_mem hkeys hi
      rw [List.filter_congr (q := fun p => decide (p.1 = name)) (by
        intro p hp
        have := h1 p hp
        by_cases hq : p.1 = name <;> simp_all)]
      clear h1 hue hu hul hknown
      induction items with
      | nil => simp at hm
      | cons q qs ih =>
        obtain ⟨n', v'⟩ := q
        simp only [Keys, List.map_cons, List.nodup_cons] at hitems
        rcases List.mem_cons.1 hm with h | h
        · cases h
          simp only [List.filter_cons, decide_true, if_true, List.cons.injEq, true_and]
          rw [List.filter_eq_nil_iff]
          intro p hp
          simp only [decide_eq_true_eq]
          rintro rfl
          exact hitems.1 (List.mem_map.2 ⟨p, hp, rfl⟩)
        · have : n' ≠ name := by
            rintro rfl
            exact hitems.1 (List.mem_map.2 ⟨(n', v), h, rfl⟩)
          simp only [List.filter_cons, this, decide_false]
          exact ih hitems.2 h
    rw [hf]; simp
  · intro i hno
    rw [hue i]
    have hf : items.filter (fun p => lookup map p.1 = some i) = [] := by
      rw [List.filter_eq_nil_iff]
      rintro ⟨n, v⟩ hp
      simp only [decide_eq_true_eq]
      intro hl
      exact hno n v hp (lookup_mem hl)
    rw [hf]; simp

/-- The request described by a dict is unique, so its entries may be given in any order. -/
theorem C04_dict_order_irrelevant (env : Env R) (e : Entity R) (dt : Fl R) (map : List (String × Nat))
    (items items' : List (String × Fl R)) (hmap : e.controlMap = some map) (hkeys : Keys map) (hitems : Keys items)
    (hinj : MapInjective map) (hrange : MapInRange map e.controlDefault.length)
    (hknown : ∀ name v, (name, v) ∈ items → ∃ i, (name, i) ∈ map) (hperm : items.Perm items') :
    e.step env dt (.dict items) = e.step env dt (.dict items') := by
  have hitems' : Keys items' := (hperm.map Prod.fst).nodup_iff.1 hitems
  obtain ⟨u, ⟨hl, h1, h2⟩, hu⟩ := C04_dict_action env e dt map items hmap hkeys hitems hinj hrange hknown
  obtain ⟨u', ⟨hl', h1', h2'⟩, hu'⟩ := C04_dict_action env e dt map items' hmap hkeys hitems' hinj hrange
    (fun name v h => hknown name v (hperm.mem_iff.2 h))
  rw [hu, hu']
  have : u = u' := by
    apply List.ext_getElem?
    intro i
    by_cases hex : ∃ name v, (name, v) ∈ items ∧ (name, i) ∈ map
    · obtain ⟨name, v, ha, hb⟩ := hex
      rw [h1 name v i ha hb, h1' name v i (hperm.mem_iff.1 ha) hb]
    · simp only [not_exists, not_and] at hex
      rw [h2 i hex, h2' i (fun n v h => hex n v (hperm.mem_iff.2 h))]
  rw [this]

example : Keys [("a", 0), ("b", 1)] ∧ MapInjective [("a", 0), ("b", 1)] ∧ MapInRange [("a", 0), ("b", 1)] 2 ∧
    ((Demo.entity (R := ratFmt) "Euler").step Demo.env 1 (.dict [("b", 1)])).entity.state = [.fin 3, .fin 5] := by
  refine ⟨by simp [Keys], ?_, ?_, by decide +kernel⟩
  · intro a b i ha hb
    simp at ha hb
    rcases ha with ⟨rfl, rfl⟩ | ⟨rfl, rfl⟩ <;> simp_all
  · intro a i ha
    simp at ha
    rcases ha with ⟨rfl, rfl⟩ | ⟨rfl, rfl⟩ <;> simp

/-! ## C05 rejected actions -/

/-- An unknown actuator name, anywhere in the dict, raises `KeyError` and leaves the whole entity as it was. -/
theorem C05_unknown_actuator (env : Env R) (e : Entity R) (dt : Fl R) (map : List (String × Nat))
    (items : List (String × Fl R)) (hmap : e.controlMap = some map) (hrange : MapInRange map e.controlDefault.length)
    (name : String) (v : Fl R) (hm : (name, v) ∈ items) (hn : ∀ i, (name, i) ∉ map) :
    e.step env dt (.dict items) = ⟨e, false, .error .keyError⟩ := by
  have := applyDict_unknown map items e.controlDefault hrange name v hm hn
  simp [Entity.step, Entity.resolve, hmap, this, bind, Except.bind]

/-- A dict action on an entity without `control_map` fails an assertion, without effect. -/
theorem C05_dict_without_map (env : Env R) (e : Entity R) (dt : Fl R) (items : List (String × Fl R))
    (hmap : e.controlMap = none) : e.step env dt (.dict items) = ⟨e, false, .error .assertionError⟩ := by
  simp [Entity.step, Entity.resolve, hmap]

/-- An action of an unsupported type raises `ValueError`, without effect; so does a jax array when jax is absent. -/
theorem C05_unsupported_action (env : Env R) (e : Entity R) (dt : Fl R) :
    e.step env dt .other = ⟨e, false, .error .valueError⟩ ∧
    (env.jaxInstalled = false → ∀ xs, e.step env dt (.jaxArray xs) = ⟨e, false, .error .valueError⟩) := by
  refine ⟨rfl, fun h xs => ?_⟩
  simp [Entity.step, Entity.resolve, h]

example : ((Demo.entity (R := ratFmt) "Euler").step Demo.env 1 (.dict [("a", 1), ("c", 1)])).outcome
    = .error .keyError := by decide +kernel

/-! ## C06 default action -/

/-- `None`, the default control array and the empty dict are the same action. -/
theorem C06_default_action (env : Env R) (e : Entity R) (dt : Fl R) :
    e.step env dt .none = e.step env dt (.ndarray .f64 e.controlDefault) ∧
    (e.controlMap ≠ none → e.step env dt (.dict []) = e.step env dt .none) := by
  refine ⟨step_congr rfl, fun h => step_congr ?_⟩
  cases hm : e.controlMap with
  | none => exact absurd hm h
  | some m => simp [Entity.resolve, hm, applyDict, bind, Except.bind, pure, Except.pure]

/-- No history of operations, failing or not, changes the name, the default control, the control limits or map, or
anything of the dynamics but its stored trajectory. -/
theorem C06_config_immutable (env : Env R) (e : Entity R) (ops : List (Op R)) : SameConfig e (e.run env ops) :=
  run_sameConfig env ops e

example : ((Demo.entity (R := ratFmt) "RK45").run Demo.env [.step 1 (.list [5, 5]), .setState [0, 0], .step 1 .other,
    .step 2 (.dict [("b", 1)])]).state = [.fin 0, .fin 2] := by decide +kernel

/-! ## C07 failed steps are atomic -/

/-- If a step raises, state and state derivative are unchanged. -/
theorem C07_failed_step_atomic (env : Env R) (e : Entity R) (dt : Fl R) (a : Action R) (x : PyErr)
    (h : (e.step env dt a).outcome = .error x) :
    (e.step env dt a).entity.state = e.state ∧ (e.step env dt a).entity.stateDot = e.stateDot :=
  step_error h

/-- In a history in which every step raises and there are no assignments, the state never changes. -/
theorem C07_failing_history (env : Env R) (e : Entity R) (steps : List (Fl R × Action R))
    (h : ∀ e' : Entity R, ∀ p ∈ steps, SameConfig e e' → ∃ x, (e'.step env p.1 p.2).outcome = .error x) :
    (e.run env (steps.map fun p => .step p.1 p.2)).state = e.state := by
  suffices ∀ e' : Entity R, SameConfig e e' → (e'.run env (steps.map fun p => .step p.1 p.2)).state = e'.state from
    this e (SameConfig.refl e)
  induction steps with
  | nil => intro e' _; rfl
  | cons p steps ih =>
    intro e' hc
    obtain ⟨x, hx⟩ := h e' p (by simp) hc
    have h1 := (step_error hx).1
    have h2 := ih (fun e'' q hq hc' => h e'' q (by simp [hq]) hc') (e'.step env p.1 p.2).entity
      (SameConfig.trans hc (step_sameConfig env e' p.1 p.2))
    calc (e'.run env ((p :: steps).map fun p => .step p.1 p.2)).state
        = ((e'.step env p.1 p.2).entity.run env (steps.map fun p => .step p.1 p.2)).state := rfl
      _ = e'.state := by rw [h2, h1]

example : ((Demo.entity (R := ratFmt) "Heun").step Demo.env 1 .none).outcome = .error .valueError ∧
    ((Demo.entity (R := ratFmt) "Euler").step Demo.env 1 (.list [1, 2, 3])).outcome = .error .valueError := by
  decide +kernel

end SAD
