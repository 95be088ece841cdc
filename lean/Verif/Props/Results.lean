import Verif.Model.AeroUtil
import Verif.Lemmas.Base
import Verif.Lemmas.Flt
import Verif.Props.Controlled

/-! # C70, C71: simulation results -/

set_option linter.unusedSectionVars false

namespace SAD.Aero
open SAD Spec

section
variable {K : Type} {R : Fmt K} [Field K] [LinearOrder K]

/-! ## C70 -/

/-- between two limits, if there are any; NaN is never between limits -/
def Inside (lim : Option (Fl R × Fl R)) (x : Fl R) : Prop := ∀ lo hi, lim = some (lo, hi) → lo ≤ x ∧ x ≤ hi

/-- below a limit, if there is one -/
def Below (lim : Option (Fl R)) (x : Fl R) : Prop := ∀ hi, lim = some hi → x ≤ hi

/-- one tick is safe: altitude, normal load factor and angle of attack are inside their limits, stability-axis roll rate and sideslip
below theirs. There is no lower limit for the last two, and the limits on the airspeed play no part. -/
def TickSafe (lim : SafetyLimits R) (row : Vec R) (nz ps : Fl R) : Prop :=
  Inside lim.altitude (row.getD 11 0) ∧ Inside lim.nz nz ∧ Inside lim.alpha (row.getD 1 0) ∧ Below lim.psMaxAccelDeg ps ∧
    Below lim.betaMaxDeg (row.getD 2 0)

/-- the check returns when `P` holds and raises AssertionError otherwise -/
def Checks (x : Py Unit) (P : Prop) : Prop := (P → x = .ok ()) ∧ (¬ P → x = .error .assertionError)

theorem Checks.and {a b : Py Unit} {P Q : Prop} (ha : Checks a P) (hb : Checks b Q) : Checks (a >>= fun _ => b) (P ∧ Q) := by
  by_cases hP : P
  · rw [ha.1 hP]
    exact ⟨fun h => hb.1 h.2, fun h => hb.2 (fun q => h ⟨hP, q⟩)⟩
  · rw [ha.2 hP]
    exact ⟨fun h => absurd h.1 hP, fun _ => rfl⟩

theorem assertPair_checks (lim : Option (Fl R × Fl R)) (x : Fl R) : Checks (assertPair lim x) (Inside lim x) := by
  unfold assertPair Inside
  cases lim with
  | none => exact ⟨fun _ => rfl, fun h => absurd (fun _ _ e => by cases e) h⟩
  | some p =>
    obtain ⟨lo, hi⟩ := p
    exact ⟨fun h => if_pos (h lo hi rfl), fun hn => if_neg (fun h => hn (fun a b e => by cases e; exact h))⟩

theorem assertMax_checks (lim : Option (Fl R)) (x : Fl R) : Checks (assertMax lim x) (Below lim x) := by
  unfold assertMax Below
  cases lim with
  | none => exact ⟨fun _ => rfl, fun h => absurd (fun _ e => by cases e) h⟩
  | some hi => exact ⟨fun h => if_pos (h hi rfl), fun hn => if_neg (fun h => hn (fun a e => by cases e; exact h))⟩

/-- one tick with 16 columns and both lists long enough -/
theorem verifyTick_checks (lim : SafetyLimits R) (res : Results R) (i : ℕ) {row nzs pss : List (Fl R)} {nz ps : Fl R}
    (hrow : res.states.rows[i]? = some row) (hlen : row.length = 16) (hn : res.nzList = some nzs) (hp : res.psList = some pss)
    (hni : nzs[i]? = some nz) (hpi : pss[i]? = some ps) : Checks (verifyTick lim res i) (TickSafe lim row nz ps) := by
  match row, hlen with
  | [x0, alpha, beta, x3, x4, x5, x6, x7, x8, x9, x10, alt, x12, x13, x14, x15], _ =>
    unfold verifyTick
    have g : ∀ {α : Type} {xs : List α} {a : α}, xs[i]? = some a → getIdx xs i = .ok a := fun h => by unfold getIdx; rw [h]
    rw [g hrow]
    simp only [hn, hp, getKey, bind, Except.bind, g hni, g hpi]
    exact (assertPair_checks _ _).and ((assertPair_checks _ _).and ((assertPair_checks _ _).and ((assertMax_checks _ _).and (assertMax_checks _ _))))

theorem forM_checks {f : ℕ → Py Unit} {P : ℕ → Prop} (l : List ℕ) (h : ∀ i ∈ l, Checks (f i) (P i)) : Checks (l.forM f) (∀ i ∈ l, P i) := by
  induction l with
  | nil => exact ⟨fun _ => rfl, fun hn => absurd (by simp) hn⟩
  | cons a l ih =>
    have hc : Checks ((a :: l).forM f) (P a ∧ ∀ i ∈ l, P i) := (h a (by simp)).and (ih fun i hi => h i (by simp [hi]))
    rwa [← List.forall_mem_cons] at hc

/-- a table: every row has the given number of columns -/
def Mat.WF (m : Mat R) : Prop := ∀ r ∈ m.rows, r.length = m.ncols

/-- With a low-level controller, a table of 16 columns and lists that cover every tick, `verify` returns exactly when every tick is safe and
raises AssertionError otherwise. -/
theorem C70_verify (lim : SafetyLimits R) (res : Results R) (hw : Mat.WF res.states) (hc : res.states.ncols = 16) {nzs pss : List (Fl R)}
    (hn : res.nzList = some nzs) (hp : res.psList = some pss) (hnl : res.states.rows.length ≤ nzs.length)
    (hpl : res.states.rows.length ≤ pss.length) :
    ((∀ i row, res.states.rows[i]? = some row → TickSafe lim row (nzs.getD i 0) (pss.getD i 0)) → verify lim true res = .ok ()) ∧
    (¬ (∀ i row, res.states.rows[i]? = some row → TickSafe lim row (nzs.getD i 0) (pss.getD i 0)) →
      verify lim true res = .error .assertionError) := by
  have hsize : (res.states.rows.length * res.states.ncols) % 16 = 0 := by rw [hc]; omega
  have hdiv : (res.states.rows.length * res.states.ncols) / 16 = res.states.rows.length := by rw [hc]; omega
  have hv : verify lim true res = (List.range res.states.rows.length).forM (verifyTick lim res) := by
    unfold verify
    change (if (res.states.rows.length * res.states.ncols) % 16 ≠ 0 then _ else _) = _
    rw [if_neg (by rw [hsize]; simp)]
    change (List.range ((res.states.rows.length * res.states.ncols) / 16)).forM _ = _
    rw [hdiv]
  have key := forM_checks (f := verifyTick lim res)
    (P := fun i => ∀ row, res.states.rows[i]? = some row → TickSafe lim row (nzs.getD i 0) (pss.getD i 0))
    (List.range res.states.rows.length) (by
      intro i hi
      rw [List.mem_range] at hi
      have hrow : res.states.rows[i]? = some res.states.rows[i] := List.getElem?_eq_getElem hi
      have e := verifyTick_checks lim res i hrow ((hw _ (List.getElem_mem hi)).trans hc) hn hp
        (nz := nzs.getD i 0) (ps := pss.getD i 0)
        (by rw [List.getD_eq_getElem?_getD, List.getElem?_eq_getElem (by omega)]; rfl)
        (by rw [List.getD_eq_getElem?_getD, List.getElem?_eq_getElem (by omega)]; rfl)
      refine ⟨fun h => e.1 (h _ hrow), fun h => e.2 (fun ht => h (fun row hr => ?_))⟩
      rw [hrow] at hr
      cases hr
      exact ht)
  rw [hv]
  constructor
  · intro h
    exact key.1 (fun i _ row hr => h i row hr)
  · intro h
    refine key.2 (fun hall => h (fun i row hr => hall i ?_ row hr))
    rw [List.mem_range]
    exact (List.getElem?_eq_some_iff.1 hr).1

/-- The configured speed limits are never consulted. -/
theorem C70_speed_ignored (lim : SafetyLimits R) (v : Option (Fl R × Fl R)) (llc : Bool) (res : Results R) :
    verify { lim with v := v } llc res = verify lim llc res := rfl

/-- Sideslip and roll rate are bounded on one side only: a safe tick stays safe when they fall to anything smaller. -/
theorem C70_one_sided (lim : SafetyLimits R) (row : Vec R) (nz ps beta ps' : Fl R) (h : TickSafe lim row nz ps)
    (hb : beta ≤ row.getD 2 0) (hp : ps' ≤ ps) (hl : 2 < row.length) : TickSafe lim (row.set 2 beta) nz ps' := by
  obtain ⟨h1, h2, h3, h4, h5⟩ := h
  have g : ∀ j, j ≠ 2 → (row.set 2 beta).getD j 0 = row.getD j 0 := fun j hj => by
    simp only [List.getD_eq_getElem?_getD]
    rw [List.getElem?_set_ne (Ne.symm hj)]
  have g2 : (row.set 2 beta).getD 2 0 = beta := by
    simp [List.getD_eq_getElem?_getD, hl]
  refine ⟨by rw [g 11 (by norm_num)]; exact h1, h2, by rw [g 1 (by norm_num)]; exact h3, fun hi e => Fl.le_trans' hp (h4 hi e), fun hi e => ?_⟩
  rw [g2]
  exact Fl.le_trans' hb (h5 hi e)

theorem forM_error {f : ℕ → Py Unit} (l : List ℕ) {i : ℕ} (hi : i ∈ l) {e : PyErr} (hf : f i = .error e) : ∃ e', l.forM f = .error e' := by
  induction l with
  | nil => simp at hi
  | cons a l ih =>
    change ∃ e', (f a >>= fun _ => l.forM f) = .error e'
    cases ha : f a with
    | error e' => exact ⟨e', rfl⟩
    | ok u =>
      rcases List.mem_cons.1 hi with rfl | hm
      · rw [hf] at ha; cases ha
      · exact ih hm

/-- Without a low-level controller every table with at least one entry is rejected with some exception, safe or not: the verifier counts 13
variables per tick but unpacks 16. -/
theorem C70_no_controller (lim : SafetyLimits R) (res : Results R) (hw : Mat.WF res.states) (hr : res.states.rows ≠ [])
    (hc : res.states.ncols ≠ 0) : ∃ e, verify lim false res = .error e := by
  unfold verify
  change ∃ e, (if (res.states.rows.length * res.states.ncols) % 13 ≠ 0 then _ else _) = _
  by_cases h : (res.states.rows.length * res.states.ncols) % 13 = 0
  swap
  · exact ⟨_, if_pos h⟩
  rw [if_neg (not_not.2 h)]
  have hpos : 0 < res.states.rows.length := List.length_pos_iff.2 hr
  have hm : 0 < res.states.rows.length * res.states.ncols := Nat.mul_pos hpos (Nat.pos_of_ne_zero hc)
  by_cases h16 : res.states.ncols = 16
  · refine forM_error (i := res.states.rows.length) (e := .indexError) _ ?_ ?_
    · rw [List.mem_range]
      change _ < (res.states.rows.length * res.states.ncols) / 13
      rw [h16] at h hm ⊢
      omega
    · unfold verifyTick getIdx
      rw [List.getElem?_eq_none (le_refl _)]
      rfl
  · refine forM_error (i := 0) (e := .valueError) _ ?_ ?_
    · rw [List.mem_range]
      change _ < (res.states.rows.length * res.states.ncols) / 13
      omega
    · unfold verifyTick getIdx
      rw [List.getElem?_eq_getElem hpos]
      simp only [bind, Except.bind]
      have : res.states.rows[0].length ≠ 16 := by rw [hw _ (List.getElem_mem hpos)]; exact h16
      split
      · next he => rw [he] at this; exact absurd rfl this
      · rfl

/-- An empty table passes. -/
theorem C70_empty (lim : SafetyLimits R) (llc : Bool) (res : Results R) (hr : res.states.rows = []) : verify lim llc res = .ok () := by
  unfold verify
  rw [hr]
  simp only [List.length_nil, Nat.zero_mul, Nat.zero_mod, Nat.zero_div]
  rfl

/-- a result with one safe and one unsafe limit: the hypotheses of `C70_verify` are met and both outcomes occur -/
def demoResults : Results ratFmt := ⟨⟨[List.replicate 16 1, List.replicate 16 2], 16⟩, some [1, 2], some [0, 0]⟩

example : Mat.WF demoResults.states ∧ verify ({ altitude := some (0, 2), v := some (5, 6) } : SafetyLimits ratFmt) true demoResults = .ok () ∧
    verify ({ altitude := some (0, 1) } : SafetyLimits ratFmt) true demoResults = .error .assertionError := by
  refine ⟨?_, rfl, rfl⟩
  intro r hr
  simp only [demoResults, List.mem_cons, List.not_mem_nil, or_false] at hr
  rcases hr with rfl | rfl <;> rfl

/-! ## C71 -/

variable {S T M V : Type} {res : Res S T M V R}

/-- the columns of one aircraft in a row -/
def aircraftColumns (i : ℕ) (row : Vec R) : Vec R := (row.drop (16 * i)).take 16

theorem pySlice_nat {α : Type} (xs : List α) (i : ℕ) : pySlice xs (16 * (i : ℤ)) (16 * ((i : ℤ) + 1)) = (xs.drop (16 * i)).take 16 := by
  have h1 : sliceBound xs.length (16 * (i : ℤ)) = min (16 * i) xs.length := by
    unfold sliceBound
    rw [if_neg (by omega)]
    congr 1
  have h2 : sliceBound xs.length (16 * ((i : ℤ) + 1)) = min (16 * i + 16) xs.length := by
    unfold sliceBound
    rw [if_neg (by omega)]
    congr 1
  unfold pySlice
  rw [h1, h2]
  rcases Nat.le_total xs.length (16 * i) with h | h
  · rw [List.drop_eq_nil_of_le h, min_eq_right h, List.drop_length]
    simp
  · rw [min_eq_left h]
    rcases Nat.le_total xs.length (16 * i + 16) with h' | h'
    · rw [min_eq_right h', List.take_of_length_le (by simp), List.take_of_length_le (by simp; omega)]
    · rw [min_eq_left h']
      congr 1
      omega

theorem pyIndex_nat {α : Type} (xs : List α) (i : ℕ) : pyIndex xs (i : ℤ) = getIdx xs i := by
  unfold pyIndex
  rw [if_pos (by omega)]
  simp

theorem mapM_all {α β : Type} {f : α → Py β} : ∀ {xs : List α} {ys : List β}, xs.mapM f = .ok ys → List.Forall₂ (fun a b => f a = .ok b) xs ys := by
  intro xs
  induction xs with
  | nil => intro ys h; simp only [List.mapM_nil, pure, Except.pure] at h; cases h; exact .nil
  | cons a xs ih =>
    intro ys h
    rw [List.mapM_cons] at h
    simp only [Except.bind_ok] at h
    obtain ⟨b, hb, bs, hbs, h⟩ := h
    cases h
    exact .cons hb (ih hbs)

theorem forall₂_mem {α β : Type} {P : α → β → Prop} {xs : List α} {ys : List β} (h : List.Forall₂ P xs ys) {b : β} (hb : b ∈ ys) :
    ∃ a ∈ xs, P a b := by
  induction h with
  | nil => simp at hb
  | cons hd _ ih =>
    rcases List.mem_cons.1 hb with rfl | hm
    · exact ⟨_, by simp, hd⟩
    · obtain ⟨a, ha, hp⟩ := ih hm
      exact ⟨a, by simp [ha], hp⟩

theorem forall₂_map {α β γ : Type} {P : α → β → Prop} {f : α → γ} {g : β → γ} {xs : List α} {ys : List β} (h : List.Forall₂ P xs ys)
    (hp : ∀ a b, P a b → f a = g b) : xs.map f = ys.map g := by
  induction h with
  | nil => rfl
  | cons hd _ ih => simp [hp _ _ hd, ih]

/-- the lists recorded with extended states -/
def Spec.extendedNames : List String := ["xd_list", "ps_list", "Nz_list", "Ny_r_list", "u_list"]

theorem extendedKeys_eq : extendedKeys = Spec.extendedNames := rfl

/-- the shape of a result for several aircraft -/
structure Several (res : Res S T M V R) (n : ℕ) : Prop where
  wf : Mat.WF res.states
  width : res.states.ncols = 16 * n
  ticks : res.states.rows ≠ []

/-- the extended lists of one aircraft -/
def extendedLists (res : Res S T M V R) (index : ℤ) : Py (List (String × List V)) :=
  if (res.lists.lookup "xd_list").isSome then
    extendedKeys.mapM (fun key =>
      match res.lists.lookup key with
      | none => .error .keyError
      | some ticks => do
        let col ← ticks.mapM (fun tup => pyIndex tup index)
        .ok (key, col))
  else .ok []

theorem extractSingle_several {n : ℕ} (hs : Several res n) (hn : 2 ≤ n) (index : ℤ) : extractSingle res index =
    (extendedLists res index >>= fun lists => .ok (.new res.status res.times res.modes
      ⟨res.states.rows.map (fun r => pySlice r (16 * index) (16 * (index + 1))),
        sliceBound res.states.ncols (16 * (index + 1)) - sliceBound res.states.ncols (16 * index)⟩ lists)) := by
  have h0 : ∃ r, getIdx res.states.rows 0 = .ok r := by
    unfold getIdx
    rw [List.getElem?_eq_getElem (List.length_pos_iff.2 hs.ticks)]
    exact ⟨_, rfl⟩
  obtain ⟨r0, h0⟩ := h0
  have hdiv : res.states.ncols / (stateNames.length + numIntegrators) = n := by
    change res.states.ncols / 16 = n
    rw [hs.width]; omega
  unfold extractSingle extendedLists
  rw [h0]
  simp only [bind, Except.bind, hdiv]
  rw [if_neg (by omega)]
  split_ifs <;> rfl

/-- With several aircraft a successful extraction has the status, times and modes of the whole, exactly the 16 columns of the requested
aircraft, and in each extended list the entry of that aircraft for every tick. -/
theorem C71_columns {n index : ℕ} (hs : Several res n) (hn : 2 ≤ n) (hi : index < n) {r : Single S T M V R}
    (h : extractSingle res index = .ok r) :
    ∃ lists, r = .new res.status res.times res.modes ⟨res.states.rows.map (aircraftColumns index), 16⟩ lists ∧
      (res.lists.lookup "xd_list" = none → lists = []) ∧
      (∀ key col, (key, col) ∈ lists → key ∈ Spec.extendedNames ∧ ∃ ticks, res.lists.lookup key = some ticks ∧ col.map some = ticks.map (·[index]?)) ∧
      ((res.lists.lookup "xd_list").isSome → lists.map Prod.fst = Spec.extendedNames) := by
  have e0 := extractSingle_several hs hn index
  have hst : (⟨res.states.rows.map (fun r => pySlice r (16 * (index : ℤ)) (16 * ((index : ℤ) + 1))),
      sliceBound res.states.ncols (16 * ((index : ℤ) + 1)) - sliceBound res.states.ncols (16 * (index : ℤ))⟩ : Mat R) =
      ⟨res.states.rows.map (aircraftColumns index), 16⟩ := by
    congr 1
    · exact List.map_congr_left fun r _ => pySlice_nat r index
    · unfold sliceBound
      rw [if_neg (by omega), if_neg (by omega), hs.width]
      omega
  rw [e0, hst] at h
  obtain ⟨lists, hl, h⟩ := Except.bind_ok.1 h
  cases h
  refine ⟨lists, rfl, fun hx => ?_, ?_, ?_⟩
  · unfold extendedLists at hl
    rw [hx] at hl
    cases hl
    rfl
  · intro key col hm
    unfold extendedLists at hl
    split_ifs at hl with hx
    · obtain ⟨k', hk', e⟩ := forall₂_mem (mapM_all hl) hm
      cases ht : res.lists.lookup k' with
      | none => rw [ht] at e; cases e
      | some ticks =>
        rw [ht] at e
        obtain ⟨c, hc, e⟩ := Except.bind_ok.1 e
        cases e
        refine ⟨hk', ticks, ht, (forall₂_map (mapM_all hc) (f := (·[index]?)) (g := some) fun a b hab => ?_).symm⟩
        rw [pyIndex_nat] at hab
        exact (getIdx_lt hab).2
    · cases hl
      simp at hm
  · intro hx
    unfold extendedLists at hl
    rw [if_pos hx] at hl
    have := forall₂_map (mapM_all hl) (f := id) (g := Prod.fst) fun a b hab => ?_
    · rw [← this]; simp [extendedKeys_eq]
    · cases ht : res.lists.lookup a with
      | none => rw [ht] at hab; cases hab
      | some ticks =>
        rw [ht] at hab
        obtain ⟨c, hc, e⟩ := Except.bind_ok.1 hab
        cases e
        rfl

theorem mapM_exists {α β : Type} {f : α → Py β} {xs : List α} (h : ∀ a ∈ xs, ∃ b, f a = .ok b) : ∃ ys, xs.mapM f = .ok ys := by
  induction xs with
  | nil => exact ⟨[], rfl⟩
  | cons a xs ih =>
    obtain ⟨b, hb⟩ := h a (by simp)
    obtain ⟨bs, hbs⟩ := ih fun a ha => h a (by simp [ha])
    rw [List.mapM_cons, hb]
    simp only [bind, Except.bind, hbs]
    exact ⟨_, rfl⟩

/-- The extraction succeeds for every aircraft, provided the extended lists, if there is one, are all there with an entry for it. -/
theorem C71_defined {n index : ℕ} (hs : Several res n) (hn : 2 ≤ n)
    (hl : (res.lists.lookup "xd_list").isSome → ∀ key ∈ Spec.extendedNames, ∃ ticks, res.lists.lookup key = some ticks ∧ ∀ t ∈ ticks, index < t.length) :
    ∃ r, extractSingle res index = .ok r := by
  rw [extractSingle_several hs hn]
  have : ∃ lists, extendedLists res index = .ok lists := by
    unfold extendedLists
    split_ifs with hx
    · refine mapM_exists fun key hk => ?_
      obtain ⟨ticks, ht, hlen⟩ := hl hx key hk
      rw [ht]
      obtain ⟨col, hcol⟩ := mapM_exists (f := fun tup => pyIndex tup (index : ℤ)) (xs := ticks) fun t htm => by
        rw [pyIndex_nat]
        unfold getIdx
        rw [List.getElem?_eq_getElem (hlen t htm)]
        exact ⟨_, rfl⟩
      simp only [hcol, bind, Except.bind]
      exact ⟨_, rfl⟩
    · exact ⟨_, rfl⟩
  obtain ⟨lists, e⟩ := this
  rw [e]
  exact ⟨_, rfl⟩

theorem join_columns (n : ℕ) (row : Vec R) (h : row.length = 16 * n) : (List.range n).flatMap (fun i => aircraftColumns i row) = row := by
  induction n generalizing row with
  | zero => simp at h; simp [h]
  | succ n ih =>
    rw [List.range_succ, List.flatMap_append]
    have e : (List.range n).flatMap (fun i => aircraftColumns i row) = row.take (16 * n) := by
      rw [← ih (row.take (16 * n)) (by simp; omega)]
      refine List.flatMap_congr fun i hi => ?_
      rw [List.mem_range] at hi
      unfold aircraftColumns
      rw [List.drop_take, List.take_take, min_eq_left (by omega)]
    rw [e]
    simp only [List.flatMap_cons, List.flatMap_nil, List.append_nil, aircraftColumns]
    rw [List.take_of_length_le (l := row.drop (16 * n)) (by simp; omega), List.take_append_drop]

/-- Put side by side in order, the tables extracted for all the aircraft are the table of the whole. -/
theorem C71_reassemble {n : ℕ} (hs : Several res n) (hn : 2 ≤ n) (parts : ℕ → Mat R)
    (hp : ∀ i < n, ∃ lists, extractSingle res i = .ok (.new res.status res.times res.modes (parts i) lists)) {k : ℕ} {row : Vec R}
    (hrow : res.states.rows[k]? = some row) : (List.range n).flatMap (fun i => (parts i).rows.getD k []) = row := by
  have hlen : row.length = 16 * n := (hs.wf row (List.mem_of_getElem? hrow)).trans hs.width
  rw [← join_columns n row hlen]
  refine List.flatMap_congr fun i hi => ?_
  rw [List.mem_range] at hi
  obtain ⟨lists, e⟩ := hp i hi
  obtain ⟨l', e', -⟩ := C71_columns hs hn hi e
  have hm : parts i = ⟨res.states.rows.map (aircraftColumns i), 16⟩ := by
    simp only [Single.new.injEq] at e'
    exact e'.2.2.2.1
  rw [hm]
  simp only
  rw [List.getD_eq_getElem?_getD, List.getElem?_map, hrow]
  rfl

/-- With one aircraft the result is returned as it is for index 0 and any other index raises AssertionError. The test of "one aircraft"
rounds down: any width from 16 to 31 counts as one, extra columns included. -/
theorem C71_single (index : ℤ) (h0 : res.states.rows ≠ []) (hw : 16 ≤ res.states.ncols) (hw' : res.states.ncols < 32) :
    extractSingle res index = if index = 0 then .ok (.same res) else .error .assertionError := by
  have hdiv : res.states.ncols / (stateNames.length + numIntegrators) = 1 := by
    change res.states.ncols / 16 = 1
    omega
  unfold extractSingle
  have : getIdx res.states.rows 0 = .ok (res.states.rows[0]'(List.length_pos_iff.2 h0)) := by
    unfold getIdx
    rw [List.getElem?_eq_getElem (List.length_pos_iff.2 h0)]
  rw [this]
  simp only [bind, Except.bind, hdiv]
  rw [if_pos trivial]

/-- An index past the last aircraft is not an error when there are no extended lists: the table comes back without columns. -/
theorem C71_out_of_range {n index : ℕ} (hs : Several res n) (hn : 2 ≤ n) (hi : n ≤ index) (hl : res.lists.lookup "xd_list" = none) :
    extractSingle res index = .ok (.new res.status res.times res.modes ⟨res.states.rows.map fun _ => [], 0⟩ []) := by
  rw [extractSingle_several hs hn]
  have e : extendedLists res index = .ok [] := by unfold extendedLists; rw [hl]; rfl
  rw [e]
  simp only [bind, Except.bind, Except.ok.injEq, Single.new.injEq, true_and, and_true, Mat.mk.injEq]
  constructor
  · refine List.map_congr_left fun r hr => ?_
    rw [pySlice_nat, List.drop_eq_nil_of_le (by rw [hs.wf r hr, hs.width]; omega)]
    rfl
  · unfold sliceBound
    rw [if_neg (by omega), if_neg (by omega), hs.width]
    omega

/-- Index -1 takes the last aircraft from the extended lists but no columns from the table. -/
theorem C71_minus_one {n : ℕ} (hs : Several res n) (hn : 2 ≤ n) {r : Single S T M V R} (h : extractSingle res (-1) = .ok r) :
    (∃ lists, r = .new res.status res.times res.modes ⟨res.states.rows.map fun _ => [], 0⟩ lists) ∧
    ∀ {α : Type} (xs : List α) (a : α), pyIndex (xs ++ [a]) (-1) = .ok a := by
  constructor
  · rw [extractSingle_several hs hn] at h
    obtain ⟨lists, -, h⟩ := Except.bind_ok.1 h
    cases h
    refine ⟨lists, ?_⟩
    simp only [Single.new.injEq, true_and, and_true, Mat.mk.injEq]
    have hz : ∀ m : ℕ, sliceBound m (16 * (-1 + 1)) = 0 := fun m => by unfold sliceBound; simp
    constructor
    · refine List.map_congr_left fun r hr => ?_
      unfold pySlice
      rw [hz]
      simp
    · rw [hz]; simp
  · intro α xs a
    unfold pyIndex
    rw [if_neg (by omega), if_pos (by simp)]
    have : (-1 + ((xs ++ [a]).length : ℤ)).toNat = xs.length := by simp
    rw [this]
    unfold getIdx
    simp

/-- two aircraft, two ticks -/
def demoRes : Res Unit Unit Unit ℕ ratFmt := ⟨(), (), (), ⟨[List.replicate 16 1 ++ List.replicate 16 2, List.replicate 16 3 ++ List.replicate 16 4], 32⟩,
  [("xd_list", [[1, 2], [3, 4]]), ("ps_list", [[1, 2], [3, 4]]), ("Nz_list", [[1, 2], [3, 4]]), ("Ny_r_list", [[1, 2], [3, 4]]), ("u_list", [[1, 2], [3, 4]])]⟩

example : Several demoRes 2 ∧ ∃ r, extractSingle demoRes 1 = .ok r := by
  refine ⟨⟨?_, rfl, by simp [demoRes]⟩, _, rfl⟩
  intro r hr
  simp only [demoRes, List.mem_cons, List.not_mem_nil, or_false] at hr
  rcases hr with rfl | rfl <;> rfl

end
end SAD.Aero
