import Verif.Props.Controlled

/-! # C73: trim constraints and cost -/

set_option linter.unusedSectionVars false

namespace SAD.Aero
open SAD Spec

/-! ## Every arithmetic -/

section
variable {K : Type} {R : Fmt K} [Field K] [LinearOrder K] [IsStrictOrderedRing K] [FloorRing K]

theorem eqb_nat {n m : ℕ} : Fl.eqb (OfNat.ofNat n : Fl R) (OfNat.ofNat m) = decide (n = m) := by
  rw [Fl.ofNat_fin, Fl.ofNat_fin]; simp [Fl.eqb]

theorem eqb_orient {k : TrimConst R} {n : ℕ} (h : k.orient = OfNat.ofNat n) : Fl.eqb k.orient 1 = decide (n = 1) ∧
    Fl.eqb k.orient 2 = decide (n = 2) ∧ Fl.eqb k.orient 3 = decide (n = 3) ∧ Fl.eqb k.orient 4 = decide (n = 4) := by
  rw [h]; exact ⟨eqb_nat, eqb_nat, eqb_nat, eqb_nat⟩

/-- flight conditions: 1 level, 2 climb, 3 coordinated turn, 4 pull-up; any other code is `none` -/
inductive Orient (k : TrimConst R) : Prop
  | level (h : k.orient = 1)
  | climb (h : k.orient = 2)
  | turn (h : k.orient = 3)
  | pullUp (h : k.orient = 4)
  | none (h1 : Fl.eqb k.orient 1 = false) (h2 : Fl.eqb k.orient 2 = false) (h3 : Fl.eqb k.orient 3 = false) (h4 : Fl.eqb k.orient 4 = false)

theorem orient_cases (k : TrimConst R) : Orient k := by
  have e : ∀ n : ℕ, Fl.eqb k.orient (OfNat.ofNat n : Fl R) = true → k.orient = OfNat.ofNat n := fun n h => (Fl.eqb_iff _ _ |>.1 h).1
  cases h1 : Fl.eqb k.orient 1 with
  | true => exact .level (e 1 h1)
  | false =>
  cases h2 : Fl.eqb k.orient 2 with
  | true => exact .climb (e 2 h2)
  | false =>
  cases h3 : Fl.eqb k.orient 3 with
  | true => exact .turn (e 3 h3)
  | false =>
  cases h4 : Fl.eqb k.orient 4 with
  | true => exact .pullUp (e 4 h4)
  | false => exact .none h1 h2 h3 h4

theorem setIdx_ok {α : Type} {xs ys : List α} {i : ℕ} {v : α} (h : setIdx xs i v = .ok ys) : i < xs.length ∧ ys = xs.set i v := by
  unfold setIdx at h
  split_ifs at h with hi
  cases h
  exact ⟨hi, rfl⟩

variable (x0 x1 x2 x3 x4 x5 x6 x7 x8 x9 x10 x11 x12 u0 : Fl R) (rest us : Vec R) (k : TrimConst R)

theorem conf16_level (h : k.orient = 1) : conf16 (x0 :: x1 :: x2 :: x3 :: x4 :: x5 :: x6 :: x7 :: x8 :: x9 :: x10 :: x11 :: x12 :: rest) (u0 :: us) k =
    .ok (x0 :: x1 :: x2 :: k.phi :: x1 :: x5 :: k.rr :: k.pr :: 0.0 :: x9 :: x10 :: x11 :: tgear u0 :: rest, u0 :: us) := by
  obtain ⟨e1, e2, e3, e4⟩ := eqb_orient (n := 1) h
  unfold conf16; rw [e1, e2, e3, e4]; rfl

theorem conf16_climb (h : k.orient = 2) : conf16 (x0 :: x1 :: x2 :: x3 :: x4 :: x5 :: x6 :: x7 :: x8 :: x9 :: x10 :: x11 :: x12 :: rest) (u0 :: us) k =
    .ok (x0 :: x1 :: x2 :: k.phi :: (x1 + k.radgam) :: x5 :: k.rr :: k.pr :: 0.0 :: x9 :: x10 :: x11 :: tgear u0 :: rest, u0 :: us) := by
  obtain ⟨e1, e2, e3, e4⟩ := eqb_orient (n := 2) h
  unfold conf16; rw [e1, e2, e3, e4]; rfl

theorem conf16_pullUp (h : k.orient = 4) : conf16 (x0 :: x1 :: x2 :: x3 :: x4 :: x5 :: x6 :: x7 :: x8 :: x9 :: x10 :: x11 :: x12 :: rest) (u0 :: us) k =
    .ok (x0 :: x1 :: x2 :: k.phi :: x1 :: x5 :: k.rr :: k.thetadot :: 0.0 :: x9 :: x10 :: x11 :: tgear u0 :: rest, u0 :: us) := by
  obtain ⟨e1, e2, e3, e4⟩ := eqb_orient (n := 4) h
  unfold conf16; rw [e1, e2, e3, e4]; rfl

theorem conf16_none (h1 : Fl.eqb k.orient 1 = false) (h2 : Fl.eqb k.orient 2 = false) (h3 : Fl.eqb k.orient 3 = false)
    (h4 : Fl.eqb k.orient 4 = false) : conf16 (x0 :: x1 :: x2 :: x3 :: x4 :: x5 :: x6 :: x7 :: x8 :: x9 :: x10 :: x11 :: x12 :: rest) (u0 :: us) k =
    .ok (x0 :: x1 :: x2 :: x3 :: x4 :: x5 :: x6 :: x7 :: x8 :: x9 :: x10 :: x11 :: tgear u0 :: rest, u0 :: us) := by
  unfold conf16; rw [h1, h2, h3, h4]; rfl

theorem conf16_turn (h : k.orient = 3) : conf16 (x0 :: x1 :: x2 :: x3 :: x4 :: x5 :: x6 :: x7 :: x8 :: x9 :: x10 :: x11 :: x12 :: rest) (u0 :: us) k =
    (mathSin x4 >>= fun s => mathCos x4 >>= fun c => mathSin x3 >>= fun sp => mathCos x3 >>= fun cp =>
    .ok (x0 :: x1 :: x2 :: x3 :: x4 :: x5 :: (-k.tr * s) :: (k.tr * c * sp) :: (k.tr * c * cp) :: x9 :: x10 :: x11 :: tgear u0 :: rest, u0 :: us)) := by
  obtain ⟨e1, e2, e3, e4⟩ := eqb_orient (n := 3) h
  unfold conf16; rw [e1, e2, e3, e4]; rfl

variable {x0 x1 x2 x3 x4 x5 x6 x7 x8 x9 x10 x11 x12 u0 rest us k} {x u x' u' : Vec R}

theorem conf16_lengths {r : Vec R × Vec R} (h : conf16 x u k = .ok r) : 13 ≤ x.length ∧ 1 ≤ u.length := by
  have five : ∀ {y : Vec R} {i j k l m : ℕ} {a b c d e f : Fl R} {y1 y2 y3 y4 y5 y6 : Vec R}, setIdx x i a = .ok y1 → setIdx y1 j b = .ok y2 →
      setIdx y2 k c = .ok y3 → setIdx y3 l d = .ok y4 → setIdx y4 m e = .ok y5 → setIdx y5 12 f = .ok y6 → 13 ≤ x.length := by
    intro y i j k l m a b c d e f y1 y2 y3 y4 y5 y6 h1 h2 h3 h4 h5 h6
    have := (setIdx_ok h6).1
    rw [(setIdx_ok h5).2, (setIdx_ok h4).2, (setIdx_ok h3).2, (setIdx_ok h2).2, (setIdx_ok h1).2] at this
    simp only [List.length_set] at this
    omega
  rcases orient_cases k with ho | ho | ho | ho | ⟨e1, e2, e3, e4⟩
  · obtain ⟨e1, e2, e3, e4⟩ := eqb_orient (n := 1) ho
    unfold conf16 at h
    rw [e1, e2, e3, e4] at h
    simp only [decide_true, Nat.reduceEqDiff, decide_false, Bool.false_eq_true, if_true, if_false, pure_bind, Except.bind_ok, OfNat.one_ne_ofNat] at h
    obtain ⟨_, a, _, -, _, b, _, c, _, d, _, e, _, g, _, f, -⟩ := h
    exact ⟨five (y := x) a b c d e f, (getIdx_lt g).1⟩
  · obtain ⟨e1, e2, e3, e4⟩ := eqb_orient (n := 2) ho
    unfold conf16 at h
    rw [e1, e2, e3, e4] at h
    simp only [decide_true, Nat.reduceEqDiff, decide_false, Bool.false_eq_true, if_true, if_false, pure_bind, Except.bind_ok, OfNat.ofNat_ne_one] at h
    obtain ⟨_, a, _, -, _, b, _, c, _, d, _, e, _, g, _, f, -⟩ := h
    exact ⟨five (y := x) a b c d e f, (getIdx_lt g).1⟩
  · obtain ⟨e1, e2, e3, e4⟩ := eqb_orient (n := 3) ho
    unfold conf16 at h
    rw [e1, e2, e3, e4] at h
    simp only [decide_true, Nat.reduceEqDiff, decide_false, Bool.false_eq_true, if_true, if_false, pure_bind, Except.bind_ok, OfNat.ofNat_ne_one] at h
    obtain ⟨_, -, _, -, _, a, _, -, _, -, _, -, _, b, _, -, _, c, _, g, _, f, -⟩ := h
    have := (setIdx_ok f).1
    rw [(setIdx_ok c).2, (setIdx_ok b).2, (setIdx_ok a).2] at this
    simp only [List.length_set] at this
    exact ⟨by omega, (getIdx_lt g).1⟩
  · obtain ⟨e1, e2, e3, e4⟩ := eqb_orient (n := 4) ho
    unfold conf16 at h
    rw [e1, e2, e3, e4] at h
    simp only [decide_true, Nat.reduceEqDiff, decide_false, Bool.false_eq_true, if_true, if_false, pure_bind, Except.bind_ok, OfNat.ofNat_ne_one] at h
    obtain ⟨_, -, _, a, _, b, _, c, _, d, _, e, _, g, _, f, -⟩ := h
    exact ⟨five (y := x) a b c d e f, (getIdx_lt g).1⟩
  · unfold conf16 at h
    rw [e1, e2, e3, e4] at h
    simp only [Bool.false_eq_true, if_false, pure_bind, Except.bind_ok] at h
    obtain ⟨_, g, _, f, -⟩ := h
    exact ⟨(setIdx_ok f).1, (getIdx_lt g).1⟩

theorem conf16_shape {r : Vec R × Vec R} (h : conf16 x u k = .ok r) : ∃ x0 x1 x2 x3 x4 x5 x6 x7 x8 x9 x10 x11 x12 rest u0 us,
    x = x0 :: x1 :: x2 :: x3 :: x4 :: x5 :: x6 :: x7 :: x8 :: x9 :: x10 :: x11 :: x12 :: rest ∧ u = u0 :: us := by
  obtain ⟨hx, hu⟩ := conf16_lengths h
  match x, u, hx, hu with
  | x0 :: x1 :: x2 :: x3 :: x4 :: x5 :: x6 :: x7 :: x8 :: x9 :: x10 :: x11 :: x12 :: rest, u0 :: us, _, _ =>
    exact ⟨x0, x1, x2, x3, x4, x5, x6, x7, x8, x9, x10, x11, x12, rest, u0, us, rfl, rfl⟩
  | [], _, hx, _ | [_], _, hx, _ | [_, _], _, hx, _ | [_, _, _], _, hx, _ | [_, _, _, _], _, hx, _ | [_, _, _, _, _], _, hx, _
  | [_, _, _, _, _, _], _, hx, _ | [_, _, _, _, _, _, _], _, hx, _ | [_, _, _, _, _, _, _, _], _, hx, _
  | [_, _, _, _, _, _, _, _, _], _, hx, _ | [_, _, _, _, _, _, _, _, _, _], _, hx, _
  | [_, _, _, _, _, _, _, _, _, _, _], _, hx, _ | [_, _, _, _, _, _, _, _, _, _, _, _], _, hx, _ => simp at hx
  | _, [], _, hu => simp at hu

/-- `conf16` leaves the controls alone and changes no entry of the state but bank (3), pitch (4), the rotation rates (6, 7, 8) and the
power (12), which becomes the throttle gearing of the first control. -/
theorem C73_only (h : conf16 x u k = .ok (x', u')) : u' = u ∧ x'.length = x.length ∧
    (∀ i, i ∉ [3, 4, 6, 7, 8, 12] → x'[i]? = x[i]?) ∧ ∃ u0, u[0]? = some u0 ∧ x'[12]? = some (tgear u0) := by
  obtain ⟨x0, x1, x2, x3, x4, x5, x6, x7, x8, x9, x10, x11, x12, rest, u0, us, rfl, rfl⟩ := conf16_shape h
  have key : ∀ y3 y4 y6 y7 y8, x' = x0 :: x1 :: x2 :: y3 :: y4 :: x5 :: y6 :: y7 :: y8 :: x9 :: x10 :: x11 :: tgear u0 :: rest ∧ u' = u0 :: us →
      u' = u0 :: us ∧ x'.length = (x0 :: x1 :: x2 :: x3 :: x4 :: x5 :: x6 :: x7 :: x8 :: x9 :: x10 :: x11 :: x12 :: rest).length ∧
      (∀ i, i ∉ [3, 4, 6, 7, 8, 12] → x'[i]? = (x0 :: x1 :: x2 :: x3 :: x4 :: x5 :: x6 :: x7 :: x8 :: x9 :: x10 :: x11 :: x12 :: rest)[i]?) ∧
      ∃ v, (u0 :: us)[0]? = some v ∧ x'[12]? = some (tgear v) := by
    rintro y3 y4 y6 y7 y8 ⟨rfl, rfl⟩
    refine ⟨rfl, rfl, fun i hi => ?_, u0, rfl, rfl⟩
    rcases i with _ | _ | _ | _ | _ | _ | _ | _ | _ | _ | _ | _ | _ | i
    all_goals first | rfl | simp at hi
  rcases orient_cases k with ho | ho | ho | ho | ⟨h1, h2, h3, h4⟩
  · rw [conf16_level _ _ _ _ _ _ _ _ _ _ _ _ _ _ _ _ _ ho] at h
    cases h; exact key _ _ _ _ _ ⟨rfl, rfl⟩
  · rw [conf16_climb _ _ _ _ _ _ _ _ _ _ _ _ _ _ _ _ _ ho] at h
    cases h; exact key _ _ _ _ _ ⟨rfl, rfl⟩
  · rw [conf16_turn _ _ _ _ _ _ _ _ _ _ _ _ _ _ _ _ _ ho] at h
    simp only [Except.bind_ok] at h
    obtain ⟨s, -, c, -, sp, -, cp, -, h⟩ := h
    cases h; exact key _ _ _ _ _ ⟨rfl, rfl⟩
  · rw [conf16_pullUp _ _ _ _ _ _ _ _ _ _ _ _ _ _ _ _ _ ho] at h
    cases h; exact key _ _ _ _ _ ⟨rfl, rfl⟩
  · rw [conf16_none _ _ _ _ _ _ _ _ _ _ _ _ _ _ _ _ _ h1 h2 h3 h4] at h
    cases h; exact key _ _ _ _ _ ⟨rfl, rfl⟩

/-- Applying the constraints again changes nothing. -/
theorem C73_idempotent (h : conf16 x u k = .ok (x', u')) : conf16 x' u' k = .ok (x', u') := by
  obtain ⟨x0, x1, x2, x3, x4, x5, x6, x7, x8, x9, x10, x11, x12, rest, u0, us, rfl, rfl⟩ := conf16_shape h
  rcases orient_cases k with ho | ho | ho | ho | ⟨h1, h2, h3, h4⟩
  · rw [conf16_level _ _ _ _ _ _ _ _ _ _ _ _ _ _ _ _ _ ho] at h
    cases h; rw [conf16_level _ _ _ _ _ _ _ _ _ _ _ _ _ _ _ _ _ ho]
  · rw [conf16_climb _ _ _ _ _ _ _ _ _ _ _ _ _ _ _ _ _ ho] at h
    cases h; rw [conf16_climb _ _ _ _ _ _ _ _ _ _ _ _ _ _ _ _ _ ho]
  · rw [conf16_turn _ _ _ _ _ _ _ _ _ _ _ _ _ _ _ _ _ ho] at h
    simp only [Except.bind_ok] at h
    obtain ⟨s, hs, c, hc, sp, hsp, cp, hcp, h⟩ := h
    cases h
    rw [conf16_turn _ _ _ _ _ _ _ _ _ _ _ _ _ _ _ _ _ ho]
    simp only [hs, hc, hsp, hcp, bind, Except.bind]
  · rw [conf16_pullUp _ _ _ _ _ _ _ _ _ _ _ _ _ _ _ _ _ ho] at h
    cases h; rw [conf16_pullUp _ _ _ _ _ _ _ _ _ _ _ _ _ _ _ _ _ ho]
  · rw [conf16_none _ _ _ _ _ _ _ _ _ _ _ _ _ _ _ _ _ h1 h2 h3 h4] at h
    cases h; rw [conf16_none _ _ _ _ _ _ _ _ _ _ _ _ _ _ _ _ _ h1 h2 h3 h4]

/-- what a successful evaluation of the cost consists of -/
theorem clf16_ok {s : Vec R} {model : String} {adj : Bool} {cost : Fl R} (h : clf16 s x u k model adj = .ok (cost, x', u')) :
    ∃ gamm y v y' u0 out vt r, mathAsin k.singam = .ok gamm ∧ writeTrim s x u = .ok (y, v) ∧ getIdx v 0 = .ok u0 ∧
      setIdx y 12 (tgear u0) = .ok y' ∧ conf16 y' v k = .ok (x', u') ∧ subf16 x' u' model adj = .ok out ∧ getIdx x' 0 = .ok vt ∧
      trimCost k gamm vt out.xd = .ok (some r) ∧ cost = if r < 1.0 then powFl r 0.5 else r := by
  unfold clf16 at h
  obtain ⟨gamm, hg, h⟩ := Except.bind_ok.1 h
  obtain ⟨⟨y, v⟩, hw, h⟩ := Except.bind_ok.1 h
  obtain ⟨u0, hu, h⟩ := Except.bind_ok.1 h
  obtain ⟨y', hy, h⟩ := Except.bind_ok.1 h
  obtain ⟨⟨x'', u''⟩, hc, h⟩ := Except.bind_ok.1 h
  obtain ⟨out, ho, h⟩ := Except.bind_ok.1 h
  obtain ⟨vt, hv, h⟩ := Except.bind_ok.1 h
  obtain ⟨r, hr, h⟩ := Except.bind_ok.1 h
  cases r with
  | none => cases h
  | some r =>
    cases h
    exact ⟨gamm, y, v, y', u0, out, vt, r, hg, hw, hu, hy, hc, ho, hv, hr, rfl⟩

theorem clf16_intro {s : Vec R} {model : String} {adj : Bool} {gamm u0 vt r : Fl R} {y v y' : Vec R} {out : SubOut R}
    (hg : mathAsin k.singam = .ok gamm) (hw : writeTrim s x u = .ok (y, v)) (hu : getIdx v 0 = .ok u0) (hy : setIdx y 12 (tgear u0) = .ok y')
    (hc : conf16 y' v k = .ok (x', u')) (ho : subf16 x' u' model adj = .ok out) (hv : getIdx x' 0 = .ok vt)
    (hr : trimCost k gamm vt out.xd = .ok (some r)) : clf16 s x u k model adj = .ok (if r < 1.0 then powFl r 0.5 else r, x', u') := by
  unfold clf16
  simp only [hg, hw, hu, hy, hc, ho, hv, hr, bind, Except.bind]

/-- An orientation code other than 1, 2, 3 and 4 gives no cost: the call raises. -/
theorem C73_orient (s : Vec R) (model : String) (adj : Bool) (h1 : Fl.eqb k.orient 1 = false) (h2 : Fl.eqb k.orient 2 = false)
    (h3 : Fl.eqb k.orient 3 = false) (h4 : Fl.eqb k.orient 4 = false) : ∃ e, clf16 s x u k model adj = .error e := by
  cases h : clf16 s x u k model adj with
  | error e => exact ⟨e, rfl⟩
  | ok r =>
    obtain ⟨cost, x', u'⟩ := r
    obtain ⟨gamm, y, v, y', u0, out, vt, r, -, -, -, -, -, -, -, hr, -⟩ := clf16_ok h
    unfold trimCost at hr
    rw [h1, h2, h3, h4] at hr
    simp only [Except.bind_ok] at hr
    obtain ⟨_, -, _, -, _, -, _, -, _, -, _, -, _, -, _, -, _, -, hr⟩ := hr
    simp at hr

/-- A call without a model is one of the Stevens model with the lateral correction, and its cost is that of this model's rates. -/
theorem C73_default {s : Vec R} {cost : Fl R} (h : clf16 s x u k = .ok (cost, x', u')) :
    clf16 s x u k "stevens" true = .ok (cost, x', u') ∧ ∃ out, subf16 x' u' "stevens" = .ok out := by
  obtain ⟨gamm, y, v, y', u0, out, vt, r, -, -, -, -, -, ho, -⟩ := clf16_ok h
  exact ⟨h, out, ho⟩

/-- The cost is that of the candidate: throttle and elevator come from its first two entries, the angle of attack from its third when
it has three entries and from its fifth otherwise, when the aileron and rudder come from the third and fourth; the returned state
satisfies the constraints, its power is the gearing of the candidate's throttle, and airspeed, sideslip, heading, position and altitude
are the caller's. -/
theorem C73_candidate {s : Vec R} {model : String} {adj : Bool} {cost : Fl R} (h : clf16 s x u k model adj = .ok (cost, x', u')) :
    u'[0]? = s[0]? ∧ u'[1]? = s[1]? ∧ x'[1]? = s[if s.length = 3 then 2 else 4]? ∧
    u'[2]? = (if s.length = 3 then u[2]? else s[2]?) ∧ u'[3]? = (if s.length = 3 then u[3]? else s[3]?) ∧
    conf16 x' u' k = .ok (x', u') ∧ (∀ t, s[0]? = some t → x'[12]? = some (tgear t)) ∧
    (∀ i, i ∉ [1, 3, 4, 6, 7, 8, 12] → x'[i]? = x[i]?) := by
  obtain ⟨gamm, y, v, y', u0, out, vt, r, -, hw, hu, hy, hc, ho, -, -, -⟩ := clf16_ok h
  obtain ⟨rfl, lx, hx, t, ht, ht'⟩ := C73_only hc
  have hy1 : y'[1]? = y[1]? := by rw [(setIdx_ok hy).2]; simp
  have e1 : x'[1]? = y[1]? := (hx 1 (by simp)).trans hy1
  have e2 : ∀ i, i ∉ [1, 3, 4, 6, 7, 8, 12] → x'[i]? = y[i]? := fun i hi => by
    simp only [List.mem_cons, List.not_mem_nil, or_false, not_or] at hi
    rw [hx i (by simp; omega), (setIdx_ok hy).2, List.getElem?_set_ne (by omega)]
  have i := C73_idempotent hc
  rw [e1]
  unfold writeTrim at hw
  by_cases hs : s.length = 3
  · rw [if_pos hs] at hw ⊢
    simp only [Except.bind_ok] at hw
    obtain ⟨s0, a0, w0, b0, s1, a1, w1, b1, s2, a2, z, b2, hw⟩ := hw
    cases hw
    have q0 := (getIdx_lt a0).2; have q1 := (getIdx_lt a1).2; have q2 := (getIdx_lt a2).2
    obtain ⟨l0, rfl⟩ := setIdx_ok b0; obtain ⟨l1, rfl⟩ := setIdx_ok b1; obtain ⟨l2, rfl⟩ := setIdx_ok b2
    simp only [List.length_set] at l0 l1 l2
    rw [if_pos hs, if_pos hs, q0, q1, q2]
    have f0 : ((u.set 0 s0).set 1 s1)[0]? = some s0 := by simp [List.getElem?_set, l0]
    refine ⟨f0, by simp [List.getElem?_set, l1], by simp [List.getElem?_set, l2], by simp, by simp, i, ?_, fun j hj => ?_⟩
    · rintro t' ⟨⟩
      rw [f0] at ht; cases ht; exact ht'
    · rw [e2 j hj, List.getElem?_set_ne (by rintro rfl; simp at hj)]
  · rw [if_neg hs] at hw ⊢
    simp only [Except.bind_ok] at hw
    obtain ⟨s0, a0, w0, b0, s1, a1, w1, b1, s2, a2, w2, b2, s3, a3, w3, b3, s4, a4, z1, b4, s5, a5, z2, b5, s6, a6, z3, b6, hw⟩ := hw
    cases hw
    have q0 := (getIdx_lt a0).2; have q1 := (getIdx_lt a1).2; have q2 := (getIdx_lt a2).2; have q3 := (getIdx_lt a3).2
    have q4 := (getIdx_lt a4).2
    obtain ⟨l0, rfl⟩ := setIdx_ok b0; obtain ⟨l1, rfl⟩ := setIdx_ok b1; obtain ⟨l2, rfl⟩ := setIdx_ok b2
    obtain ⟨l3, rfl⟩ := setIdx_ok b3; obtain ⟨l4, rfl⟩ := setIdx_ok b4; obtain ⟨l5, rfl⟩ := setIdx_ok b5
    obtain ⟨l6, rfl⟩ := setIdx_ok b6
    simp only [List.length_set] at l0 l1 l2 l3 l4 l5 l6
    rw [if_neg hs, if_neg hs, q0, q1, q2, q3, q4]
    have f0 : ((((u.set 0 s0).set 1 s1).set 2 s2).set 3 s3)[0]? = some s0 := by simp [List.getElem?_set, l0]
    refine ⟨f0, by simp [List.getElem?_set, l1], by simp [List.getElem?_set, l4], by simp [List.getElem?_set, l2],
      by simp [List.getElem?_set, l3], i, ?_, fun j hj => ?_⟩
    · rintro t' ⟨⟩
      rw [f0] at ht; cases ht; exact ht'
    · rw [e2 j hj, List.getElem?_set_ne (by rintro rfl; simp at hj), List.getElem?_set_ne (by rintro rfl; simp at hj),
        List.getElem?_set_ne (by rintro rfl; simp at hj)]

end

/-! ## Exact real arithmetic -/

section
open Real

/-- the six rates that every flight condition asks to vanish: airspeed, angle of attack, sideslip and the three rotation rates -/
def Steady (d : List ℝ) : Prop :=
  d.getD 0 0 = 0 ∧ d.getD 1 0 = 0 ∧ d.getD 2 0 = 0 ∧ d.getD 6 0 = 0 ∧ d.getD 7 0 = 0 ∧ d.getD 8 0 = 0

theorem sq6 {a b c d e f : ℝ} {v w z : ℝ} (hv : 0 < v) (hw : 0 < w) (hz : 0 < z) :
    0 ≤ v * a ^ 2 + w * (b ^ 2 + c ^ 2) + z * (d ^ 2 + e ^ 2 + f ^ 2) ∧
    (v * a ^ 2 + w * (b ^ 2 + c ^ 2) + z * (d ^ 2 + e ^ 2 + f ^ 2) = 0 ↔ a = 0 ∧ b = 0 ∧ c = 0 ∧ d = 0 ∧ e = 0 ∧ f = 0) := by
  refine ⟨by positivity, fun h => ?_, fun ⟨h1, h2, h3, h4, h5, h6⟩ => by rw [h1, h2, h3, h4, h5, h6]; ring⟩
  have pa := mul_nonneg hv.le (sq_nonneg a); have pb := mul_nonneg hw.le (sq_nonneg b); have pc := mul_nonneg hw.le (sq_nonneg c)
  have pd := mul_nonneg hz.le (sq_nonneg d); have pe := mul_nonneg hz.le (sq_nonneg e); have pf := mul_nonneg hz.le (sq_nonneg f)
  have z1 : v * a ^ 2 = 0 := by nlinarith
  have z2 : w * b ^ 2 = 0 := by nlinarith
  have z3 : w * c ^ 2 = 0 := by nlinarith
  have z4 : z * d ^ 2 = 0 := by nlinarith
  have z5 : z * e ^ 2 = 0 := by nlinarith
  have z6 : z * f ^ 2 = 0 := by nlinarith
  simp only [mul_eq_zero, hv.ne', hw.ne', hz.ne', false_or, pow_eq_zero_iff, ne_eq, OfNat.ofNat_ne_zero, not_false_eq_true] at z1 z2 z3 z4 z5 z6
  exact ⟨z1, z2, z3, z4, z5, z6⟩

theorem add_zero_iff {a b : ℝ} (ha : 0 ≤ a) (hb : 0 ≤ b) : a + b = 0 ↔ a = 0 ∧ b = 0 :=
  add_eq_zero_iff_of_nonneg ha hb

theorem cost_real {r : ℝ} (hr : 0 ≤ r) : ∃ c : ℝ,
    (if (.fin r : Fl realFmt) < 1.0 then powFl (.fin r : Fl realFmt) 0.5 else .fin r) = (.fin c : Fl realFmt) ∧ 0 ≤ c ∧ (c = 0 ↔ r = 0) := by
  rw [sci_fin, sci_fin]
  simp only [Fl.fin_lt_fin]
  split_ifs with h
  · rw [powFl_fin, if_neg (not_lt.2 hr)]
    split_ifs with h0
    · exact ⟨0, rfl, le_rfl, by simp [h0]⟩
    · exact ⟨_, rfl, Real.rpow_nonneg hr _, Real.rpow_eq_zero hr (by norm_num)⟩
  · exact ⟨r, rfl, hr, Iff.rfl⟩

theorem getIdx_toVec {d : List ℝ} {i : ℕ} {v : Fl realFmt} (h : getIdx (toVec d : Vec realFmt) i = .ok v) : v = .fin (d.getD i 0) := by
  have := (getIdx_lt h).2
  unfold toVec at this
  rw [List.getElem?_map] at this
  rw [List.getD_eq_getElem?_getD]
  cases hd : d[i]? with
  | none => rw [hd] at this; cases this
  | some a => rw [hd] at this; cases this; rfl

/-- The rates the cost penalises: all of `Steady`, and in a climb (2) the altitude rate must be that of the flight-path angle, in a turn (3)
the altitude must hold and the heading turn at the given rate, in a pull-up (4) the pitch must change at the given rate. -/
def Trimmed (orient : ℕ) (d : List ℝ) (vt sinClimb turnRate pitchRate : ℝ) : Prop :=
  Steady d ∧ (orient = 2 → d.getD 11 0 = vt * sinClimb) ∧ (orient = 3 → d.getD 11 0 = 0 ∧ d.getD 5 0 = turnRate) ∧
    (orient = 4 → d.getD 4 0 = pitchRate)

/-- The cost is not negative, and it is zero exactly when every penalised rate of change has its target value. -/
theorem C73_cost {s x u x' u' : Vec realFmt} {k : TrimConst realFmt} {model : String} {adj : Bool} {cost : Fl realFmt} {out : SubOut realFmt}
    {n : ℕ} {d : List ℝ} {vt sg tr td : ℝ} (hk : k.orient = .fin n) (hg : k.singam = .fin sg) (ht : k.tr = .fin tr) (hd : k.thetadot = .fin td)
    (hv : x[0]? = some (.fin vt)) (h : clf16 s x u k model adj = .ok (cost, x', u')) (ho : subf16 x' u' model adj = .ok out)
    (hr : out.xd = toVec d) :
    ∃ c, cost = .fin c ∧ 0 ≤ c ∧ (c = 0 ↔ Trimmed n d vt sg tr td) := by
  have hx0 : x'[0]? = some (.fin vt) := ((C73_candidate h).2.2.2.2.2.2.2 0 (by simp)).trans hv
  obtain ⟨gamm, y, v, y', u0, out', vt', r, hgam, -, -, -, -, ho', hvt, hcost, rfl⟩ := clf16_ok h
  rw [ho] at ho'
  cases ho'
  have := (getIdx_lt hvt).2
  rw [hx0] at this
  cases this
  rw [hr] at hcost
  unfold trimCost at hcost
  simp only [Except.bind_ok] at hcost
  obtain ⟨d0, g0, d1, g1, d2, g2, d4, g4, d5, g5, d6, g6, d7, g7, d8, g8, d11, g11, hcost⟩ := hcost
  obtain rfl := getIdx_toVec g0; obtain rfl := getIdx_toVec g1; obtain rfl := getIdx_toVec g2; obtain rfl := getIdx_toVec g4
  obtain rfl := getIdx_toVec g5; obtain rfl := getIdx_toVec g6; obtain rfl := getIdx_toVec g7; obtain rfl := getIdx_toVec g8
  obtain rfl := getIdx_toVec g11
  clear g0 g1 g2 g4 g5 g6 g7 g8 g11
  have hn : ∀ m : ℕ, k.orient = OfNat.ofNat m → n = m := fun m e => by
    rw [hk, Fl.ofNat_fin] at e
    simpa using e
  unfold Trimmed Steady
  generalize d.getD 0 0 = d0 at *; generalize d.getD 1 0 = d1 at *; generalize d.getD 2 0 = d2 at *; generalize d.getD 4 0 = d4 at *
  generalize d.getD 5 0 = d5 at *; generalize d.getD 6 0 = d6 at *; generalize d.getD 7 0 = d7 at *; generalize d.getD 8 0 = d8 at *
  generalize d.getD 11 0 = d11 at *
  rcases orient_cases k with hor | hor | hor | hor | ⟨e1, e2, e3, e4⟩
  · obtain ⟨e1, e2, e3, e4⟩ := eqb_orient (n := 1) hor
    obtain rfl := hn 1 hor
    rw [e1] at hcost
    simp only [decide_true, if_true, sci_fin, powNat_fin, Fl.fin_add_fin, Fl.fin_mul_fin] at hcost
    cases hcost
    have q := sq6 (a := d0) (b := d1) (c := d2) (d := d6) (e := d7) (f := d8) (v := 100) (w := 100) (z := 100) (by norm_num) (by norm_num) (by norm_num)
    have e : (100.0 : ℝ) * (d0 ^ 2 + d1 ^ 2 + d2 ^ 2 + d6 ^ 2 + d7 ^ 2 + d8 ^ 2) =
      100 * d0 ^ 2 + 100 * (d1 ^ 2 + d2 ^ 2) + 100 * (d6 ^ 2 + d7 ^ 2 + d8 ^ 2) := by norm_num; ring
    rw [e]
    obtain ⟨c, h1, h2, h3⟩ := cost_real q.1
    exact ⟨c, h1, h2, by rw [h3, q.2]; simp⟩
  · obtain ⟨e1, e2, e3, e4⟩ := eqb_orient (n := 2) hor
    obtain rfl := hn 2 hor
    have hgam' : gamm = .fin (arcsin sg) ∧ -1 ≤ sg ∧ sg ≤ 1 := by
      rw [hg] at hgam
      unfold mathAsin at hgam
      simp only at hgam
      split_ifs at hgam with hh
      simp only [not_or, not_lt] at hh
      cases hgam
      exact ⟨rfl, hh.1, hh.2⟩
    obtain ⟨rfl, hs1, hs2⟩ := hgam'
    have hsin : mathSin (.fin (arcsin sg) : Fl realFmt) = .ok (.fin sg) := by
      change Except.ok (Fl.fin (sin (arcsin sg))) = _
      rw [sin_arcsin hs1 hs2]
    rw [e1, e2] at hcost
    simp only [decide_true, decide_false, OfNat.ofNat_ne_one, Bool.false_eq_true, if_false, if_true, sci_fin, powNat_fin, Fl.fin_add_fin, Fl.fin_mul_fin, Fl.fin_sub_fin, hsin, bind, Except.bind] at hcost
    cases hcost
    have q := sq6 (a := d0) (b := d1) (c := d2) (d := d6) (e := d7) (f := d8) (v := 1) (w := 100) (z := 10) (by norm_num) (by norm_num) (by norm_num)
    have q' : 0 ≤ 500 * (d11 - vt * sg) ^ 2 := by positivity
    have e : (500.0 : ℝ) * (d11 - vt * sg) ^ 2 + d0 ^ 2 + 100.0 * (d1 ^ 2 + d2 ^ 2) + 10.0 * (d6 ^ 2 + d7 ^ 2 + d8 ^ 2) =
      500 * (d11 - vt * sg) ^ 2 + (1 * d0 ^ 2 + 100 * (d1 ^ 2 + d2 ^ 2) + 10 * (d6 ^ 2 + d7 ^ 2 + d8 ^ 2)) := by norm_num; ring
    rw [e]
    obtain ⟨c, h1, h2, h3⟩ := cost_real (add_nonneg q' q.1)
    refine ⟨c, h1, h2, ?_⟩
    rw [h3, add_zero_iff q' q.1, q.2]
    simp [sub_eq_zero, and_comm]
  · obtain ⟨e1, e2, e3, e4⟩ := eqb_orient (n := 3) hor
    obtain rfl := hn 3 hor
    rw [e1, e2, e3, ht] at hcost
    simp only [decide_true, decide_false, OfNat.ofNat_ne_one, Nat.reduceEqDiff, Bool.false_eq_true, if_false, if_true, sci_fin, powNat_fin, Fl.fin_add_fin, Fl.fin_mul_fin, Fl.fin_sub_fin] at hcost
    cases hcost
    have q := sq6 (a := d0) (b := d1) (c := d2) (d := d6) (e := d7) (f := d8) (v := 1) (w := 100) (z := 10) (by norm_num) (by norm_num) (by norm_num)
    have q' : 0 ≤ 500 * (d5 - tr) ^ 2 := by positivity
    have q'' : 0 ≤ 100 * d11 ^ 2 := by positivity
    have e : d0 * d0 + 100.0 * (d1 * d1 + d2 * d2 + d11 * d11) + 10.0 * (d6 * d6 + d7 * d7 + d8 * d8) + 500.0 * (d5 - tr) ^ 2 =
      100 * d11 ^ 2 + 500 * (d5 - tr) ^ 2 + (1 * d0 ^ 2 + 100 * (d1 ^ 2 + d2 ^ 2) + 10 * (d6 ^ 2 + d7 ^ 2 + d8 ^ 2)) := by norm_num; ring
    rw [e]
    obtain ⟨c, h1, h2, h3⟩ := cost_real (add_nonneg (add_nonneg q'' q') q.1)
    refine ⟨c, h1, h2, ?_⟩
    rw [h3, add_zero_iff (add_nonneg q'' q') q.1, add_zero_iff q'' q', q.2]
    simp [sub_eq_zero, and_comm]
  · obtain ⟨e1, e2, e3, e4⟩ := eqb_orient (n := 4) hor
    obtain rfl := hn 4 hor
    rw [e1, e2, e3, e4, hd] at hcost
    simp only [decide_true, decide_false, OfNat.ofNat_ne_one, Nat.reduceEqDiff, Bool.false_eq_true, if_false, if_true, sci_fin, powNat_fin, Fl.fin_add_fin, Fl.fin_mul_fin, Fl.fin_sub_fin] at hcost
    cases hcost
    have q := sq6 (a := d0) (b := d1) (c := d2) (d := d6) (e := d7) (f := d8) (v := 1) (w := 100) (z := 10) (by norm_num) (by norm_num) (by norm_num)
    have q' : 0 ≤ 500 * (d4 - td) ^ 2 := by positivity
    have e : (500.0 : ℝ) * (d4 - td) ^ 2 + d0 ^ 2 + 100.0 * (d1 ^ 2 + d2 ^ 2) + 10.0 * (d6 ^ 2 + d7 ^ 2 + d8 ^ 2) =
      500 * (d4 - td) ^ 2 + (1 * d0 ^ 2 + 100 * (d1 ^ 2 + d2 ^ 2) + 10 * (d6 ^ 2 + d7 ^ 2 + d8 ^ 2)) := by norm_num; ring
    rw [e]
    obtain ⟨c, h1, h2, h3⟩ := cost_real (add_nonneg q' q.1)
    refine ⟨c, h1, h2, ?_⟩
    rw [h3, add_zero_iff q' q.1, q.2]
    simp [sub_eq_zero, and_comm]
  · rw [e1, e2, e3, e4] at hcost
    simp at hcost

variable {s : Flight ℝ} {c : Controls ℝ} {k : TrimConst realFmt} {x' u' : Vec realFmt}

/-- the rates after the constraints: the engine is at its commanded power -/
theorem constrained_rates (m : AeroModel) (adj : Bool) (s' : Flight ℝ) (h : Flyable s') (hp : tgear (.fin c.thtl : Fl realFmt) = .fin s'.power) :
    ∃ out, subf16 (toVec s'.toList : Vec realFmt) (toVec c.toList) m.name adj = .ok out ∧ out.xd = toVec (kRates m s' c adj 0).xd := by
  obtain ⟨pd, hpd, e⟩ := subf16_real m s' c adj h
  rw [hp] at hpd
  obtain ⟨d, hd, hz, -⟩ := C62_towards (R := realFmt) s'.power s'.power
  rw [hd] at hpd
  cases hpd
  rw [hz rfl] at e
  exact ⟨_, e, rfl⟩

/-- In a coordinated turn the constraints leave bank and pitch constant, the heading turning at the given rate and the engine steady. -/
theorem C73_turn (m : AeroModel) (adj : Bool) (tr : ℝ) (hf : Flyable s) (ho : k.orient = 3) (ht : k.tr = .fin tr)
    (h : conf16 (toVec s.toList) (toVec c.toList) k = .ok (x', u')) :
    ∃ out d, subf16 x' u' m.name adj = .ok out ∧ out.xd = toVec d ∧ d.getD 3 0 = 0 ∧ d.getD 4 0 = 0 ∧ d.getD 5 0 = tr ∧ d.getD 12 0 = 0 := by
  rw [toVec_flight, toVec_controls, conf16_turn _ _ _ _ _ _ _ _ _ _ _ _ _ _ _ _ _ ho, ht] at h
  have hg := tgear_fin (R := realFmt) c.thtl
  generalize (if c.thtl ≤ 0.77 then (64.94 : ℝ) * c.thtl else 217.38 * c.thtl - 117.38) = g at hg
  simp only [mathSin, mathCos, bind, Except.bind, hg, Fl.neg_fin, Fl.fin_mul_fin] at h
  cases h
  obtain ⟨out, e, hr⟩ := constrained_rates (c := c) m adj
    { s with p := -tr * sin s.theta, q := tr * cos s.theta * sin s.phi, r := tr * cos s.theta * cos s.phi, power := g }
    ⟨hf.moving, hf.forward, hf.tilted, hf.air⟩ hg
  refine ⟨out, _, e, hr, ?_, ?_, ?_, rfl⟩
  · change -tr * sin s.theta + sin s.theta / cos s.theta * (tr * cos s.theta * sin s.phi * sin s.phi + tr * cos s.theta * cos s.phi * cos s.phi) = 0
    have := hf.tilted
    field_simp
    linear_combination tr * sin s.theta * sin_sq_add_cos_sq s.phi
  · change tr * cos s.theta * sin s.phi * cos s.phi - tr * cos s.theta * cos s.phi * sin s.phi = 0
    ring
  · change (tr * cos s.theta * sin s.phi * sin s.phi + tr * cos s.theta * cos s.phi * cos s.phi) / cos s.theta = tr
    have := hf.tilted
    field_simp
    linear_combination tr * sin_sq_add_cos_sq s.phi

/-- the altitude rate without sideslip and bank -/
theorem altitude_rate (m : AeroModel) (adj : Bool) (pd : ℝ) (s' : Flight ℝ) (hb : s'.beta = 0) (hp : s'.phi = 0) :
    (kRates m s' c adj pd).xd.getD 11 0 = s'.vt * sin (s'.theta - s'.alpha) := by
  change s'.vt * cos s'.alpha * cos s'.beta * sin s'.theta - s'.vt * sin s'.beta * (sin s'.phi * cos s'.theta) -
    s'.vt * sin s'.alpha * cos s'.beta * (cos s'.phi * cos s'.theta) = _
  rw [hb, hp, sin_sub]
  simp
  ring

/-- In level flight without sideslip or bank the constrained state keeps its altitude, whatever the angle of attack, and the engine is steady. -/
theorem C73_level (m : AeroModel) (adj : Bool) (rr pr : ℝ) (hv : s.vt ≠ 0) (hb : s.beta = 0) (ha : cos s.alpha ≠ 0) (hair : 0.703e-5 * s.alt < 1)
    (ho : k.orient = 1) (hphi : k.phi = .fin 0) (hrr : k.rr = .fin rr) (hpr : k.pr = .fin pr)
    (h : conf16 (toVec s.toList) (toVec c.toList) k = .ok (x', u')) :
    ∃ out d, subf16 x' u' m.name adj = .ok out ∧ out.xd = toVec d ∧ d.getD 11 0 = 0 ∧ d.getD 12 0 = 0 := by
  rw [toVec_flight, toVec_controls, conf16_level _ _ _ _ _ _ _ _ _ _ _ _ _ _ _ _ _ ho, hphi, hrr, hpr] at h
  have hg := tgear_fin (R := realFmt) c.thtl
  generalize (if c.thtl ≤ 0.77 then (64.94 : ℝ) * c.thtl else 217.38 * c.thtl - 117.38) = g at hg
  simp only [hg, sci_fin] at h
  cases h
  obtain ⟨out, e, hr⟩ := constrained_rates (c := c) m adj
    { s with phi := 0, theta := s.alpha, p := rr, q := pr, r := 0.0, power := g } ⟨hv, by simp [hb], ha, hair⟩ hg
  refine ⟨out, _, e, hr, ?_, rfl⟩
  exact (altitude_rate m adj 0 _ (by exact hb) (by rfl)).trans (by simp)

/-- In a climb without sideslip or bank the altitude rate is airspeed times the sine of the flight-path angle. -/
theorem C73_climb (m : AeroModel) (adj : Bool) (rr pr gamma : ℝ) (hv : s.vt ≠ 0) (hb : s.beta = 0) (ha : cos (s.alpha + gamma) ≠ 0)
    (hair : 0.703e-5 * s.alt < 1) (ho : k.orient = 2) (hphi : k.phi = .fin 0) (hrr : k.rr = .fin rr) (hpr : k.pr = .fin pr)
    (hgm : k.radgam = .fin gamma) (h : conf16 (toVec s.toList) (toVec c.toList) k = .ok (x', u')) :
    ∃ out d, subf16 x' u' m.name adj = .ok out ∧ out.xd = toVec d ∧ d.getD 11 0 = s.vt * sin gamma ∧ d.getD 12 0 = 0 := by
  rw [toVec_flight, toVec_controls, conf16_climb _ _ _ _ _ _ _ _ _ _ _ _ _ _ _ _ _ ho, hphi, hrr, hpr, hgm] at h
  have hg := tgear_fin (R := realFmt) c.thtl
  generalize (if c.thtl ≤ 0.77 then (64.94 : ℝ) * c.thtl else 217.38 * c.thtl - 117.38) = g at hg
  simp only [hg, sci_fin, Fl.fin_add_fin] at h
  cases h
  obtain ⟨out, e, hr⟩ := constrained_rates (c := c) m adj
    { s with phi := 0, theta := s.alpha + gamma, p := rr, q := pr, r := 0.0, power := g } ⟨hv, by simp [hb], ha, hair⟩ hg
  refine ⟨out, _, e, hr, ?_, rfl⟩
  exact (altitude_rate m adj 0 _ (by exact hb) (by rfl)).trans (by simp)

/-- In a pull-up without bank the pitch changes at the given rate; without sideslip the flight path starts level. -/
theorem C73_pull_up (m : AeroModel) (adj : Bool) (rr td : ℝ) (hv : s.vt ≠ 0) (hb : cos s.beta ≠ 0) (ha : cos s.alpha ≠ 0)
    (hair : 0.703e-5 * s.alt < 1) (ho : k.orient = 4) (hphi : k.phi = .fin 0) (hrr : k.rr = .fin rr) (htd : k.thetadot = .fin td)
    (h : conf16 (toVec s.toList) (toVec c.toList) k = .ok (x', u')) :
    ∃ out d, subf16 x' u' m.name adj = .ok out ∧ out.xd = toVec d ∧ d.getD 4 0 = td ∧ (s.beta = 0 → d.getD 11 0 = 0) ∧ d.getD 12 0 = 0 := by
  rw [toVec_flight, toVec_controls, conf16_pullUp _ _ _ _ _ _ _ _ _ _ _ _ _ _ _ _ _ ho, hphi, hrr, htd] at h
  have hg := tgear_fin (R := realFmt) c.thtl
  generalize (if c.thtl ≤ 0.77 then (64.94 : ℝ) * c.thtl else 217.38 * c.thtl - 117.38) = g at hg
  simp only [hg, sci_fin] at h
  cases h
  obtain ⟨out, e, hr⟩ := constrained_rates (c := c) m adj
    { s with phi := 0, theta := s.alpha, p := rr, q := td, r := 0.0, power := g } ⟨hv, hb, ha, hair⟩ hg
  refine ⟨out, _, e, hr, ?_, fun hb => ?_, rfl⟩
  · change td * cos 0 - 0.0 * sin 0 = td
    simp
  · exact (altitude_rate m adj 0 _ (by exact hb) (by rfl)).trans (by simp)

/-- constants of a coordinated turn at 0.1 rad/s, of level flight, of a climb and of a pull-up -/
noncomputable def demoConst (orient : Fl realFmt) : TrimConst realFmt :=
  ⟨.fin 0.1, .fin 0.1, .fin 0, .fin 0, .fin 0.1, .fin 0, .fin 1, .fin 0, .fin 0.2, .fin 0, .fin 0, orient⟩

example : ∃ x' u', conf16 (toVec turning.toList) (toVec [0.2, -1, 0, 0]) (demoConst 3) = .ok (x', u') ∧ x' ≠ toVec turning.toList := by
  refine ⟨_, _, (conf16_turn _ _ _ _ _ _ _ _ _ _ _ _ _ _ _ _ _ rfl), fun h => ?_⟩
  rw [toVec_flight, List.cons.injEq] at h
  simp only [List.cons.injEq] at h
  obtain ⟨-, -, -, -, -, -, h, -⟩ := h
  rw [turning, demoConst] at h
  simp only [Fl.neg_fin, Fl.fin_mul_fin, Fl.fin.injEq] at h
  have : 0 < sin (0.1 : ℝ) := sin_pos_of_pos_of_lt_pi (by norm_num) (by linarith [pi_gt_three])
  change -0.1 * sin 0.1 = (0.1 : ℝ) at h
  linarith

theorem level_cost (h : Fl.eqb k.orient 1 = true) (g v : Fl realFmt) (o : KOut ℝ) : ∃ r, trimCost k g v (toVec o.xd) = .ok (some r) := by
  unfold trimCost
  rw [h]
  exact ⟨_, rfl⟩

/-- an evaluation of the cost in level flight that succeeds -/
example : ∃ cost x' u' out d, clf16 [.fin 0.2, .fin (-1), .fin 0.05] (toVec cruise.toList) (toVec [0, 0, 0, 0]) (demoConst 1) "morelli" true =
      .ok (cost, x', u') ∧ subf16 x' u' "morelli" true = .ok out ∧ out.xd = toVec d := by
  obtain ⟨out, e, hr⟩ := constrained_rates (c := ⟨0.2, -1, 0, 0⟩) .morelli true
    { cruise with alpha := 0.05, phi := 0, theta := 0.05, p := 0, q := 0, r := 0.0, power := 64.94 * 0.2 }
    ⟨cruise_flyable.moving, cruise_flyable.forward, (cos_pos_of_small (x := 0.05) (by norm_num) (by norm_num)).ne', cruise_flyable.air⟩
    (by rw [tgear_fin]; norm_num)
  have hg : tgear (.fin 0.2 : Fl realFmt) = .fin (64.94 * 0.2) := by rw [tgear_fin]; norm_num
  have hc : conf16 ((toVec { cruise with alpha := 0.05 }.toList).set 12 (.fin (64.94 * 0.2)) : Vec realFmt) (toVec [0.2, -1, 0, 0]) (demoConst 1) =
      .ok (toVec { cruise with alpha := 0.05, phi := 0, theta := 0.05, p := 0, q := 0, r := 0.0, power := 64.94 * 0.2 }.toList,
        toVec [0.2, -1, 0, 0]) := by
    refine (conf16_level _ _ _ _ _ _ _ _ _ _ _ _ _ _ _ _ _ rfl).trans ?_
    rw [hg, sci_fin]; rfl
  have ha : mathAsin (demoConst 1).singam = .ok (.fin (arcsin 0.1)) := by
    change (if (0.1 : ℝ) < -1 ∨ 1 < (0.1 : ℝ) then _ else _) = _
    rw [if_neg (by norm_num)]; rfl
  obtain ⟨h1, h2, h3, h4⟩ := eqb_orient (k := demoConst 1) (n := 1) rfl
  obtain ⟨r, hcost⟩ : ∃ r, trimCost (demoConst 1) (.fin (arcsin 0.1)) (.fin cruise.vt) out.xd = .ok (some r) := by
    rw [hr]
    exact level_cost h1 _ _ _
  refine ⟨_, _, _, out, _, clf16_intro ha (y := toVec { cruise with alpha := 0.05 }.toList) (v := toVec [0.2, -1, 0, 0]) rfl (u0 := .fin 0.2) rfl
    (by rw [hg]; rfl) hc e rfl hcost, e, hr⟩

end

end SAD.Aero
