import Verif.Props.Dubins

/-! # C53: equality of entities -/

set_option linter.unusedSectionVars false

namespace SAD
open Spec

section
variable {K : Type} {R : Fmt K} [Field K] [LinearOrder K]

theorem eqb_comm (a b : Fl R) : Fl.eqb a b = Fl.eqb b a := by
  cases a <;> cases b <;> simp [Fl.eqb, eq_comm]

theorem eqb_eq {a b : Fl R} (h : Fl.eqb a b = true) : a = b := by
  cases a <;> cases b <;> simp_all [Fl.eqb]

theorem eqb_self (a : Fl R) : Fl.eqb a a = true ↔ a ≠ .nan := by
  cases a <;> simp [Fl.eqb]

theorem zipWith_eqb_comm : ∀ a b : Vec R, List.zipWith Fl.eqb a b = List.zipWith Fl.eqb b a
  | [], [] => rfl
  | [], _ :: _ => rfl
  | _ :: _, [] => rfl
  | x :: a, y :: b => by simp [eqb_comm x y, zipWith_eqb_comm a b]

theorem allEq_comm (a b : Vec R) : allEq a b = allEq b a := by
  unfold allEq bcast2
  by_cases h : a.length = b.length
  · rw [if_pos h, if_pos h.symm, zipWith_eqb_comm]
  · rw [if_neg h, if_neg (fun g => h g.symm)]
    match a, b, h with
    | [x], [y], h => simp at h
    | [x], [], h => rfl
    | [x], y :: z :: l, h => simp only [show (Fl.eqb x) = fun v => Fl.eqb v x from funext (eqb_comm x)]
    | [], [y], h => rfl
    | x :: z :: l, [y], h => simp only [show (Fl.eqb y) = fun v => Fl.eqb v y from funext (eqb_comm y)]
    | [], [], h => simp at h
    | [], y :: z :: l, h => rfl
    | x :: z :: l, [], h => rfl
    | x :: z :: l, y :: z' :: l', h => rfl

theorem allEq_true {a b : Vec R} (hl : a.length = b.length) (h : allEq a b = .ok true) : a = b := by
  unfold allEq bcast2 at h
  rw [if_pos hl] at h
  simp only [Except.ok.injEq] at h
  induction a generalizing b with
  | nil => cases b <;> simp_all
  | cons x a ih =>
    cases b with
    | nil => simp at hl
    | cons y b =>
      simp only [List.zipWith_cons_cons, List.all_cons, id_eq, Bool.and_eq_true] at h
      rw [eqb_eq h.1, ih (by simpa using hl) h.2]

theorem allEq_self (a : Vec R) : allEq a a = .ok true ↔ ∀ x ∈ a, x ≠ .nan := by
  unfold allEq bcast2
  rw [if_pos rfl]
  simp only [Except.ok.injEq]
  induction a with
  | nil => simp
  | cons x a ih => simp [ih, eqb_self]

/-- comparison of attributes one after the other, stopping at the first difference -/
def chainEq : List (Entity R → Py (Vec R)) → Entity R → Entity R → Py Bool
  | [], _, _ => .ok true
  | g :: gs, e, e' => do
    if ← allEq (← g e) (← g e') then chainEq gs e e' else pure false

theorem chainEq_symm (gs : List (Entity R → Py (Vec R))) (e e' : Entity R) (b : Bool) (h : chainEq gs e e' = .ok b) :
    chainEq gs e' e = .ok b := by
  induction gs with
  | nil => exact h
  | cons g gs ih =>
    unfold chainEq at h ⊢
    cases h1 : g e with
    | error x => simp [h1, bind, Except.bind] at h
    | ok v =>
      cases h2 : g e' with
      | error x => simp [h1, h2, bind, Except.bind] at h
      | ok w =>
        simp only [h1, h2, bind, Except.bind, allEq_comm w v] at h ⊢
        cases h3 : allEq v w with
        | error x => simp [h3] at h
        | ok c =>
          simp only [h3] at h ⊢
          cases c with
          | true => exact ih h
          | false => exact h

theorem chainEq_true {gs : List (Entity R → Py (Vec R))} {e e' : Entity R} :
    chainEq gs e e' = .ok true ↔ ∀ g ∈ gs, ∃ v w, g e = .ok v ∧ g e' = .ok w ∧ allEq v w = .ok true := by
  induction gs with
  | nil => simp [chainEq]
  | cons g gs ih =>
    simp only [List.mem_cons, forall_eq_or_imp, ← ih]
    rw [chainEq]
    cases h1 : g e with
    | error x => simp [bind, Except.bind]
    | ok v =>
      cases h2 : g e' with
      | error x => simp [bind, Except.bind]
      | ok w =>
        simp only [bind, Except.bind, Except.ok.injEq, exists_eq_left']
        cases h3 : allEq v w with
        | error x => simp [h3]
        | ok c => cases c <;> simp [h3, pure, Except.pure]

theorem chainEq_self {gs : List (Entity R → Py (Vec R))} {e : Entity R} :
    chainEq gs e e = .ok true ↔ ∀ g ∈ gs, ∃ v, g e = .ok v ∧ ∀ x ∈ v, x ≠ .nan := by
  rw [chainEq_true]
  refine forall₂_congr fun g _ => ⟨?_, ?_⟩
  · rintro ⟨v, w, h1, h2, h3⟩
    rw [h1] at h2
    cases h2
    exact ⟨v, h1, (allEq_self v).1 h3⟩
  · rintro ⟨v, h1, h3⟩
    exact ⟨v, v, h1, h1, (allEq_self v).2 h3⟩

/-- the attributes compared by each class -/
def CraftKind.attrs (k : CraftKind) (ident : Vec R) (euler : EulerRoundTrip R) : List (Entity R → Py (Vec R)) :=
  match k with
  | .cwh => [k.velocity, k.position, fun _ => .ok ident]
  | .rot2d => [k.velocity, k.position, rot2dQuaternion, rot2dAngularVelocity]
  | .sixDof => [k.velocity, k.position, sixDofQuaternion, fun e => .ok (sixDofAngularVelocity e)]
  | .dubins2d => [k.velocity, k.position, dubins2dAcceleration, fun e => do pure (euler (← getIdx e.state 2) 0 0),
      fun e => do pure [← getIdx e.state 2]]
  | .dubins3d => [k.velocity, k.position, dubins3dAcceleration,
      fun e => do pure (euler (← getIdx e.state 3) (← getIdx e.state 4) (← getIdx e.state 5)),
      fun e => do pure [← getIdx e.state 3], fun e => do pure [← getIdx e.state 5], fun e => do pure [← getIdx e.state 4],
      fun e => do pure [← getIdx e.state 6]]

theorem allEq_single (a b : Fl R) : allEq [a] [b] = .ok (Fl.eqb a b) := by simp [allEq, bcast2]

theorem if_ok_eta (x : Py Bool) : (do if ← x then (.ok true : Py Bool) else pure false) = x := by
  cases x with
  | error e => rfl
  | ok b => cases b <;> rfl

theorem okBind {α β : Type} (a : α) (f : α → Py β) : (Except.ok a >>= f) = f a := rfl
theorem ite_ok (b : Bool) : (if b = true then (.ok true : Py Bool) else pure false) = pure b := by cases b <;> rfl

theorem craft_eq (k : CraftKind) (ident : Vec R) (euler : EulerRoundTrip R) (e e' : Entity R) :
    k.eq ident euler e (some e') = chainEq (CraftKind.attrs k ident euler) e e' := by
  cases k with
  | cwh => simp only [CraftKind.eq, cwhEq, CraftKind.attrs, chainEq, CraftKind.velocity, CraftKind.position, if_ok_eta]; rfl
  | rot2d =>
    simp only [CraftKind.eq, rot2dEq, CraftKind.attrs, chainEq, CraftKind.velocity, CraftKind.position, if_ok_eta]
  | sixDof =>
    simp only [CraftKind.eq, sixDofEq, CraftKind.attrs, chainEq, CraftKind.velocity, CraftKind.position, if_ok_eta]
    rfl
  | dubins2d =>
    simp only [CraftKind.eq, dubins2dEq, CraftKind.attrs, chainEq, CraftKind.velocity, CraftKind.position, bind_assoc, pure_bind, allEq_single,
      okBind, ite_ok]
  | dubins3d => 
    simp only [CraftKind.eq, dubins3dEq, CraftKind.attrs, chainEq, CraftKind.velocity, CraftKind.position, bind_assoc, pure_bind, allEq_single,
      okBind, ite_ok]


/-- Symmetry, in every class and on every pair of entities: `a == b` returns what `b == a` returns (and raises when it does). -/
theorem C53_symmetric (k : CraftKind) (ident : Vec R) (euler : EulerRoundTrip R) (e e' : Entity R) (b : Bool) :
    k.eq ident euler e (some e') = .ok b ↔ k.eq ident euler e' (some e) = .ok b := by
  rw [craft_eq, craft_eq]
  exact ⟨chainEq_symm _ _ _ _, chainEq_symm _ _ _ _⟩

/-- An object of another class is never equal. -/
theorem C53_other_class (k : CraftKind) (ident : Vec R) (euler : EulerRoundTrip R) (e : Entity R) : k.eq ident euler e none = .ok false := by
  cases k <;> rfl

theorem velocity_mem (k : CraftKind) (ident : Vec R) (euler : EulerRoundTrip R) :
    k.velocity ∈ CraftKind.attrs k ident euler ∧ k.position ∈ CraftKind.attrs k ident euler := by cases k <;> simp [CraftKind.attrs]

/-- lengths of the reported vectors depend on the length of the state only -/
theorem position_length (k : CraftKind) {e e' : Entity R} (hl : e.state.length = e'.state.length) {v w : Vec R} :
    (k.position e = .ok v → k.position e' = .ok w → v.length = w.length) ∧
    (k.velocity e = .ok v → k.velocity e' = .ok w → v.length = w.length) := by
  have pure_len : ∀ {x : Py (Vec R)} {v : Vec R} (n : Nat), (∀ y, x = .ok y → y.length = n) → x = .ok v → v.length = n := fun n h g => h _ g
  have r1 : ∀ (i j : Nat) (e : Entity R) (v : Vec R), (do pure [← getIdx e.state i, ← getIdx e.state j, 0] : Py (Vec R)) = .ok v → v.length = 3 := by
    intro i j e v h
    obtain ⟨a, -, h⟩ := Except.bind_ok.1 h
    obtain ⟨b, -, h⟩ := Except.bind_ok.1 h
    cases h; rfl
  have r2 : ∀ (e : Entity R) (v : Vec R), dubins2dVelocity e = .ok v → v.length = 3 := by
    intro e v h
    obtain ⟨a, -, h⟩ := Except.bind_ok.1 h
    obtain ⟨b, -, h⟩ := Except.bind_ok.1 h
    cases h; rfl
  have r3 : ∀ (e : Entity R) (v : Vec R), dubins3dVelocity e = .ok v → v.length = 3 := by
    intro e v h
    obtain ⟨a, -, h⟩ := Except.bind_ok.1 h
    obtain ⟨b, -, h⟩ := Except.bind_ok.1 h
    obtain ⟨c, -, h⟩ := Except.bind_ok.1 h
    cases h; rfl
  cases k with
  | cwh => exact ⟨fun h h' => by cases h; cases h'; simp [cwhPosition, hl], fun h h' => by cases h; cases h'; simp [cwhVelocity, hl]⟩
  | rot2d => exact ⟨fun h h' => (r1 _ _ _ _ h).trans (r1 _ _ _ _ h').symm, fun h h' => (r1 _ _ _ _ h).trans (r1 _ _ _ _ h').symm⟩
  | sixDof => exact ⟨fun h h' => by cases h; cases h'; simp [sixDofPosition, hl], fun h h' => by cases h; cases h'; simp [sixDofVelocity, hl]⟩
  | dubins2d => exact ⟨fun h h' => (r1 _ _ _ _ h).trans (r1 _ _ _ _ h').symm, fun h h' => (r2 _ _ h).trans (r2 _ _ h').symm⟩
  | dubins3d => exact ⟨fun h h' => by cases h; cases h'; simp [dubins3dPosition, hl], fun h h' => (r3 _ _ h).trans (r3 _ _ h').symm⟩

/-- Equal entities (with states of the same length) report the same position and the same velocity, none of them NaN. -/
theorem C53_implies_position_velocity (k : CraftKind) (ident : Vec R) (euler : EulerRoundTrip R) (e e' : Entity R)
    (hl : e.state.length = e'.state.length) (h : k.eq ident euler e (some e') = .ok true) :
    ∃ p v : Vec R, k.position e = .ok p ∧ k.position e' = .ok p ∧ k.velocity e = .ok v ∧ k.velocity e' = .ok v ∧
      (∀ x ∈ p, x ≠ .nan) ∧ ∀ x ∈ v, x ≠ .nan := by
  rw [craft_eq, chainEq_true] at h
  obtain ⟨v, v', h1, h2, h3⟩ := h _ (velocity_mem k ident euler).1
  obtain ⟨p, p', g1, g2, g3⟩ := h _ (velocity_mem k ident euler).2
  obtain rfl := allEq_true ((position_length k hl).2 h1 h2) h3
  obtain rfl := allEq_true ((position_length k hl).1 g1 g2) g3
  exact ⟨p, v, g1, g2, h1, h2, (allEq_self p).1 g3, (allEq_self v).1 h3⟩

theorem dubinsAcceleration_length (acc v : Fl R) (vel : Vec R) : (dubinsAcceleration acc v vel).length = vel.length := by
  unfold dubinsAcceleration scalarOp
  cases v.fits32 <;> cases acc.fits32 <;> simp

theorem attrs_length (k : CraftKind) (ident : Vec R) (euler : EulerRoundTrip R) (heuler : ∀ a b c, (euler a b c).length = 3)
    {e e' : Entity R} (hl : e.state.length = e'.state.length) (g : Entity R → Py (Vec R)) (hg : g ∈ CraftKind.attrs k ident euler) {v w : Vec R}
    (h1 : g e = .ok v) (h2 : g e' = .ok w) : v.length = w.length := by
  have hv := fun h1 h2 => (position_length k hl (v := v) (w := w)).2 h1 h2
  have hp := fun h1 h2 => (position_length k hl (v := v) (w := w)).1 h1 h2
  have q1 : ∀ (e : Entity R) (v : Vec R) (i : Nat), (do pure [← getIdx e.state i] : Py (Vec R)) = .ok v → v.length = 1 := by
    intro e v i h
    obtain ⟨a, -, h⟩ := Except.bind_ok.1 h
    cases h; rfl
  have q2 : ∀ (e : Entity R) (v : Vec R), dubins2dAcceleration e = .ok v → v.length = 3 := by
    intro e v h
    obtain ⟨a, -, h⟩ := Except.bind_ok.1 h
    obtain ⟨b, -, h⟩ := Except.bind_ok.1 h
    obtain ⟨c, hc, h⟩ := Except.bind_ok.1 h
    obtain ⟨a, -, hc⟩ := Except.bind_ok.1 hc
    obtain ⟨b, -, hc⟩ := Except.bind_ok.1 hc
    cases hc; cases h; exact (dubinsAcceleration_length _ _ _).trans rfl
  have q3 : ∀ (e : Entity R) (v : Vec R), dubins3dAcceleration e = .ok v → v.length = 3 := by
    intro e v h
    obtain ⟨a, -, h⟩ := Except.bind_ok.1 h
    obtain ⟨b, -, h⟩ := Except.bind_ok.1 h
    obtain ⟨c, hc, h⟩ := Except.bind_ok.1 h
    obtain ⟨a, -, hc⟩ := Except.bind_ok.1 hc
    obtain ⟨b, -, hc⟩ := Except.bind_ok.1 hc
    obtain ⟨b, -, hc⟩ := Except.bind_ok.1 hc
    cases hc; cases h; exact (dubinsAcceleration_length _ _ _).trans rfl
  have q4 : ∀ (e : Entity R) (v : Vec R), sixDofQuaternion e = .ok v → v.length = 4 := by
    intro e v h
    unfold sixDofQuaternion at h
    split at h
    · simp only at h
      split at h
      · cases h
      · cases h; rfl
    · cases h
  cases k with
  | cwh =>
    simp only [CraftKind.attrs, List.mem_cons, List.not_mem_nil, or_false] at hg
    rcases hg with rfl | rfl | rfl
    · exact hv h1 h2
    · exact hp h1 h2
    · cases h1; cases h2; rfl
  | rot2d =>
    simp only [CraftKind.attrs, List.mem_cons, List.not_mem_nil, or_false] at hg
    rcases hg with rfl | rfl | rfl | rfl
    · exact hv h1 h2
    · exact hp h1 h2
    · obtain ⟨a, -, h1⟩ := Except.bind_ok.1 h1
      obtain ⟨b, -, h2⟩ := Except.bind_ok.1 h2
      cases h1; cases h2; rfl
    · obtain ⟨a, -, h1⟩ := Except.bind_ok.1 h1
      obtain ⟨b, -, h2⟩ := Except.bind_ok.1 h2
      cases h1; cases h2; rfl
  | sixDof =>
    simp only [CraftKind.attrs, List.mem_cons, List.not_mem_nil, or_false] at hg
    rcases hg with rfl | rfl | rfl | rfl
    · exact hv h1 h2
    · exact hp h1 h2
    · exact (q4 _ _ h1).trans (q4 _ _ h2).symm
    · cases h1; cases h2; simp [sixDofAngularVelocity, hl]
  | dubins2d =>
    simp only [CraftKind.attrs, List.mem_cons, List.not_mem_nil, or_false] at hg
    rcases hg with rfl | rfl | rfl | rfl | rfl
    · exact hv h1 h2
    · exact hp h1 h2
    · exact (q2 _ _ h1).trans (q2 _ _ h2).symm
    · obtain ⟨a, -, h1⟩ := Except.bind_ok.1 h1
      obtain ⟨b, -, h2⟩ := Except.bind_ok.1 h2
      cases h1; cases h2; rw [heuler, heuler]
    · exact (q1 _ _ _ h1).trans (q1 _ _ _ h2).symm
  | dubins3d =>
    simp only [CraftKind.attrs, List.mem_cons, List.not_mem_nil, or_false] at hg
    rcases hg with rfl | rfl | rfl | rfl | rfl | rfl | rfl | rfl
    · exact hv h1 h2
    · exact hp h1 h2
    · exact (q3 _ _ h1).trans (q3 _ _ h2).symm
    · obtain ⟨a, -, h1⟩ := Except.bind_ok.1 h1
      obtain ⟨b, -, h1⟩ := Except.bind_ok.1 h1
      obtain ⟨c, -, h1⟩ := Except.bind_ok.1 h1
      obtain ⟨a', -, h2⟩ := Except.bind_ok.1 h2
      obtain ⟨b', -, h2⟩ := Except.bind_ok.1 h2
      obtain ⟨c', -, h2⟩ := Except.bind_ok.1 h2
      cases h1; cases h2; rw [heuler, heuler]
    · exact (q1 _ _ _ h1).trans (q1 _ _ _ h2).symm
    · exact (q1 _ _ _ h1).trans (q1 _ _ _ h2).symm
    · exact (q1 _ _ _ h1).trans (q1 _ _ _ h2).symm
    · exact (q1 _ _ _ h1).trans (q1 _ _ _ h2).symm

/-- Transitivity, on states of the same length (SciPy's `as_euler` returns three angles). -/
theorem C53_transitive (k : CraftKind) (ident : Vec R) (euler : EulerRoundTrip R) (heuler : ∀ a b c, (euler a b c).length = 3)
    (e1 e2 e3 : Entity R) (hl1 : e1.state.length = e2.state.length) (hl2 : e2.state.length = e3.state.length)
    (h12 : k.eq ident euler e1 (some e2) = .ok true) (h23 : k.eq ident euler e2 (some e3) = .ok true) :
    k.eq ident euler e1 (some e3) = .ok true := by
  rw [craft_eq, chainEq_true] at *
  intro g hg
  obtain ⟨v, w, a1, a2, a3⟩ := h12 g hg
  obtain ⟨w', z, b1, b2, b3⟩ := h23 g hg
  rw [a2] at b1
  cases b1
  obtain rfl := allEq_true (attrs_length k ident euler heuler hl1 g hg a1 a2) a3
  obtain rfl := allEq_true (attrs_length k ident euler heuler hl2 g hg a2 b2) b3
  exact ⟨_, _, a1, b2, a3⟩

/-- two default aircraft of different names and limits are equal; moved apart they are not -/
example : ∃ e : Entity b64, newDubins2d (R := b64) Demo.env { kwargs := [("name", .str "a")] } = .ok e ∧
    (∃ e' : Entity b64, newDubins2d (R := b64) Demo.env { vMax := 500, kwargs := [("name", .str "b"), ("y", .num 0)] } = .ok e' ∧
    decide (CraftKind.dubins2d.eq [] (fun a b c => [a, b, c]) e (some e') = .ok true ∧
      CraftKind.dubins2d.eq [] (fun a b c => [a, b, c]) e (some { e' with state := [1, 0, 0, 200] }) = .ok false) = true) :=
  ⟨_, rfl, Demo.of_okAnd (by decide +kernel)⟩
/-- a default six-degrees-of-freedom spacecraft cannot be compared with itself -/
example : ∃ e : Entity b64, newSixDof (R := b64) Demo.env (fun _ => []) { kwargs := [("name", .str "a")] } = .ok e ∧
    decide (CraftKind.sixDof.eq [] (fun a b c => [a, b, c]) e (some e) = .error .valueError) = true :=
  Demo.of_okAnd (by decide +kernel)

/-- Equality looks at the state and the stored derivative only: name, mass, limits, default control, the whole dynamics
object may differ. -/
theorem C53_ignores_everything_else (k : CraftKind) (ident : Vec R) (euler : EulerRoundTrip R) (e e' f f' : Entity R)
    (h1 : f.state = e.state) (h2 : f.stateDot = e.stateDot) (h3 : f'.state = e'.state) (h4 : f'.stateDot = e'.stateDot) :
    k.eq ident euler f (some f') = k.eq ident euler e (some e') := by
  cases k <;>
    simp only [CraftKind.eq, cwhEq, rot2dEq, sixDofEq, dubins2dEq, dubins3dEq, cwhVelocity, cwhPosition, rot2dVelocity, rot2dPosition, rot2dQuaternion,
      rot2dAngularVelocity, sixDofVelocity, sixDofPosition, sixDofQuaternion, sixDofAngularVelocity, dubins2dVelocity, dubins2dPosition,
      dubins2dAcceleration, dubins3dVelocity, dubins3dPosition, dubins3dAcceleration, h1, h2, h3, h4]

/-- Point-mass spacecraft: equal to itself exactly when its position and velocity are free of NaN. -/
theorem C53_reflexive_cwh (ident : Vec R) (euler : EulerRoundTrip R) (hident : ∀ x ∈ ident, x ≠ .nan) (e : Entity R) :
    CraftKind.cwh.eq ident euler e (some e) = .ok true ↔ ∀ x ∈ e.state.take 6, x ≠ .nan := by
  have ht : e.state.take 6 = cwhPosition e ++ cwhVelocity e := by
    unfold cwhPosition cwhVelocity
    rw [show (6 : Nat) = 3 + 3 from rfl, List.take_add]
  rw [craft_eq, chainEq_self, ht]
  simp only [CraftKind.attrs, CraftKind.velocity, CraftKind.position, List.mem_cons, List.not_mem_nil, or_false, forall_eq_or_imp, forall_eq,
    Except.ok.injEq, exists_eq_left', List.mem_append]
  constructor
  · rintro ⟨h1, h2, -⟩ x (h | h)
    · exact h2 x h
    · exact h1 x h
  · intro h
    exact ⟨fun x hx => h x (.inr hx), fun x hx => h x (.inl hx), hident⟩

end

section
variable {K : Type} {R : Fmt K} [Field K] [LinearOrder K] [IsStrictOrderedRing K] [Exact R]

theorem toFl_nan {n : Nat} (y : Fin n → K) : ∀ x ∈ (toFl y : Vec R), x ≠ .nan := by
  intro x hx
  simp only [toFl, List.mem_ofFn] at hx
  obtain ⟨i, rfl⟩ := hx
  simp

/-- Planar rotating spacecraft: every finite state is equal to itself. -/
theorem C53_reflexive_rot2d (ident : Vec R) (euler : EulerRoundTrip R) (e : Entity R) (y : Fin 6 → K) (hs : e.state = toFl y) :
    CraftKind.rot2d.eq ident euler e (some e) = .ok true := by
  have hdiv : ∀ x : K, (.fin x / .fin 2 : Fl R) = .fin (x / 2) := fun x => Fl.fin_div_fin _ _ (by norm_num)
  rw [craft_eq, chainEq_self]
  have h6 : (toFl y : Vec R) = [.fin (y 0), .fin (y 1), .fin (y 2), .fin (y 3), .fin (y 4), .fin (y 5)] := by simp [toFl, List.ofFn_succ]
  simp only [CraftKind.attrs, CraftKind.velocity, CraftKind.position, List.mem_cons, List.not_mem_nil, or_false, forall_eq_or_imp, forall_eq,
    rot2dVelocity, rot2dPosition, rot2dQuaternion, rot2dAngularVelocity, hs, h6, getIdx, List.getElem?_cons_succ, List.getElem?_cons_zero,
    bind, Except.bind, pure, Except.pure, Except.ok.injEq, exists_eq_left']
  simp [hdiv, Fl.sin, Fl.cos]

/-- Six degrees of freedom: a finite state whose quaternion is not zero is equal to itself; a spacecraft with zero quaternion (the
default configuration) cannot be compared with any spacecraft of the same position and velocity, itself included: the
comparison raises `ValueError`. -/
theorem C53_reflexive_sixDof (hsq : ∀ x : K, 0 ≤ x → (R.sqrt x = 0 ↔ x = 0)) (ident : Vec R) (euler : EulerRoundTrip R) (e : Entity R)
    (y : Fin 13 → K) (hs : e.state = toFl y) :
    ((y 3, y 4, y 5, y 6) ≠ (0, 0, 0, 0) → CraftKind.sixDof.eq ident euler e (some e) = .ok true) ∧
    ((y 3, y 4, y 5, y 6) = (0, 0, 0, 0) → ∀ (e' : Entity R) (y' : Fin 13 → K), e'.state = toFl y' →
      (∀ i : Fin 3, y' (Fin.castLE (by omega) i) = y (Fin.castLE (by omega) i) ∧ y' (Fin.natAdd 7 (Fin.castLE (by omega) i : Fin 6)) = y (Fin.natAdd 7 (Fin.castLE (by omega) i : Fin 6))) →
      CraftKind.sixDof.eq ident euler e (some e') = .error .valueError) := by
  have h13 : ∀ y : Fin 13 → K, (toFl y : Vec R) = [.fin (y 0), .fin (y 1), .fin (y 2), .fin (y 3), .fin (y 4), .fin (y 5), .fin (y 6), .fin (y 7), .fin (y 8),
    .fin (y 9), .fin (y 10), .fin (y 11), .fin (y 12)] := by intro y; simp [toFl, List.ofFn_succ]
  have hnn : 0 ≤ y 3 * y 3 + y 4 * y 4 + y 5 * y 5 + y 6 * y 6 := by
    nlinarith [mul_self_nonneg (y 3), mul_self_nonneg (y 4), mul_self_nonneg (y 5), mul_self_nonneg (y 6)]
  have hlt : ¬ y 3 * y 3 + y 4 * y 4 + y 5 * y 5 + y 6 * y 6 < 0 := not_lt.2 hnn
  constructor
  · intro hq
    have hn : R.sqrt (y 3 * y 3 + y 4 * y 4 + y 5 * y 5 + y 6 * y 6) ≠ 0 := by
      intro h
      have h0 := (hsq _ hnn).1 h
      apply hq
      have a3 : y 3 = 0 := mul_self_eq_zero.1 (by nlinarith [mul_self_nonneg (y 3), mul_self_nonneg (y 4), mul_self_nonneg (y 5), mul_self_nonneg (y 6)])
      have a4 : y 4 = 0 := mul_self_eq_zero.1 (by nlinarith [mul_self_nonneg (y 3), mul_self_nonneg (y 4), mul_self_nonneg (y 5), mul_self_nonneg (y 6)])
      have a5 : y 5 = 0 := mul_self_eq_zero.1 (by nlinarith [mul_self_nonneg (y 3), mul_self_nonneg (y 4), mul_self_nonneg (y 5), mul_self_nonneg (y 6)])
      have a6 : y 6 = 0 := mul_self_eq_zero.1 (by nlinarith [mul_self_nonneg (y 3), mul_self_nonneg (y 4), mul_self_nonneg (y 5), mul_self_nonneg (y 6)])
      rw [a3, a4, a5, a6]
    have hdiv : ∀ x : K, (.fin x / .fin (R.sqrt (y 3 * y 3 + y 4 * y 4 + y 5 * y 5 + y 6 * y 6)) : Fl R) = .fin (x / R.sqrt (y 3 * y 3 + y 4 * y 4 + y 5 * y 5 + y 6 * y 6)) :=
      fun x => Fl.fin_div_fin _ _ hn
    have hqt : sixDofQuaternion e = .ok [.fin (y 3 / R.sqrt (y 3 * y 3 + y 4 * y 4 + y 5 * y 5 + y 6 * y 6)),
        .fin (y 4 / R.sqrt (y 3 * y 3 + y 4 * y 4 + y 5 * y 5 + y 6 * y 6)), .fin (y 5 / R.sqrt (y 3 * y 3 + y 4 * y 4 + y 5 * y 5 + y 6 * y 6)),
        .fin (y 6 / R.sqrt (y 3 * y 3 + y 4 * y 4 + y 5 * y 5 + y 6 * y 6))] := by
      unfold sixDofQuaternion
      simp [hs, h13, Fl.sqrt, hlt, Fl.eqb, hn, hdiv]
    rw [craft_eq, chainEq_self]
    simp only [CraftKind.attrs, CraftKind.velocity, CraftKind.position, List.mem_cons, List.not_mem_nil, or_false, forall_eq_or_imp, forall_eq,
      Except.ok.injEq, exists_eq_left', hqt]
    refine ⟨?_, ?_, by simp, ?_⟩ <;> simp [sixDofVelocity, sixDofPosition, sixDofAngularVelocity, hs, h13]
  · intro hq e' y' hs' heq
    simp only [Prod.mk.injEq] at hq
    obtain ⟨a3, a4, a5, a6⟩ := hq
    have hz : R.sqrt 0 = 0 := (hsq 0 le_rfl).2 rfl
    have hqt : sixDofQuaternion e = .error .valueError := by
      unfold sixDofQuaternion
      simp [hs, h13, Fl.sqrt, Fl.eqb, a3, a4, a5, a6, hz]
    have hv : allEq (sixDofVelocity e) (sixDofVelocity e') = .ok true := by
      have : sixDofVelocity e' = sixDofVelocity e := by
        have h0 := (heq 0).2
        have h1 := (heq 1).2
        have h2 := (heq 2).2
        simp [sixDofVelocity, hs, hs', h13]
        exact ⟨h0, h1, h2⟩
      rw [this, allEq_self]
      simp [sixDofVelocity, hs, h13]
    have hp : allEq (sixDofPosition e) (sixDofPosition e') = .ok true := by
      have : sixDofPosition e' = sixDofPosition e := by
        have h0 := (heq 0).1
        have h1 := (heq 1).1
        have h2 := (heq 2).1
        simp [sixDofPosition, hs, hs', h13]
        exact ⟨h0, h1, h2⟩
      rw [this, allEq_self]
      simp [sixDofPosition, hs, h13]
    simp [CraftKind.eq, sixDofEq, hv, hp, hqt, bind, Except.bind]

end

section

/-- Dubins aircraft in 2d: a finite state with `v ≠ 0` is equal to itself, one with `v = 0` is not. -/
theorem C53_reflexive_dubins2d (ident : Vec realFmt) (euler : EulerRoundTrip realFmt) (heuler : ∀ a b c, ∀ x ∈ euler (.fin a) (.fin b) (.fin c), x ≠ .nan)
    (e : Entity realFmt) (s d : Fin 4 → ℝ) (hs : e.state = toFl s) (hd : e.stateDot = toFl d) :
    (s 3 ≠ 0 → CraftKind.dubins2d.eq ident euler e (some e) = .ok true) ∧
    (s 3 = 0 → CraftKind.dubins2d.eq ident euler e (some e) = .ok false) := by
  have hz : (0 : Fl realFmt) = .fin 0 := Fl.zero_fin
  have hvel : dubins2dVelocity e = .ok (toFl (along (s 3) (s 2) 0)) := by
    unfold dubins2dVelocity
    rw [hs, toFl4]
    simp only [getIdx, bind, Except.bind, pure, Except.pure, List.getElem?_cons_succ, List.getElem?_cons_zero, hz, dubinsVelocity_fin]
  have hpos : dubins2dPosition e = .ok [.fin (s 0), .fin (s 1), .fin 0] := by
    unfold dubins2dPosition
    rw [hs, toFl4]
    simp only [getIdx, bind, Except.bind, pure, Except.pure, List.getElem?_cons_succ, List.getElem?_cons_zero, hz]
  constructor
  · intro hv
    obtain ⟨a, w, h1, -⟩ := C52_acceleration_2d e s d hs hd hv
    rw [craft_eq, chainEq_self]
    simp only [CraftKind.attrs, CraftKind.velocity, CraftKind.position, List.mem_cons, List.not_mem_nil, or_false, forall_eq_or_imp, forall_eq,
      hvel, hpos, h1, hs, toFl4 s, getIdx, List.getElem?_cons_succ, List.getElem?_cons_zero, bind, Except.bind, pure, Except.pure,
      Except.ok.injEq, exists_eq_left']
    exact ⟨toFl_nan _, by simp, toFl_nan _, hz ▸ heuler _ _ _, by simp⟩
  · intro hv
    have h1 := (C52_acceleration_standstill e).1 s _ _ _ _ hs (hd.trans (toFl4 d)) hv
    have e1 : allEq (toFl (along (s 3) (s 2) 0) : Vec realFmt) (toFl (along (s 3) (s 2) 0)) = .ok true := (allEq_self _).2 (toFl_nan _)
    have e2 : allEq ([.fin (s 0), .fin (s 1), .fin 0] : Vec realFmt) [.fin (s 0), .fin (s 1), .fin 0] = .ok true := (allEq_self _).2 (by simp)
    have e3 : allEq ([.nan, .nan, .nan] : Vec realFmt) [.nan, .nan, .nan] = .ok false := by simp [allEq, bcast2, Fl.eqb]
    simp [CraftKind.eq, dubins2dEq, hvel, hpos, h1, bind, Except.bind, e1, e2, e3, pure, Except.pure]

/-- The same in 3d. -/
theorem C53_reflexive_dubins3d (ident : Vec realFmt) (euler : EulerRoundTrip realFmt) (heuler : ∀ a b c, ∀ x ∈ euler (.fin a) (.fin b) (.fin c), x ≠ .nan)
    (e : Entity realFmt) (s d : Fin 7 → ℝ) (hs : e.state = toFl s) (hd : e.stateDot = toFl d) :
    (s 6 ≠ 0 → CraftKind.dubins3d.eq ident euler e (some e) = .ok true) ∧
    (s 6 = 0 → CraftKind.dubins3d.eq ident euler e (some e) = .ok false) := by
  have hvel : dubins3dVelocity e = .ok (toFl (along (s 6) (s 3) (s 4))) := by
    unfold dubins3dVelocity
    rw [hs, toFl7]
    simp only [getIdx, bind, Except.bind, pure, Except.pure, List.getElem?_cons_succ, List.getElem?_cons_zero, dubinsVelocity_fin]
  have hpos : dubins3dPosition e = [.fin (s 0), .fin (s 1), .fin (s 2)] := by
    unfold dubins3dPosition
    rw [hs, toFl7]
    rfl
  constructor
  · intro hv
    obtain ⟨a, w, h1, -⟩ := C52_acceleration_3d e s d hs hd hv
    rw [craft_eq, chainEq_self]
    simp only [CraftKind.attrs, CraftKind.velocity, CraftKind.position, List.mem_cons, List.not_mem_nil, or_false, forall_eq_or_imp, forall_eq,
      hvel, hpos, h1, hs, toFl7 s, getIdx, List.getElem?_cons_succ, List.getElem?_cons_zero, bind, Except.bind, pure, Except.pure,
      Except.ok.injEq, exists_eq_left']
    exact ⟨toFl_nan _, by simp, toFl_nan _, heuler _ _ _, by simp, by simp, by simp, by simp⟩
  · intro hv
    have h1 := (C52_acceleration_standstill e).2 s _ _ _ _ _ _ _ hs (hd.trans (toFl7 d)) hv
    have e1 : allEq (toFl (along (s 6) (s 3) (s 4)) : Vec realFmt) (toFl (along (s 6) (s 3) (s 4))) = .ok true := (allEq_self _).2 (toFl_nan _)
    have e2 : allEq ([.fin (s 0), .fin (s 1), .fin (s 2)] : Vec realFmt) [.fin (s 0), .fin (s 1), .fin (s 2)] = .ok true := (allEq_self _).2 (by simp)
    have e3 : allEq ([.nan, .nan, .nan] : Vec realFmt) [.nan, .nan, .nan] = .ok false := by simp [allEq, bcast2, Fl.eqb]
    simp [CraftKind.eq, dubins3dEq, hvel, hpos, h1, bind, Except.bind, e1, e2, e3, pure, Except.pure]

end
end SAD
