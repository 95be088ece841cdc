import Verif.Lemmas.Applied
import Verif.Lemmas.Matrix
import Verif.Props.Demo

/-!
# C21 - C23: control-affine and linear dynamics
-/

set_option linter.unusedSectionVars false

namespace SAD
open Spec

/-! ## C21 control-affine form -/

section affine
variable {K : Type} {R : Fmt K} [Field K] [LinearOrder K] [Exact R] {n m : Nat}

/-- The raw derivative is `f(x) + g(x) u`, element by element. -/
theorem C21_affine (f : Vec R → Py (Vec R)) (g : Vec R → Py (Mat R)) (x : Vec R) (a : Fin n → K) (G : Fin n → Fin m → K)
    (hf : f x = .ok (toFl a)) (hg : g x = .ok (toMat G)) (t : Fl R) (u : Fin m → K) :
    ∃ r : Fin n → K, affineRhs f g t x (toFl u) = .ok (toFl r) ∧ ∀ i, r i = a i + ∑ j, G i j * u j :=
  ⟨_, affineRhs_lift hf hg t u, fun _ => rfl⟩

/-- Superposition of control differences: equal control differences give equal derivative differences. -/
theorem C21_superposition (f : Vec R → Py (Vec R)) (g : Vec R → Py (Mat R)) (x : Vec R) (a : Fin n → K)
    (G : Fin n → Fin m → K) (hf : f x = .ok (toFl a)) (hg : g x = .ok (toMat G)) (t : Fl R) (u1 u2 u3 u4 : Fin m → K)
    (hu : u1 - u2 = u3 - u4) :
    ∃ r1 r2 r3 r4 : Fin n → K, affineRhs f g t x (toFl u1) = .ok (toFl r1) ∧ affineRhs f g t x (toFl u2) = .ok (toFl r2) ∧
      affineRhs f g t x (toFl u3) = .ok (toFl r3) ∧ affineRhs f g t x (toFl u4) = .ok (toFl r4) ∧ r1 - r2 = r3 - r4 := by
  refine ⟨_, _, _, _, affineRhs_lift hf hg t u1, affineRhs_lift hf hg t u2, affineRhs_lift hf hg t u3,
    affineRhs_lift hf hg t u4, ?_⟩
  have h1 : u1 = u2 + (u3 - u4) := by rw [← hu]; abel
  have h2 : u3 = u4 + (u3 - u4) := by abel
  rw [h1, mulVec_add, h2, mulVec_add]
  simp only [add_sub_cancel_left]
  abel

end affine

section errors
variable {K : Type} {R : Fmt K} [Field K] [LinearOrder K] [FloorRing K]

/-- A control (after clipping) whose length is not the number of columns of `g` makes the step raise, for every format,
method and solver. -/
theorem C21_wrong_length (env : Env R) (e : Entity R) (dt : Fl R) (a : Action R) (f : Vec R → Py (Vec R))
    (g : Vec R → Py (Mat R)) (m : Nat) (hc : e.dynamics.custom = none) (hr : e.dynamics.rhs = affineRhs f g)
    (hg : ∀ x G, g x = .ok G → G.ncols = m)
    (hlen : ∀ v, Applied env e a v → v.length ≠ m) :
    ∃ x, (e.step env dt a).outcome = .error x := by
  cases hok : (e.step env dt a).outcome with
  | error x => exact ⟨x, rfl⟩
  | ok z =>
    exfalso
    cases z
    obtain ⟨ty, u, v, d, s, sd, h1, h2, h3, h4⟩ := step_ok hok
    have h5 : (e.dynamics.step env dt e.state v).2 = .ok (s, sd) := by rw [h3]
    obtain ⟨next, c, h6, h7, h8⟩ := dynStep_parts h5
    have hl := hlen v (applied_of h1 h2)
    have key : ∀ t y r, e.dynamics.computeStateDot t y v ≠ .ok r := by
      intro t y r h
      unfold Dyn.computeStateDot at h
      obtain ⟨q, hq, -⟩ := Except.bind_ok.1 h
      rw [hr] at hq
      unfold affineRhs at hq
      obtain ⟨a1, -, hq⟩ := Except.bind_ok.1 hq
      obtain ⟨G, hG, hq⟩ := Except.bind_ok.1 hq
      obtain ⟨b, hb, -⟩ := Except.bind_ok.1 hq
      unfold matVec at hb
      rw [if_neg (by rw [hg y G hG]; exact fun h => hl h.symm)] at hb
      cases hb
    rw [rawStep_ode hc] at h6
    by_cases m1 : e.dynamics.integrationMethod = "RK45"
    · obtain ⟨sol, -, -, k, -⟩ := odeStep_rk45_ok m1 h6
      exact key _ _ _ k
    · by_cases m2 : e.dynamics.integrationMethod = "RK45_JAX"
      · obtain ⟨-, -, rows, -, -, k⟩ := odeStep_jax_ok m2 h6
        exact key _ _ _ k
      · by_cases m3 : e.dynamics.integrationMethod = "Euler"
        · exact key _ _ _ (odeStep_euler_ok m3 h6).2.1
        · unfold Dyn.odeStep at h6
          simp [m1, m2, m3] at h6

end errors

/-- `x' = -x + u` in two dimensions as a control-affine entity -/
def Demo.affine (method : String) : Entity ratFmt :=
  let d : Dyn ratFmt := { Demo.dyn method with
    rhs := affineRhs (fun x => .ok (x.map (fun v => -v))) (fun _ => .ok ⟨[[1, 0], [0, 1]], 2⟩) }
  { Demo.entity method with dynamics := d }

example : ((Demo.affine "RK45").step Demo.env 1 (.list [1, 1, 1])).outcome = .error .valueError ∧
    ((Demo.affine "RK45").step Demo.env 1 (.list [1, 2])).outcome = .ok () ∧
    ((Demo.affine "RK45").step Demo.env 1 (.list [1, 2])).entity.state = [.fin 1, .fin 2] := by decide +kernel

/-! ## C22 linear model validation -/

/-- The shape assertions accept exactly a square 2-d `A` and a 2-d `B` with as many rows as `A` has columns. -/
theorem C22_shape_check (aShape bShape : List Nat) :
    ((∃ n p, aShape = [n, n] ∧ bShape = [n, p]) → linearShapeCheck aShape bShape = .ok ()) ∧
    ((¬ ∃ n p, aShape = [n, n] ∧ bShape = [n, p]) → linearShapeCheck aShape bShape = .error .assertionError) := by
  constructor
  · rintro ⟨n, p, rfl, rfl⟩
    simp [linearShapeCheck]
  · intro h
    unfold linearShapeCheck
    split
    · rename_i h1
      split
      · rename_i h2
        obtain ⟨a, b, rfl⟩ := List.length_eq_two.1 h1
        obtain ⟨c, d, rfl⟩ := List.length_eq_two.1 h2
        split
        · rename_i h3
          split
          · rename_i h4
            exfalso
            apply h
            simp at h3 h4
            subst h3; subst h4
            exact ⟨_, _, rfl, rfl⟩
          · rfl
        · rfl
      · rfl
    · rfl

section construct
variable {K : Type} {R : Fmt K} [Field K] [LinearOrder K]

/-- With otherwise valid arguments, construction from 2-d arrays succeeds iff `A` is square and `B` has as many rows as `A`
has columns, and then the model's derivative is `A x + B u`. -/
theorem C22_construction (env : Env R) (args : DynArgs R) (A B : Mat R) (hs : args.trajectorySamples ≠ none)
    (hj : args.useJax = true → env.jaxInstalled = true) :
    ((A.rows.length = A.ncols ∧ B.rows.length = A.ncols) →
      ∃ d, mkLinearDyn env args A B = .ok d ∧
        ∀ t x u, d.rhs t x u = (do let a ← matVec A x; let b ← matVec B u; vadd a b)) ∧
    (¬ (A.rows.length = A.ncols ∧ B.rows.length = A.ncols) → mkLinearDyn env args A B = .error .assertionError) := by
  cases hn : args.trajectorySamples with
  | none => exact absurd hn hs
  | some k =>
    have hj' : ¬ (args.useJax = true ∧ env.jaxInstalled = false) := by
      rintro ⟨a, b⟩; rw [hj a] at b; cases b
    constructor
    · rintro ⟨h1, h2⟩
      have := (C22_shape_check [A.rows.length, A.ncols] [B.rows.length, B.ncols]).1
        ⟨A.ncols, B.ncols, by rw [h1], by rw [h2]⟩
      simp only [mkLinearDyn, mkOdeDyn, hn, hj', if_false, this, bind, Except.bind, pure, Except.pure]
      exact ⟨_, rfl, fun t x u => rfl⟩
    · intro h
      have := (C22_shape_check [A.rows.length, A.ncols] [B.rows.length, B.ncols]).2 (by
        rintro ⟨n, p, h1, h2⟩
        simp only [List.cons.injEq, and_true] at h1 h2
        exact h ⟨by rw [h1.1, h1.2], by rw [h2.1, h1.2]⟩)
      simp only [mkLinearDyn, mkOdeDyn, hn, hj', if_false, this, bind, Except.bind]

end construct

example : linearShapeCheck [2, 2] [2, 3] = .ok () ∧ linearShapeCheck [2, 3] [3, 1] = .error .assertionError ∧
    linearShapeCheck [2, 2] [2] = .error .assertionError := by decide

/-! ## C23 superposition -/

section linear
variable {K : Type} {R : Fmt K} [Field K] [LinearOrder K] [IsStrictOrderedRing K] [FloorRing K] [Exact R] {n m : Nat}

/-- the system of an unlimited linear model -/
def linModel (A : Fin n → Fin n → K) (B : Fin n → Fin m → K) : KModel K n m where
  dom := fun _ => True
  rate := fun _ y u => mulVec A y + mulVec B u
  lo := fun _ => none
  hi := fun _ => none
  dlo := fun _ => none
  dhi := fun _ => none
  centre := fun _ => none
  ulo := fun _ => none
  uhi := fun _ => none

theorem linModel_realised {env : Env R} {args : DynArgs R} {d : Dyn R} {A : Fin n → Fin n → K} {B : Fin n → Fin m → K}
    (hd : mkLinearDyn env args (toMat A) (toMat B) = .ok d) (hu : Unlimited d) : DRealises d (linModel A B) := by
  refine ⟨hu.custom, ?_, .inr ⟨_, hu.stateMin, fun _ => rfl⟩, .inr ⟨_, hu.stateMax, fun _ => rfl⟩,
    .inr ⟨_, hu.stateDotMin, fun _ => rfl⟩, .inr ⟨_, hu.stateDotMax, fun _ => rfl⟩, .inl ⟨hu.wrap, fun _ => rfl⟩⟩
  intro t y u _
  have : d.rhs = affineRhs (fun x => matVec (toMat A) x) (fun _ => .ok (toMat B)) := by
    unfold mkLinearDyn at hd
    obtain ⟨d', h1, hd⟩ := Except.bind_ok.1 hd
    obtain ⟨_, -, hd⟩ := Except.bind_ok.1 hd
    cases hd
    unfold mkOdeDyn at h1
    split at h1
    · cases h1
    · split at h1
      · cases h1
      · cases h1; rfl
  rw [this]
  exact affineRhs_lift (matVec_lift A y) rfl _ u

/-- One step of an unlimited linear model, with Euler or any fixed Dormand-Prince schedule, is linear in state and control:
the result (state and derivative) for a linear combination is the linear combination of the results. -/
theorem C23_superposition (hpi : 0 < R.pi) (ws : List K) (args : DynArgs R) (d : Dyn R) (A : Fin n → Fin n → K)
    (B : Fin n → Fin m → K) (hd : mkLinearDyn (rkEnv dopri (fun _ _ _ => ws)) args (toMat A) (toMat B) = .ok d)
    (hu : Unlimited d) (hm : PlainMethod d) (T a b : K) (x1 x2 : Fin n → K) (u1 u2 : Fin m → K) :
    ∃ y1 y2 v1 v2 : Fin n → K,
      (d.step (rkEnv dopri (fun _ _ _ => ws)) (.fin T) (toFl x1) (toFl u1)).2 = .ok (toFl y1, toFl v1) ∧
      (d.step (rkEnv dopri (fun _ _ _ => ws)) (.fin T) (toFl x2) (toFl u2)).2 = .ok (toFl y2, toFl v2) ∧
      (d.step (rkEnv dopri (fun _ _ _ => ws)) (.fin T) (toFl (a • x1 + b • x2)) (toFl (a • u1 + b • u2))).2
        = .ok (toFl (a • y1 + b • y2), toFl (a • v1 + b • v2)) := by
  have hr := linModel_realised hd hu
  have step := fun (x : Fin n → K) (u : Fin m → K) => dynStep_lift hpi hr
    (rawStep_fixed ws hr.custom hm (hr.liftsOn u (S := fun _ => True) (fun _ _ => trivial)) (Stable.univ _) T x trivial)
  have hpost : ∀ y : Fin n → K, (linModel A B).post R.pi y = y := by
    intro y; funext i; simp [KModel.post, linModel, kclip]
  have hfield : ∀ u t y, (linModel A B).field u t y = mulVec A y + mulVec B u := by
    intro u t y; funext i; simp [KModel.field, linModel, klimit_free]
  simp only [hpost] at step
  have hsup : ∀ t p q, a • (linModel A B).field u1 t p + b • (linModel A B).field u2 t q
      = (linModel A B).field (a • u1 + b • u2) t (a • p + b • q) := by
    intro t p q
    simp only [hfield, mulVec_add, mulVec_smul, smul_add]; abel
  refine ⟨_, _, _, _, step x1 u1, step x2 u2, ?_⟩
  rw [step]
  rw [rkChain_superpose (flowTab d) a b _ _ _ hsup]
  by_cases he : d.integrationMethod = "Euler"
  · simp only [he, if_true, hsup]
  · simp only [he, if_false, hsup]

/-- a damped oscillator meets the hypotheses -/
example : ∃ d, mkLinearDyn (R := ratFmt) (rkEnv dopri (fun _ _ _ => [2])) {} (toMat ![![0, 1], ![-1, -1]])
    (toMat ![![0], ![1]]) = .ok d ∧ Unlimited d ∧ PlainMethod d ∧
    (d.step (rkEnv dopri (fun _ _ _ => [2])) 3 [1, 0] [2]).2.isOk = true :=
  ⟨_, rfl, ⟨rfl, rfl, rfl, rfl, rfl, rfl⟩, .inl rfl, by decide +kernel⟩

end linear
end SAD
