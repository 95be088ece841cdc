import Verif.Lemmas.SixDof
import Verif.Lemmas.Config
import Verif.Lemmas.History
import Verif.Props.Cwh
import Verif.Props.Rotational
import Mathlib.Algebra.Quaternion
import Mathlib.LinearAlgebra.Matrix.Determinant.Basic
import Mathlib.Tactic.IntervalCases

/-!
# C38 - C44: the six-degrees-of-freedom spacecraft

State layout: position 0-2, quaternion 3-6 (scalar last), velocity 7-9, body rates 10-12; control: thrust 0-2, moments 3-5.
-/

set_option linter.unusedSectionVars false

namespace SAD
open Spec
open scoped Quaternion Matrix

section
variable {K : Type} {R : Fmt K} [Field K] [LinearOrder K] [IsStrictOrderedRing K] [Exact R]

/-- parts of the state vector -/
def Spec.quatOf (y : Fin 13 → K) : Fin 4 → K := ![y 3, y 4, y 5, y 6]
def Spec.rateOf (y : Fin 13 → K) : Fin 3 → K := ![y 10, y 11, y 12]
def Spec.orbitOf (y : Fin 13 → K) : Fin 6 → K := ![y 0, y 1, y 2, y 7, y 8, y 9]

/-- squared norm of a quaternion stored as four numbers -/
def Spec.quatSq (q : Fin 4 → K) : K := q 0 ^ 2 + q 1 ^ 2 + q 2 ^ 2 + q 3 ^ 2

/-- inner product -/
def Spec.inner3 (x y : Fin 3 → K) : K := x 0 * y 0 + x 1 * y 1 + x 2 * y 2

/-- four numbers as a quaternion, scalar first (as `hamilton_product` stores it) or scalar last (as the state does) -/
def Spec.quatFirst (q : Fin 4 → K) : ℍ[K] := ⟨q 0, q 1, q 2, q 3⟩
def Spec.quatLast (q : Fin 4 → K) : ℍ[K] := ⟨q 3, q 0, q 1, q 2⟩
/-- a vector as a pure quaternion -/
def Spec.pureQ (x : Fin 3 → K) : ℍ[K] := ⟨0, x 0, x 1, x 2⟩

@[simp] theorem quatFirst_re (q : Fin 4 → K) : (quatFirst q).re = q 0 := rfl
@[simp] theorem quatFirst_imI (q : Fin 4 → K) : (quatFirst q).imI = q 1 := rfl
@[simp] theorem quatFirst_imJ (q : Fin 4 → K) : (quatFirst q).imJ = q 2 := rfl
@[simp] theorem quatFirst_imK (q : Fin 4 → K) : (quatFirst q).imK = q 3 := rfl
@[simp] theorem quatLast_re (q : Fin 4 → K) : (quatLast q).re = q 3 := rfl
@[simp] theorem quatLast_imI (q : Fin 4 → K) : (quatLast q).imI = q 0 := rfl
@[simp] theorem quatLast_imJ (q : Fin 4 → K) : (quatLast q).imJ = q 1 := rfl
@[simp] theorem quatLast_imK (q : Fin 4 → K) : (quatLast q).imK = q 2 := rfl
@[simp] theorem pureQ_re (x : Fin 3 → K) : (pureQ x).re = 0 := rfl
@[simp] theorem pureQ_imI (x : Fin 3 → K) : (pureQ x).imI = x 0 := rfl
@[simp] theorem pureQ_imJ (x : Fin 3 → K) : (pureQ x).imJ = x 1 := rfl
@[simp] theorem pureQ_imK (x : Fin 3 → K) : (pureQ x).imK = x 2 := rfl

theorem sixDof_field {e : Entity R} {p : SixDofParams K} {b : Bool} (hr : Realises e (sixDofModel p b)) (t : K) (y : Fin 13 → K) (u : Fin 6 → K) :
    e.dynamics.computeStateDot (.fin t) (toFl y) (toFl u) = .ok (toFl ((sixDofModel p b).field u t y)) :=
  computeStateDot_lift hr.dyn.lo hr.dyn.hi hr.dyn.dlo hr.dyn.dhi (hr.dyn.rhs t y u trivial)

theorem klimit_inside {v y r : K} (h1 : -v < y) (h2 : y < v) : klimit (some (-v)) (some v) none none y r = r := by
  simp [klimit, kclip, not_le.2 h1, not_le.2 h2]

/-- the body rates are strictly inside the velocity limits in force -/
def Spec.InsideRates (p : SixDofParams K) (w : Fin 3 → K) : Prop := ∀ i, -p.velLimit i < w i ∧ w i < p.velLimit i

theorem sixDofModel_field_orbit (p : SixDofParams K) (b : Bool) (u : Fin 6 → K) (t : K) (y : Fin 13 → K) (i : Fin 13) (hi : i.val < 10) :
    (sixDofModel p b).field u t y i = sixDofRate p.m p.n (fun i => p.inertia i i) b y u i := by
  obtain ⟨i, h⟩ := i
  interval_cases i <;> exact klimit_free _ _

theorem sixDofModel_field_rates (p : SixDofParams K) (b : Bool) (u : Fin 6 → K) (t : K) (y : Fin 13 → K) (h : InsideRates p (rateOf y)) :
    (sixDofModel p b).field u t y = sixDofRate p.m p.n (fun i => p.inertia i i) b y u := by
  funext i
  by_cases hi : i.val < 10
  · exact sixDofModel_field_orbit p b u t y i hi
  · obtain ⟨i, h'⟩ := i
    simp only at hi
    interval_cases i
    · exact klimit_inside (h 0).1 (h 0).2
    · exact klimit_inside (h 1).1 (h 1).2
    · exact klimit_inside (h 2).1 (h 2).2

/-! ## C39 quaternion algebra -/

theorem hamilton_fin (r q : Fin 4 → K) : hamiltonProduct (toFl r : Vec R) (toFl q) = .ok (toFl
    ![r 0 * q 0 - r 1 * q 1 - r 2 * q 2 - r 3 * q 3, r 0 * q 1 + r 1 * q 0 + r 2 * q 3 - r 3 * q 2,
      r 0 * q 2 - r 1 * q 3 + r 2 * q 0 + r 3 * q 1, r 0 * q 3 + r 1 * q 2 - r 2 * q 1 + r 3 * q 0]) := by
  rw [toFl4 r, toFl4 q, toFl4]
  simp [hamiltonProduct]

/-- `hamilton_product` is the quaternion product. -/
theorem C39_hamilton (r q : Fin 4 → K) :
    ∃ s : Fin 4 → K, hamiltonProduct (toFl r : Vec R) (toFl q) = .ok (toFl s) ∧ quatFirst s = quatFirst r * quatFirst q := by
  refine ⟨_, hamilton_fin r q, ?_⟩
  ext <;> simp

/-- It is associative and multiplies squared norms. -/
theorem C39_hamilton_laws (a b c : Fin 4 → K) :
    ∃ ab bc abc : Fin 4 → K, hamiltonProduct (toFl a : Vec R) (toFl b) = .ok (toFl ab) ∧ hamiltonProduct (toFl b : Vec R) (toFl c) = .ok (toFl bc) ∧
      hamiltonProduct (toFl ab : Vec R) (toFl c) = .ok (toFl abc) ∧ hamiltonProduct (toFl a : Vec R) (toFl bc) = .ok (toFl abc) ∧
      quatSq ab = quatSq a * quatSq b := by
  refine ⟨_, _, _, hamilton_fin a b, hamilton_fin b c, hamilton_fin _ c, ?_, ?_⟩
  · rw [hamilton_fin]
    congr 2
    funext i
    fin_cases i <;> simp <;> ring
  · simp [quatSq]; ring

/-- `apply_quat(x, q)` is `q x q*`. -/
theorem C39_apply (x : Fin 3 → K) (q : Fin 4 → K) :
    ∃ y : Fin 3 → K, applyQuat (toFl x : Vec R) (toFl q) = .ok (toFl y) ∧ pureQ y = quatLast q * pureQ x * star (quatLast q) := by
  refine ⟨_, applyQuat_fin x q, ?_⟩
  ext <;> simp [krot] <;> ring

/-- It multiplies inner products by `|q|⁴`: an isometry for unit `q`. -/
theorem C39_inner (x y : Fin 3 → K) (q : Fin 4 → K) :
    ∃ x' y' : Fin 3 → K, applyQuat (toFl x : Vec R) (toFl q) = .ok (toFl x') ∧ applyQuat (toFl y : Vec R) (toFl q) = .ok (toFl y') ∧
      inner3 x' y' = quatSq q ^ 2 * inner3 x y ∧ (quatSq q = 1 → inner3 x' y' = inner3 x y) := by
  have h : inner3 (krot q x) (krot q y) = quatSq q ^ 2 * inner3 x y := by
    simp [inner3, krot, quatSq]; ring
  exact ⟨_, _, applyQuat_fin x q, applyQuat_fin y q, h, fun h1 => by rw [h, h1]; ring⟩

/-- the rotation matrix of a unit quaternion, scalar last -/
def Spec.rotMatrix (q : Fin 4 → K) : Matrix (Fin 3) (Fin 3) K :=
  !![1 - 2 * (q 1 ^ 2 + q 2 ^ 2), 2 * (q 0 * q 1 - q 2 * q 3), 2 * (q 0 * q 2 + q 1 * q 3);
     2 * (q 0 * q 1 + q 2 * q 3), 1 - 2 * (q 0 ^ 2 + q 2 ^ 2), 2 * (q 1 * q 2 - q 0 * q 3);
     2 * (q 0 * q 2 - q 1 * q 3), 2 * (q 1 * q 2 + q 0 * q 3), 1 - 2 * (q 0 ^ 2 + q 1 ^ 2)]

/-- For unit `q` it is multiplication with the rotation matrix, whose determinant is 1. -/
theorem C39_matrix (x : Fin 3 → K) (q : Fin 4 → K) (hq : quatSq q = 1) :
    applyQuat (toFl x : Vec R) (toFl q) = .ok (toFl (rotMatrix q *ᵥ x)) ∧ (rotMatrix q).det = 1 := by
  simp only [quatSq] at hq
  refine ⟨?_, ?_⟩
  · rw [applyQuat_fin]
    congr 2
    funext i
    fin_cases i
    · simp [krot, rotMatrix, Matrix.mulVec, dotProduct, Fin.sum_univ_three]; left; linear_combination hq
    · simp [krot, rotMatrix, Matrix.mulVec, dotProduct, Fin.sum_univ_three]; left; linear_combination hq
    · simp [krot, rotMatrix, Matrix.mulVec, dotProduct, Fin.sum_univ_three]; left; linear_combination hq
  · rw [Matrix.det_fin_three]
    simp [rotMatrix]
    have h3 : q 3 ^ 2 = 1 - q 0 ^ 2 - q 1 ^ 2 - q 2 ^ 2 := by linarith
    ring_nf
    simp only [h3]
    ring

/-- Rotating by `q` and then by `p` is rotating by their quaternion product `p q`. -/
theorem C39_compose (x : Fin 3 → K) (p q r : Fin 4 → K) (hr : quatLast r = quatLast p * quatLast q) :
    ∃ y : Fin 3 → K, applyQuat (toFl x : Vec R) (toFl q) = .ok (toFl y) ∧
      applyQuat (toFl y : Vec R) (toFl p) = applyQuat (toFl x : Vec R) (toFl r) := by
  refine ⟨_, applyQuat_fin x q, ?_⟩
  rw [applyQuat_fin, applyQuat_fin]
  congr 2
  have h0 := congrArg (fun a => a.re) hr
  have h1 := congrArg (fun a => a.imI) hr
  have h2 := congrArg (fun a => a.imJ) hr
  have h3 := congrArg (fun a => a.imK) hr
  simp at h0 h1 h2 h3
  funext i
  fin_cases i <;> simp [krot, h0, h1, h2, h3] <;> ring

example : quatSq (K := ℚ) ![0, 0, 3 / 5, 4 / 5] = 1 ∧
    quatLast (K := ℚ) ![0, 0, 3 / 5, 4 / 5] = quatLast ![0, 0, 3 / 5, 4 / 5] * quatLast ![0, 0, 0, 1] := by
  constructor
  · simp [quatSq]; norm_num
  · ext <;> simp

/-! ## C40 quaternion kinematics -/

/-- At every time of the life of every spacecraft the computed quaternion derivative is `½ q ω`, `ω` the body rates. -/
theorem C40_kinematics [FloorRing K] (env : Env R) (uninit : List Nat → Vec R) (args : SixDofArgs R) (p : SixDofParams K) (hp : p.Of args)
    (hI : ∀ i, p.inertia i i ≠ 0) (e0 : Entity R) (h0 : newSixDof env uninit args = .ok e0) (ops : List (Op R))
    (t : K) (y : Fin 13 → K) (u : Fin 6 → K) :
    ∃ v : Fin 13 → K, (e0.run env ops).dynamics.computeStateDot (.fin t) (toFl y) (toFl u) = .ok (toFl v) ∧
      quatLast (quatOf v) = (1 / 2 : K) • (quatLast (quatOf y) * pureQ (rateOf y)) := by
  have hr := (sixDof_realised hp hI h0).1.run env ops
  refine ⟨_, sixDof_field hr t y u, ?_⟩
  ext
  all_goals
    simp [quatOf, rateOf, sixDofModel_field_orbit, sixDofRate]
    ring

/-! ## C38 quaternion norm -/

/-- The computed quaternion derivative is orthogonal to the quaternion: `|q|` is stationary. -/
theorem C38_stationary [FloorRing K] (env : Env R) (uninit : List Nat → Vec R) (args : SixDofArgs R) (p : SixDofParams K) (hp : p.Of args)
    (hI : ∀ i, p.inertia i i ≠ 0) (e0 : Entity R) (h0 : newSixDof env uninit args = .ok e0) (ops : List (Op R))
    (t : K) (y : Fin 13 → K) (u : Fin 6 → K) :
    ∃ v : Fin 13 → K, (e0.run env ops).dynamics.computeStateDot (.fin t) (toFl y) (toFl u) = .ok (toFl v) ∧
      y 3 * v 3 + y 4 * v 4 + y 5 * v 5 + y 6 * v 6 = 0 := by
  have hr := (sixDof_realised hp hI h0).1.run env ops
  refine ⟨_, sixDof_field hr t y u, ?_⟩
  simp [sixDofModel_field_orbit, sixDofRate]
  ring

/-- But nothing renormalises: one Euler step of duration `T` multiplies `|q|²` by exactly `1 + T²/4 |w|²`, in any state and
for any action. -/
theorem C38_euler_growth [FloorRing K] (hpi : 0 < R.pi) (env : Env R) (henv : IsRk dopri env) (uninit : List Nat → Vec R) (args : SixDofArgs R)
    (p : SixDofParams K) (hp : p.Of args) (hI : ∀ i, p.inertia i i ≠ 0) (e0 : Entity R) (h0 : newSixDof env uninit args = .ok e0)
    (hm : args.integrationMethod = "Euler") (hs : ∃ k ≤ 0, args.trajectorySamples = some k) (ops : List (Op R)) (T : K) (a : Action R)
    (y : Fin 13 → K) (u : Fin 6 → K) (hy : (e0.run env ops).state = toFl y) (ha : Asks env (e0.run env ops) a u)
    (hok : ((e0.run env ops).step env (.fin T) a).outcome = .ok ()) :
    ∃ y' : Fin 13 → K, ((e0.run env ops).step env (.fin T) a).entity.state = toFl y' ∧
      quatSq (quatOf y') = (1 + T ^ 2 / 4 * inner3 (rateOf y) (rateOf y)) * quatSq (quatOf y) := by
  obtain ⟨hr, -, g1, g2⟩ := sixDof_realised hp hI h0
  have hc := run_sameConfig env ops e0
  obtain ⟨k, hk, hs⟩ := hs
  have hplain : PlainMethod e0.dynamics := by
    refine .inr ⟨by rw [g1, hm], ?_⟩
    rw [hs] at g2; cases g2; exact hk
  have hme : (e0.run env ops).dynamics.integrationMethod = "Euler" := by rw [(sameConfig_method hc).1, g1, hm]
  obtain ⟨tab, hs', h1, h2, -⟩ := (hr.congr hc).step henv hpi (plain_congr hc hplain) ha (S := fun _ => True) (fun _ _ => trivial)
    (Stable.univ _) hy trivial hok
  refine ⟨_, h2, ?_⟩
  rcases h1.kind with ⟨hk, -⟩ | ⟨-, rfl, rfl⟩
  · rw [hme] at hk; simp at hk
  · rw [rkChain_keuler]
    have e : ∀ (z : Fin 13 → K) (i : Fin 13), i.val < 10 → (sixDofModel p args.bodyFrameThrust).post R.pi z i = z i := by
      intro z ⟨i, _⟩ hi
      interval_cases i <;> rfl
    simp [quatSq, quatOf, e, sixDofModel_field_orbit, sixDofRate, inner3, rateOf]
    ring

end

/-- Along every exact solution of the computed differential equation, whatever the controls, `|q|²` is constant. -/
theorem C38_solutions (env : Env realFmt) (uninit : List Nat → Vec realFmt) (args : SixDofArgs realFmt) (p : SixDofParams ℝ) (hp : p.Of args)
    (hI : ∀ i, p.inertia i i ≠ 0) (e0 : Entity realFmt) (h0 : newSixDof env uninit args = .ok e0) (s : ℝ → Fin 13 → ℝ) (u : ℝ → Fin 6 → ℝ)
    (hsol : ∀ t, ∃ v : Fin 13 → ℝ, e0.dynamics.computeStateDot (.fin t) (toFl (s t)) (toFl (u t)) = .ok (toFl v) ∧ HasDerivAt s v t) :
    ∀ t t', quatSq (quatOf (s t)) = quatSq (quatOf (s t')) := by
  have hd : ∀ t, HasDerivAt (fun t => quatSq (quatOf (s t))) 0 t := by
    intro t
    obtain ⟨v, hv, hs⟩ := hsol t
    obtain ⟨w, hw, ho⟩ := C38_stationary env uninit args p hp hI e0 h0 [] t (s t) (u t)
    simp only [Entity.run, List.foldl_nil] at hw
    rw [hv, Except.ok.injEq] at hw
    cases toFl_inj hw
    rw [hasDerivAt_pi] at hs
    have := ((((hs 3).pow 2).add ((hs 4).pow 2)).add ((hs 5).pow 2)).add ((hs 6).pow 2)
    refine HasDerivAt.congr_deriv (HasDerivAt.congr_of_eventuallyEq this (.of_forall fun t => ?_)) ?_
    · simp [quatSq, quatOf]
    · simp; linear_combination 2 * ho
  exact is_const_of_deriv_eq_zero (fun t => (hd t).differentiableAt) (fun t => (hd t).deriv)

/-! ## C41 rigid body -/

section
variable {K : Type} {R : Fmt K} [Field K] [LinearOrder K] [IsStrictOrderedRing K]

/-- rotational kinetic energy and squared angular momentum of a body with principal inertias `J` -/
def Spec.rotEnergy (J w : Fin 3 → K) : K := (J 0 * w 0 ^ 2 + J 1 * w 1 ^ 2 + J 2 * w 2 ^ 2) / 2
def Spec.momentumSq (J w : Fin 3 → K) : K := (J 0 * w 0) ^ 2 + (J 1 * w 1) ^ 2 + (J 2 * w 2) ^ 2

/-- The angular acceleration of the equations of motion (`rhs`, for every rate), and the one computed by `compute_state_dot`
as long as the rates are strictly inside their limits, change the rotational energy at the rate `M · w` and the squared
angular momentum at the rate `2 M · (J w)`: both are stationary without moments. -/
theorem C41_rates [FloorRing K] [Exact R] (env : Env R) (uninit : List Nat → Vec R) (args : SixDofArgs R) (p : SixDofParams K) (hp : p.Of args)
    (hI : ∀ i, p.inertia i i ≠ 0) (e0 : Entity R) (h0 : newSixDof env uninit args = .ok e0) (ops : List (Op R))
    (t : K) (y : Fin 13 → K) (u : Fin 6 → K) :
    ∃ v : Fin 13 → K, (e0.run env ops).dynamics.rhs (.fin t) (toFl y) (toFl u) = .ok (toFl v) ∧
      (InsideRates p (rateOf y) → (e0.run env ops).dynamics.computeStateDot (.fin t) (toFl y) (toFl u) = .ok (toFl v)) ∧
      ∃ c d : K, ∀ h : K,
        rotEnergy (fun i => p.inertia i i) (rateOf (y + h • v)) = rotEnergy (fun i => p.inertia i i) (rateOf y)
          + h * (u 3 * y 10 + u 4 * y 11 + u 5 * y 12) + h ^ 2 * c ∧
        momentumSq (fun i => p.inertia i i) (rateOf (y + h • v)) = momentumSq (fun i => p.inertia i i) (rateOf y)
          + h * (2 * (u 3 * (p.inertia 0 0 * y 10) + u 4 * (p.inertia 1 1 * y 11) + u 5 * (p.inertia 2 2 * y 12))) + h ^ 2 * d := by
  have hr := (sixDof_realised hp hI h0).1.run env ops
  refine ⟨_, hr.dyn.rhs t y u trivial, fun hin => ?_, ?_⟩
  · rw [sixDof_field hr t y u, sixDofModel_field_rates p _ u t y hin]; rfl
  · have h0 := hI 0
    have h1 := hI 1
    have h2 := hI 2
    generalize hv : (sixDofModel p args.bodyFrameThrust).rate t y u = v
    have e0 : p.inertia 0 0 * v 10 = (p.inertia 1 1 - p.inertia 2 2) * y 11 * y 12 + u 3 := by
      rw [← hv]; simp [sixDofModel, sixDofRate, mul_div_cancel₀ _ h0]
    have e1 : p.inertia 1 1 * v 11 = (p.inertia 2 2 - p.inertia 0 0) * y 10 * y 12 + u 4 := by
      rw [← hv]; simp [sixDofModel, sixDofRate, mul_div_cancel₀ _ h1]
    have e2 : p.inertia 2 2 * v 12 = (p.inertia 0 0 - p.inertia 1 1) * y 10 * y 11 + u 5 := by
      rw [← hv]; simp [sixDofModel, sixDofRate, mul_div_cancel₀ _ h2]
    refine ⟨rotEnergy (fun i => p.inertia i i) (rateOf v), momentumSq (fun i => p.inertia i i) (rateOf v), fun h => ⟨?_, ?_⟩⟩
    · simp only [rotEnergy, rateOf, Pi.add_apply, Pi.smul_apply, smul_eq_mul, Matrix.cons_val]
      linear_combination h * (y 10 * e0 + y 11 * e1 + y 12 * e2)
    · simp only [momentumSq, rateOf, Pi.add_apply, Pi.smul_apply, smul_eq_mul, Matrix.cons_val]
      linear_combination 2 * h * (p.inertia 0 0 * y 10 * e0 + p.inertia 1 1 * y 11 * e1 + p.inertia 2 2 * y 12 * e2)

/-- Off-diagonal inertia entries have no influence at all, in any floating point format: inertia matrices with the same diagonal
give the same spacecraft. -/
theorem C41_off_diagonal (env : Env R) (uninit : List Nat → Vec R) (args : SixDofArgs R) (I : Fin 3 → Fin 3 → Fl R)
    (hd : ∀ i, I i i = args.inertiaMatrix i i) :
    newSixDof env uninit { args with inertiaMatrix := I } = newSixDof env uninit args := by
  have hF : ∀ A : Mat R, sixDofF A I = sixDofF A args.inertiaMatrix := by
    intro A; funext s; unfold sixDofF; simp only [hd]
  have hG : ∀ (m : Fl R) (B : Mat R) b, sixDofG m I B b = sixDofG m args.inertiaMatrix B b := by
    intro m B b; funext s; unfold sixDofG; simp only [hd]
  have hax : ∀ acc vel i, sixDofAxis { args with inertiaMatrix := I } acc vel i = sixDofAxis args acc vel i := by
    intro acc vel i; unfold sixDofAxis; simp only [hd]
  unfold newSixDof initSixDof mkSixDofDynamics
  simp only [hax, hF, hG]

end

/-- Along every exact solution without moments that stays inside the rate limits, energy and squared angular momentum are
constant. -/
theorem C41_solutions (env : Env realFmt) (uninit : List Nat → Vec realFmt) (args : SixDofArgs realFmt) (p : SixDofParams ℝ) (hp : p.Of args)
    (hI : ∀ i, p.inertia i i ≠ 0) (e0 : Entity realFmt) (h0 : newSixDof env uninit args = .ok e0) (s : ℝ → Fin 13 → ℝ) (u : ℝ → Fin 6 → ℝ)
    (hu : ∀ t, u t 3 = 0 ∧ u t 4 = 0 ∧ u t 5 = 0) (hin : ∀ t, InsideRates p (rateOf (s t)))
    (hsol : ∀ t, ∃ v : Fin 13 → ℝ, e0.dynamics.computeStateDot (.fin t) (toFl (s t)) (toFl (u t)) = .ok (toFl v) ∧ HasDerivAt s v t) :
    ∀ t t', rotEnergy (fun i => p.inertia i i) (rateOf (s t)) = rotEnergy (fun i => p.inertia i i) (rateOf (s t')) ∧
      momentumSq (fun i => p.inertia i i) (rateOf (s t)) = momentumSq (fun i => p.inertia i i) (rateOf (s t')) := by
  have hr := (sixDof_realised hp hI h0).1
  have hd : ∀ t, HasDerivAt (fun t => rotEnergy (fun i => p.inertia i i) (rateOf (s t))) 0 t ∧
      HasDerivAt (fun t => momentumSq (fun i => p.inertia i i) (rateOf (s t))) 0 t := by
    intro t
    obtain ⟨v, hv, hs⟩ := hsol t
    rw [sixDof_field hr t (s t) (u t), sixDofModel_field_rates p _ _ _ _ (hin t), Except.ok.injEq] at hv
    cases toFl_inj hv
    rw [hasDerivAt_pi] at hs
    obtain ⟨u3, u4, u5⟩ := hu t
    have i0 := hI 0
    have i1 := hI 1
    have i2 := hI 2
    have e0 : p.inertia 0 0 * sixDofRate p.m p.n (fun i => p.inertia i i) args.bodyFrameThrust (s t) (u t) 10
        = (p.inertia 1 1 - p.inertia 2 2) * s t 11 * s t 12 := by
      simp [sixDofRate, mul_div_cancel₀ _ i0, u3]
    have e1 : p.inertia 1 1 * sixDofRate p.m p.n (fun i => p.inertia i i) args.bodyFrameThrust (s t) (u t) 11
        = (p.inertia 2 2 - p.inertia 0 0) * s t 10 * s t 12 := by
      simp [sixDofRate, mul_div_cancel₀ _ i1, u4]
    have e2 : p.inertia 2 2 * sixDofRate p.m p.n (fun i => p.inertia i i) args.bodyFrameThrust (s t) (u t) 12
        = (p.inertia 0 0 - p.inertia 1 1) * s t 10 * s t 11 := by
      simp [sixDofRate, mul_div_cancel₀ _ i2, u5]
    constructor
    · have := (((((hs 10).pow 2).const_mul (p.inertia 0 0)).add (((hs 11).pow 2).const_mul (p.inertia 1 1))).add
        (((hs 12).pow 2).const_mul (p.inertia 2 2))).div_const 2
      refine HasDerivAt.congr_deriv (HasDerivAt.congr_of_eventuallyEq this (.of_forall fun t => ?_)) ?_
      · simp [rotEnergy, rateOf]
      · simp only [Nat.cast_ofNat, Nat.add_one_sub_one, pow_one]
        linear_combination s t 10 * e0 + s t 11 * e1 + s t 12 * e2
    · have := ((((hs 10).const_mul (p.inertia 0 0)).pow 2).add (((hs 11).const_mul (p.inertia 1 1)).pow 2)).add
        (((hs 12).const_mul (p.inertia 2 2)).pow 2)
      refine HasDerivAt.congr_deriv (HasDerivAt.congr_of_eventuallyEq this (.of_forall fun t => ?_)) ?_
      · simp [momentumSq, rateOf]
      · simp only [Nat.cast_ofNat, Nat.add_one_sub_one, pow_one]
        linear_combination 2 * (p.inertia 0 0 * s t 10 * e0 + p.inertia 1 1 * s t 11 * e1 + p.inertia 2 2 * s t 12 * e2)
  exact fun t t' => ⟨is_const_of_deriv_eq_zero (fun t => (hd t).1.differentiableAt) (fun t => (hd t).1.deriv) t t',
    is_const_of_deriv_eq_zero (fun t => (hd t).2.differentiableAt) (fun t => (hd t).2.deriv) t t'⟩


/-! ## C42 the default attitude -/

section
variable {K : Type} {R : Fmt K} [Field K] [LinearOrder K] [IsStrictOrderedRing K]

/-- no quaternion element is given -/
def Spec.NoAttitude (kwargs : List (String × CfgVal R)) : Prop := ∀ k ∈ ["q1", "q2", "q3", "q4"], lookup kwargs k = none

/-- A spacecraft built without quaternion arguments has the quaternion `(0, 0, 0, 0)`. -/
theorem C42_default_zero [Exact R] (env : Env R) (uninit : List Nat → Vec R) (args : SixDofArgs R) (hk : NoAttitude args.kwargs) (e0 : Entity R)
    (h0 : newSixDof env uninit args = .ok e0) :
    e0.state[3]? = some 0 ∧ e0.state[4]? = some 0 ∧ e0.state[5]? = some 0 ∧ e0.state[6]? = some 0 := by
  have hs := (newSixDof_configured h0).state
  have key : ∀ k ∈ ["q1", "q2", "q3", "q4"], ∀ x : Fl R, FieldValue sixDofFields args.kwargs k x → x = 0 := by
    intro k hkm x hx
    obtain ⟨f, hf, hfn, h⟩ := hx
    rw [hk k hkm] at h
    rcases h with ⟨-, h⟩ | ⟨v, h, -⟩
    · rw [h]
      simp only [sixDofFields, List.mem_cons, List.not_mem_nil, or_false] at hf
      rcases hf with rfl | rfl | rfl | rfl | rfl | rfl | rfl | rfl | rfl | rfl | rfl | rfl | rfl <;> rfl
    · cases h
  generalize e0.state = st at hs
  cases hs with | cons _ hs => cases hs with | cons _ hs => cases hs with | cons _ hs =>
  cases hs with | cons h3 hs => cases hs with | cons h4 hs => cases hs with | cons h5 hs => cases hs with | cons h6 hs =>
  obtain ⟨v3, f3, rfl⟩ := h3
  obtain ⟨v4, f4, rfl⟩ := h4
  obtain ⟨v5, f5, rfl⟩ := h5
  obtain ⟨v6, f6, rfl⟩ := h6
  obtain rfl : v3 = 0 := key _ (by simp) _ f3
  obtain rfl : v4 = 0 := key _ (by simp) _ f4
  obtain rfl : v5 = 0 := key _ (by simp) _ f5
  obtain rfl : v6 = 0 := key _ (by simp) _ f6
  simp

/-- With a zero quaternion, reading `orientation` or `quaternion` raises `ValueError`. -/
theorem C42_orientation_raises [Exact R] (hsq : R.sqrt 0 = 0) (e : Entity R) (y : Fin 13 → K) (he : e.state = toFl y) (hq : quatOf y = 0) :
    sixDofQuaternion e = .error .valueError := by
  have h3 : y 3 = 0 := congrFun hq 0
  have h4 : y 4 = 0 := congrFun hq 1
  have h5 : y 5 = 0 := congrFun hq 2
  have h6 : y 6 = 0 := congrFun hq 3
  unfold sixDofQuaternion
  rw [he, toFl13]
  simp [h3, h4, h5, h6, Fl.sqrt, hsq, Fl.eqb]

theorem sixDofModel_post (p : SixDofParams K) [FloorRing K] (b : Bool) (pi : K) (z : Fin 13 → K) (i : Fin 13) (hi : i.val < 10) :
    (sixDofModel p b).post pi z i = z i := by
  obtain ⟨i, _⟩ := i
  interval_cases i <;> rfl

/-- directions that leave the quaternion alone -/
def noQuat (K : Type) [Field K] : Submodule K (Fin 13 → K) where
  carrier := {d | d 3 = 0 ∧ d 4 = 0 ∧ d 5 = 0 ∧ d 6 = 0}
  zero_mem' := by simp
  add_mem' := by rintro a b ⟨a3, a4, a5, a6⟩ ⟨b3, b4, b5, b6⟩; simp [*]
  smul_mem' := by rintro c a ⟨a3, a4, a5, a6⟩; simp [*]

theorem quatOf_zero {y : Fin 13 → K} : quatOf y = 0 ↔ y ∈ noQuat K := by
  constructor
  · intro h
    exact ⟨congrFun h 0, congrFun h 1, congrFun h 2, congrFun h 3⟩
  · rintro ⟨h3, h4, h5, h6⟩
    funext i
    fin_cases i <;> simp [quatOf, *]

theorem sixDof_zero_stable (p : SixDofParams K) (b : Bool) (u : Fin 6 → K) :
    Stable ((sixDofModel p b).field u) (fun y => y ∈ noQuat K) (noQuat K) where
  field := by
    rintro t z ⟨h3, h4, h5, h6⟩
    refine ⟨?_, ?_, ?_, ?_⟩ <;>
    · rw [sixDofModel_field_orbit _ _ _ _ _ _ (by decide)]
      simp [sixDofRate, h3, h4, h5, h6]
  move := fun y d hy hd => (noQuat K).add_mem hy hd

/-- The quaternion stays zero through every history of steps, whichever of them raise, under Euler and every Dormand-Prince
schedule, and so `orientation` keeps raising. -/
theorem C42_stays_zero [FloorRing K] [Exact R] (hpi : 0 < R.pi) (hsq : R.sqrt 0 = 0) (env : Env R) (henv : IsRk dopri env)
    (uninit : List Nat → Vec R) (args : SixDofArgs R) (p : SixDofParams K)
    (hp : p.Of args) (hI : ∀ i, p.inertia i i ≠ 0) (hk : NoAttitude args.kwargs) (e0 : Entity R) (h0 : newSixDof env uninit args = .ok e0)
    (hm : PlainMethod e0.dynamics) (y : Fin 13 → K) (hy : e0.state = toFl y) (hist : List (K × Action R))
    (hreq : ∀ h ∈ hist, ∃ u : Fin 6 → K, Asks env e0 h.2 u) :
    ∃ y' : Fin 13 → K, (e0.run env (stepsOf hist)).state = toFl y' ∧ quatOf y' = 0 ∧
      sixDofQuaternion (e0.run env (stepsOf hist)) = .error .valueError := by
  have hz : quatOf y = 0 := by
    obtain ⟨g3, g4, g5, g6⟩ := C42_default_zero env uninit args hk e0 h0
    rw [hy, toFl13] at g3 g4 g5 g6
    rw [quatOf_zero]
    simp only [List.getElem?_cons_zero, List.getElem?_cons_succ, Option.some.injEq, Fl.zero_fin, Fl.fin.injEq] at g3 g4 g5 g6
    exact ⟨g3, g4, g5, g6⟩
  have hr := (sixDof_realised hp hI h0).1
  obtain ⟨y', g1, g2⟩ := Realises.run_inv henv hpi (M := sixDofModel p args.bodyFrameThrust) (fun y => y ∈ noQuat K) (fun _ => True)
    (S := fun y => y ∈ noQuat K) (D := noQuat K) (fun _ _ => trivial) (fun u _ => sixDof_zero_stable p _ _) (fun _ h => h) (d := e0.dynamics)
    (by
      intro u _ T tab hs y _ hy
      have := rkChain_inv tab _ _ _ (sixDof_zero_stable p args.bodyFrameThrust ((sixDofModel p args.bodyFrameThrust).sat u)).field
        (sixDof_zero_stable p args.bodyFrameThrust ((sixDofModel p args.bodyFrameThrust).sat u)).move 0 y hs hy
      obtain ⟨h3, h4, h5, h6⟩ := this
      refine ⟨?_, ?_, ?_, ?_⟩ <;>
      · rw [sixDofModel_post _ _ _ _ _ (by decide)]
        assumption)
    hist hr hm rfl (fun h hh => by obtain ⟨u, hu⟩ := hreq h hh; exact ⟨u, hu, trivial⟩) hy (quatOf_zero.1 hz)
  exact ⟨y', g1, quatOf_zero.2 g2, C42_orientation_raises hsq _ y' g1 (quatOf_zero.2 g2)⟩

/-- With a zero quaternion body-frame thrust has no influence whatsoever: two such spacecraft of the same parameters, started in
the same state and given the same moments but any thrusts, are in the same state after every history (Euler, or any
Runge-Kutta schedule for each step, the same for both). -/
theorem C42_thrust_inert [FloorRing K] [Exact R] (hpi : 0 < R.pi) (env : Env R) (uninit : List Nat → Vec R) (args1 args2 : SixDofArgs R)
    (p : SixDofParams K) (hp1 : p.Of args1) (hp2 : p.Of args2) (hI : ∀ i, p.inertia i i ≠ 0) (hb1 : args1.bodyFrameThrust = true)
    (hb2 : args2.bodyFrameThrust = true) (e1 e2 : Entity R)
    (h1 : newSixDof env uninit args1 = .ok e1) (h2 : newSixDof env uninit args2 = .ok e2)
    (hm1 : PlainMethod e1.dynamics) (hm2 : PlainMethod e2.dynamics) (hmeth : e2.dynamics.integrationMethod = e1.dynamics.integrationMethod)
    (y : Fin 13 → K) (hy1 : e1.state = toFl y) (hy2 : e2.state = toFl y) (hq : quatOf y = 0) (hist : List (List K × K × Action R × Action R))
    (hreq : ∀ h ∈ hist, ∃ u1 u2 : Fin 6 → K, Asks (scheduled h.1) e1 h.2.2.1 u1 ∧
      Asks (scheduled h.1) e2 h.2.2.2 u2 ∧ u1 3 = u2 3 ∧ u1 4 = u2 4 ∧ u1 5 = u2 5) :
    (runScheduled e1 (hist.map (fun h => (h.1, h.2.1, h.2.2.1)))).state
      = (runScheduled e2 (hist.map (fun h => (h.1, h.2.1, h.2.2.2)))).state := by
  have r1 := (sixDof_realised hp1 hI h1).1
  have r2 := (sixDof_realised hp2 hI h2).1
  rw [hb1] at r1
  rw [hb2] at r2
  obtain ⟨z1, z2, g1, g2, g3, -⟩ := Realises.run_pair hpi (M := sixDofModel p true) (d := e1.dynamics) hm1 (fun a b => a = b ∧ a ∈ noQuat K)
    (fun u1 u2 => u1 3 = u2 3 ∧ u1 4 = u2 4 ∧ u1 5 = u2 5)
    (S := fun y => y ∈ noQuat K) (D := noQuat K) (fun _ _ => trivial) (fun u => sixDof_zero_stable p _ _) (fun a b h => ⟨h.2, h.1 ▸ h.2⟩)
    (by
      rintro u1 u2 ⟨q3, q4, q5⟩ ws T y1 y2 ⟨rfl, hy⟩
      have hst := sixDof_zero_stable p true ((sixDofModel p true).sat u1)
      refine ⟨?_, ?_⟩
      · rw [rkChain_congrOn _ hst.field hst.move (G := (sixDofModel p true).field ((sixDofModel p true).sat u2)) ?_ 0 y1 _ hy]
        rintro t z ⟨h3, h4, h5, h6⟩
        have hu : ∀ i : Fin 6, 3 ≤ i.val → (sixDofModel p true).sat u1 i = (sixDofModel p true).sat u2 i := by
          intro ⟨i, _⟩ hi
          simp only at hi
          interval_cases i
          · simp only [KModel.sat]; exact congrArg _ q3
          · simp only [KModel.sat]; exact congrArg _ q4
          · simp only [KModel.sat]; exact congrArg _ q5
        have : sixDofRate p.m p.n (fun i => p.inertia i i) true z ((sixDofModel p true).sat u1)
            = sixDofRate p.m p.n (fun i => p.inertia i i) true z ((sixDofModel p true).sat u2) := by
          simp [sixDofRate, hillThrust, krot, h3, h4, h5, h6, hu 3 (by decide), hu 4 (by decide), hu 5 (by decide)]
        funext i
        simp only [KModel.field]
        exact congrArg _ (congrFun this i)
      · have := rkChain_inv (flowTab e1.dynamics) _ _ _ hst.field hst.move 0 y1 (flowHs e1.dynamics ws T) hy
        obtain ⟨h3, h4, h5, h6⟩ := this
        refine ⟨?_, ?_, ?_, ?_⟩ <;>
        · rw [sixDofModel_post _ _ _ _ _ (by decide)]
          assumption)
    hist r1 r2 hm1 hm2 rfl hmeth hreq hy1 hy2 ⟨rfl, quatOf_zero.1 hq⟩
  rw [g1, g2, g3]

/-- the default spacecraft: constructed in exact arithmetic, its first step with a thrust request succeeds -/
example : ∃ e : Entity ratFmt, newSixDof (R := ratFmt) (rkEnv dopri (fun _ _ _ => [1, 2])) (fun _ => []) { kwargs := [("name", .str "a"), ("x", .num 5)] } = .ok e ∧
    (decide (e.dynamics.integrationMethod = "RK45") && decide (e.state = toFl (![5, 0, 0, 0, 0, 0, 0, 0, 0, 0, 0, 0, 0] : Fin 13 → ℚ)) &&
    decide (e.resolve (rkEnv dopri (fun _ _ _ => [1, 2])) (.dict [("thrust_x", 7)]) = .ok (.f64, toFl (![7, 0, 0, 0, 0, 0] : Fin 6 → ℚ))) &&
    decide ((e.step (rkEnv dopri (fun _ _ _ => [1, 2])) 1 (.dict [("thrust_x", 7)])).outcome = .ok ())) = true :=
  Demo.of_okAnd (by decide +kernel)
example : NoAttitude (R := ratFmt) [("name", .str "a"), ("x", .num 5)] := by
  intro k hk
  simp at hk
  rcases hk with rfl | rfl | rfl | rfl <;> rfl
example : SixDofParams.Of (R := ratFmt)
    ⟨12, fun i j => if i = j then 573 / 10000 else 0, fun _ => 17453 / 1000000, fun _ => 34907 / 1000000, 41 / 1000000, 1813 / 10, 576, 1, 1027 / 1000000⟩
    { kwargs := [("name", .str "a"), ("x", .num 5)] } :=
  ⟨by decide +kernel, by decide +kernel, .inl ⟨17453 / 1000000, by show NumInput.num _ = _; congr 1, fun _ => rfl⟩,
    .inl ⟨34907 / 1000000, by show NumInput.num _ = _; congr 1, fun _ => rfl⟩, by decide +kernel, by decide +kernel,
    by decide +kernel, by decide +kernel, by decide +kernel⟩
/-- and its rates, zero, are strictly inside the limits -/
example : InsideRates (K := ℚ)
    ⟨12, fun i j => if i = j then 573 / 10000 else 0, fun _ => 17453 / 1000000, fun _ => 34907 / 1000000, 41 / 1000000, 1813 / 10, 576, 1, 1027 / 1000000⟩
    ![0, 0, 0] := by
  unfold InsideRates
  decide +kernel

end

/-! ## C43 limits -/

section
variable {K : Type} {R : Fmt K} [Field K] [LinearOrder K] [IsStrictOrderedRing K]

/-- a limit argument: one number for all axes, or a float64 array of three numbers -/
def Spec.AxisLimits (x : NumInput R) (l : Fin 3 → Fl R) : Prop :=
  (∃ c, x = .num c ∧ ∀ i, l i = c) ∨ x = .array ⟨[3], "float64", [l 0, l 1, l 2]⟩

theorem axisLimits_np {uninit : List Nat → Vec R} {x : NumInput R} {v : Fin 3 → Fl R} (h : AxisLimits x v) :
    numberListToNp uninit x [3] = .ok ⟨[3], "float64", [v 0, v 1, v 2]⟩ := by
  rcases h with ⟨c, rfl, hc⟩ | rfl
  · simp [numberListToNp, bind, Except.bind, pure, Except.pure, List.replicate, hc]
  · simp [numberListToNp, bind, Except.bind, pure, Except.pure]

/-- the limit induced by the reaction wheel on an axis -/
def Spec.wheelLimit (args : SixDofArgs R) (wheel : Fl R) (i : Fin 3) : Fl R := args.inertiaWheel * wheel / args.inertiaMatrix i i

theorem sixDof_config {env : Env R} {uninit : List Nat → Vec R} {a : SixDofArgs R} {e : Entity R} {accL velL : Fin 3 → Fl R}
    (ha : AxisLimits a.angAccLimit accL) (hv : AxisLimits a.angVelLimit velL) (h : newSixDof env uninit a = .ok e) :
    ∃ acc vel : Fin 3 → Fl R, (∀ i, acc i = Fl.pyMin (accL i) (wheelLimit a a.accLimitWheel i)) ∧
      (∀ i, vel i = Fl.pyMin (velL i) (wheelLimit a a.velLimitWheel i)) ∧
      e.dynamics.stateMin = .vec (List.replicate 10 .ninf ++ [-vel 0, -vel 1, -vel 2]) ∧
      e.dynamics.stateMax = .vec (List.replicate 10 .pinf ++ [vel 0, vel 1, vel 2]) ∧
      e.dynamics.angleWrapCenters = none ∧
      e.controlMax = .vec [a.thrustControlLimit, a.thrustControlLimit, a.thrustControlLimit, acc 0 * a.inertiaMatrix 0 0,
        acc 1 * a.inertiaMatrix 1 1, acc 2 * a.inertiaMatrix 2 2] ∧
      e.controlMin = .vec [-1 * a.thrustControlLimit, -1 * a.thrustControlLimit, -1 * a.thrustControlLimit, -1 * (acc 0 * a.inertiaMatrix 0 0),
        -1 * (acc 1 * a.inertiaMatrix 1 1), -1 * (acc 2 * a.inertiaMatrix 2 2)] := by
  have h := instantiate_ok h
  unfold initSixDof at h
  rw [axisLimits_np ha, axisLimits_np hv] at h
  have hax : ∀ i : Fin 3, sixDofAxis a [accL 0, accL 1, accL 2] [velL 0, velL 1, velL 2] i
      = .ok (Fl.pyMin (accL i) (wheelLimit a a.accLimitWheel i), Fl.pyMin (velL i) (wheelLimit a a.velLimitWheel i),
          Fl.pyMin (accL i) (wheelLimit a a.accLimitWheel i) * a.inertiaMatrix i i) := by
    intro i
    fin_cases i <;> simp [sixDofAxis, getIdx, bind, Except.bind, pure, Except.pure, wheelLimit]
  simp only [bind, Except.bind, hax] at h
  split at h
  · cases h
  rename_i d hd
  obtain ⟨g1, -, g3, g4, -⟩ := baseInit_ok h
  unfold mkSixDofDynamics at hd
  simp only [numberListToNp, bind, Except.bind, pure, Except.pure, if_true] at hd
  split at hd
  · cases hd
  rename_i AB hAB
  obtain ⟨A, B⟩ := AB
  simp only [getIdx, List.getElem?_cons_zero, List.getElem?_cons_succ, Option.getD_none] at hd
  obtain ⟨k, hk, -, hd⟩ := mkOdeDyn_ok hd
  refine ⟨fun i => Fl.pyMin (accL i) (wheelLimit a a.accLimitWheel i), fun i => Fl.pyMin (velL i) (wheelLimit a a.velLimitWheel i),
    fun _ => rfl, fun _ => rfl, ?_, ?_, ?_, ?_, ?_⟩
  · rw [g1, hd]
  · rw [g1, hd]
  · rw [g1, hd]
  · rw [g4]
  · rw [g3]; rfl

/-- Whatever the floating point format, solver and actions: after every history ending in a successful step each body rate is NaN or
bounded by both the spacecraft's angular velocity limit of that axis and the one induced by the reaction wheel. -/
theorem C43_angular_velocity [FloorRing K] (env : Env R) (uninit : List Nat → Vec R) (args : SixDofArgs R) (accL velL : Fin 3 → Fl R)
    (ha : AxisLimits args.angAccLimit accL) (hv : AxisLimits args.angVelLimit velL)
    (e0 : Entity R) (h0 : newSixDof env uninit args = .ok e0)
    (h1 : ∀ i, 0 ≤ velL i) (h2 : ∀ i, 0 ≤ wheelLimit args args.velLimitWheel i)
    (ops : List (Op R)) (dt : Fl R) (a : Action R) (hok : ((e0.run env ops).step env dt a).outcome = .ok ()) (i : Fin 3) (w : Fl R)
    (hw : ((e0.run env ops).step env dt a).entity.state[10 + i.val]? = some w) :
    w = .nan ∨ (AbsLe w (velL i) ∧ AbsLe w (wheelLimit args args.velLimitWheel i)) := by
  obtain ⟨acc, vel, -, gv, g1, g2, g3, -⟩ := sixDof_config ha hv h0
  have hn : ∀ i, 0 ≤ vel i := fun i => by rw [gv]; exact pyMin_nonneg (h1 i) (h2 i)
  have hord : Ordered e0.dynamics.stateMin e0.dynamics.stateMax := by
    rw [g1, g2]
    intro i l h hl hh
    rw [Arr.at_eq, Arr.toVec] at hl hh
    match i, hl, hh with
    | 0, hl, hh => cases hl; cases hh; simp
    | 1, hl, hh => cases hl; cases hh; simp
    | 2, hl, hh => cases hl; cases hh; simp
    | 3, hl, hh => cases hl; cases hh; simp
    | 4, hl, hh => cases hl; cases hh; simp
    | 5, hl, hh => cases hl; cases hh; simp
    | 6, hl, hh => cases hl; cases hh; simp
    | 7, hl, hh => cases hl; cases hh; simp
    | 8, hl, hh => cases hl; cases hh; simp
    | 9, hl, hh => cases hl; cases hh; simp
    | 10, hl, hh => cases hl; cases hh; exact neg_le_self' (hn 0)
    | 11, hl, hh => cases hl; cases hh; exact neg_le_self' (hn 1)
    | 12, hl, hh => cases hl; cases hh; exact neg_le_self' (hn 2)
    | i + 13, hl, hh => simp [bget, List.replicate] at hl
  rcases C08_state_limits env e0 ops dt a hord hok (10 + i.val) w hw (by intro cs h; rw [g3] at h; cases h) with h | ⟨lo, hi, k1, k2, h⟩
  · exact .inl h
  · right
    have hlim : lo = -vel i ∧ hi = vel i := by
      rw [g1] at k1
      rw [g2] at k2
      fin_cases i <;> (cases k1; cases k2; exact ⟨rfl, rfl⟩)
    rw [hlim.1, hlim.2, gv] at h
    have hl := Fl.pyMin_le (R := R) (Fl.ne_nan_of_le_right (h1 i)) (Fl.ne_nan_of_le_right (h2 i))
    exact ⟨absLe_mono h hl.1, absLe_mono h hl.2⟩

/-- In exact arithmetic the limits in force are exactly: `± thrust_control_limit` for every thruster, `±` the inertia of the axis times
the smaller of the acceleration limits for the moments, `±` the smaller of the velocity limits for the rates. -/
theorem C43_effective_limits [Exact R] (env : Env R) (uninit : List Nat → Vec R) (args : SixDofArgs R) (p : SixDofParams K) (hp : p.Of args)
    (hI : ∀ i, p.inertia i i ≠ 0) (e0 : Entity R) (h0 : newSixDof env uninit args = .ok e0) (i : Fin 3) :
    e0.controlMax.at i = some (.fin p.thrust) ∧ e0.controlMin.at i = some (.fin (-p.thrust)) ∧
    e0.controlMax.at (3 + i.val) = some (.fin (p.inertia i i * min (p.angAcc i) (p.wheelInertia * p.wheelAcc / p.inertia i i))) ∧
    e0.controlMin.at (3 + i.val) = some (.fin (-(p.inertia i i * min (p.angAcc i) (p.wheelInertia * p.wheelAcc / p.inertia i i)))) ∧
    e0.dynamics.stateMax.at (10 + i.val) = some (.fin (min (p.angVel i) (p.wheelInertia * p.wheelVel / p.inertia i i))) ∧
    e0.dynamics.stateMin.at (10 + i.val) = some (.fin (-min (p.angVel i) (p.wheelInertia * p.wheelVel / p.inertia i i))) := by
  have hdiv : ∀ x i, (.fin x / .fin (p.inertia i i) : Fl R) = .fin (x / p.inertia i i) := fun x i => Fl.fin_div_fin _ _ (hI i)
  have lim : ∀ (x : NumInput R) (v : Fin 3 → K), LimitIs x v → AxisLimits x (fun i => .fin (v i)) := by
    rintro x v (⟨c, rfl, hc⟩ | rfl)
    · exact .inl ⟨_, rfl, fun i => by simp [hc]⟩
    · exact .inr rfl
  obtain ⟨acc, vel, ga, gv, g1, g2, -, g3, g4⟩ := sixDof_config (lim _ _ hp.angAcc) (lim _ _ hp.angVel) h0
  have ea : ∀ i, acc i = .fin (p.accLimit i) := by
    intro i
    rw [ga, wheelLimit, hp.wheelInertia, hp.wheelAcc, hp.inertia, Fl.fin_mul_fin, hdiv, pyMin_fin]; rfl
  have ev : ∀ i, vel i = .fin (p.velLimit i) := by
    intro i
    rw [gv, wheelLimit, hp.wheelInertia, hp.wheelVel, hp.inertia, Fl.fin_mul_fin, hdiv, pyMin_fin]; rfl
  rw [g1, g2, g3, g4]
  fin_cases i <;> simp [Arr.at_eq, Arr.toVec, bget, List.replicate, ea, ev, hp.thrust, hp.inertia, SixDofParams.accLimit, SixDofParams.velLimit, mul_comm]

/-- the default spacecraft in double precision meets the hypotheses, and its step with an excessive moment succeeds -/
example : ∃ e : Entity b64, newSixDof (R := b64) Demo.env (fun _ => []) { kwargs := [("name", .str "a"), ("q4", .num 1)] } = .ok e ∧
    decide ((e.step Demo.env 10 (.dict [("moment_z", .fin 7)])).outcome = .ok ()) = true :=
  Demo.of_okAnd (by decide +kernel)
example : AxisLimits (R := b64) (.num 0.034907) (fun _ => 0.034907) ∧ (0 : Fl b64) ≤ 0.034907 ∧ (0 : Fl b64) ≤ 4.1e-5 * 576 / 0.0573 :=
  ⟨.inl ⟨_, rfl, fun _ => rfl⟩, by decide +kernel, by decide +kernel⟩

end

/-! ## C44 consistency between the spacecraft models -/

section
variable {K : Type} {R : Fmt K} [Field K] [LinearOrder K] [IsStrictOrderedRing K] [Exact R]

/-- With thrust given in Hill's frame (any attitude), or with body-frame thrust and the identity attitude `(0, 0, 0, 1)`, position and
velocity derivatives are those of the point-mass spacecraft of the same mass and mean motion. -/
theorem C44_point_mass (env : Env R) (uninit : List Nat → Vec R) (args : SixDofArgs R) (p : SixDofParams K) (hp : p.Of args)
    (hI : ∀ i, p.inertia i i ≠ 0) (e0 : Entity R) (h0 : newSixDof env uninit args = .ok e0)
    (args' : CwhArgs R) (hm : args'.m = .fin p.m) (hn : args'.n = .fin p.n) (e1 : Entity R) (h1 : newCwhSpacecraft env args' = .ok e1)
    [FloorRing K] (t : K) (y : Fin 13 → K) (u : Fin 6 → K) (hq : args.bodyFrameThrust = false ∨ quatOf y = ![0, 0, 0, 1]) :
    ∃ (v : Fin 13 → K) (v' : Fin 6 → K), e0.dynamics.computeStateDot (.fin t) (toFl y) (toFl u) = .ok (toFl v) ∧
      e1.dynamics.computeStateDot (.fin t) (toFl (orbitOf y)) (toFl ![u 0, u 1, u 2]) = .ok (toFl v') ∧ orbitOf v = v' := by
  have hr := (sixDof_realised hp hI h0).1
  refine ⟨_, _, sixDof_field hr t y u, C29_equations env args' p.m p.n hm hn e1 h1 [] t (orbitOf y) ![u 0, u 1, u 2], ?_⟩
  have hh : hillThrust args.bodyFrameThrust y u = ![u 0, u 1, u 2] := by
    unfold hillThrust
    rcases hq with hq | hq
    · simp [hq]
    · split
      · have h3 : y 3 = 0 := congrFun hq 0
        have h4 : y 4 = 0 := congrFun hq 1
        have h5 : y 5 = 0 := congrFun hq 2
        have h6 : y 6 = 1 := congrFun hq 3
        funext i
        fin_cases i <;> simp [krot, h3, h4, h5, h6]
      · rfl
  funext i
  fin_cases i <;> simp [orbitOf, sixDofModel_field_orbit, sixDofRate, cw, hh]

end

open Real in
/-- With the attitude turned by `theta` about `z`, motion in the plane `z = 0` and spin about `z` only, the derivative is that of the planar
rotating spacecraft of the same mass, mean motion and inertia about `z`: position and velocity always; the spin as long as it is strictly
inside both velocity limits and the moment respects the planar spacecraft's acceleration limit. -/
theorem C44_planar (env : Env realFmt) (uninit : List Nat → Vec realFmt) (args : SixDofArgs realFmt) (p : SixDofParams ℝ) (hp : p.Of args)
    (hI : ∀ i, p.inertia i i ≠ 0) (hb : args.bodyFrameThrust = true) (e0 : Entity realFmt) (h0 : newSixDof env uninit args = .ok e0)
    (args' : Rot2dArgs realFmt) (p' : Rot2dParams ℝ) (hp' : p'.Of args') (hm : p'.m = p.m) (hn : p'.n = p.n) (hJ : p'.inertia = p.inertia 2 2)
    (e1 : Entity realFmt) (h1 : newRot2d env args' = .ok e1) (t x y θ vx vy w fx fy mz : ℝ) :
    ∃ (v : Fin 13 → ℝ) (v' : Fin 6 → ℝ),
      e0.dynamics.computeStateDot (.fin t) (toFl ![x, y, 0, 0, 0, sin (θ / 2), cos (θ / 2), vx, vy, 0, 0, 0, w]) (toFl ![fx, fy, 0, 0, 0, mz])
        = .ok (toFl v) ∧
      e1.dynamics.computeStateDot (.fin t) (toFl ![x, y, θ, vx, vy, w]) (toFl ![fx, fy, mz]) = .ok (toFl v') ∧
      v 0 = v' 0 ∧ v 1 = v' 1 ∧ v 2 = 0 ∧ v 7 = v' 3 ∧ v 8 = v' 4 ∧ v 9 = 0 ∧
      (InsideRates p ![0, 0, w] → |w| < p'.velLimit → |mz / p'.inertia| ≤ p'.accLimit → v 10 = 0 ∧ v 11 = 0 ∧ v 12 = v' 5) := by
  have hr := (sixDof_realised hp hI h0).1
  have hr' := (rot2d_realised hp' h1).1
  rw [hb] at hr
  refine ⟨_, _, sixDof_field hr t _ _, rot2d_field _ hr' t _ _, ?_⟩
  have e1 : θ = 2 * (θ / 2) := by ring
  have hc := cos_two_mul (θ / 2)
  have hs := sin_two_mul (θ / 2)
  rw [← e1] at hc hs
  have hsc := sin_sq_add_cos_sq (θ / 2)
  have hh : hillThrust true ![x, y, 0, 0, 0, sin (θ / 2), cos (θ / 2), vx, vy, 0, 0, 0, w] ![fx, fy, 0, 0, 0, mz]
      = ![cos θ * fx - sin θ * fy, sin θ * fx + cos θ * fy, 0] := by
    funext i
    fin_cases i
    · simp [hillThrust, krot, hc, hs]; linear_combination (-fx) * hsc
    · simp [hillThrust, krot, hc, hs]; linear_combination (-fy) * hsc
    · simp [hillThrust, krot]
  refine ⟨?_, ?_, ?_, ?_, ?_, ?_, ?_⟩
  · rw [sixDofModel_field_orbit _ _ _ _ _ _ (by decide)]
    simp [sixDofRate, KModel.field, rot2dModel, klimit, kclip]
  · rw [sixDofModel_field_orbit _ _ _ _ _ _ (by decide)]
    simp [sixDofRate, KModel.field, rot2dModel, klimit, kclip]
  · rw [sixDofModel_field_orbit _ _ _ _ _ _ (by decide)]
    simp [sixDofRate]
  · rw [sixDofModel_field_orbit _ _ _ _ _ _ (by decide)]
    simp only [sixDofRate, hh, KModel.field, rot2dModel, klimit, kclip, hm, hn]
    simp [realFmt]
  · rw [sixDofModel_field_orbit _ _ _ _ _ _ (by decide)]
    simp only [sixDofRate, hh, KModel.field, rot2dModel, klimit, kclip, hm, hn]
    simp [realFmt]
  · rw [sixDofModel_field_orbit _ _ _ _ _ _ (by decide)]
    simp [sixDofRate, hh]
  · intro hin hw hmz
    rw [sixDofModel_field_rates p true _ t _ (by simpa [rateOf] using hin)]
    rw [abs_lt] at hw
    rw [abs_le, hJ] at hmz
    refine ⟨by simp [sixDofRate], by simp [sixDofRate], ?_⟩
    simp only [sixDofRate, KModel.field, rot2dModel, klimit, kclip, Matrix.cons_val]
    simp [not_le.2 hw.1, not_le.2 hw.2, max_eq_left hmz.1, min_eq_left hmz.2, hJ]

end SAD
