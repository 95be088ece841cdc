import Verif.Lemmas.Rotational

/-! # The six-degrees-of-freedom spacecraft over the field -/

set_option linter.unusedSectionVars false

namespace SAD
open Spec

section
variable {K : Type} {R : Fmt K} [Field K] [LinearOrder K] [IsStrictOrderedRing K] [Exact R]

theorem toFl13 (y : Fin 13 → K) :
    (toFl y : Vec R) = [.fin (y 0), .fin (y 1), .fin (y 2), .fin (y 3), .fin (y 4), .fin (y 5), .fin (y 6), .fin (y 7), .fin (y 8),
      .fin (y 9), .fin (y 10), .fin (y 11), .fin (y 12)] := by
  simp [toFl, List.ofFn_succ]

theorem half_fin : (0.5 : Fl R) = .fin (1 / 2) := by
  show Fl.round ((5 : ℕ) / (10 : K) ^ 1 : K) = _
  rw [Fl.round_exact]
  norm_num

/-- (unnormalised) rotation matrix of the quaternion `q` (scalar last) applied to `x` -/
def krot (q : Fin 4 → K) (x : Fin 3 → K) : Fin 3 → K :=
  ![(q 3 ^ 2 + q 0 ^ 2 - q 1 ^ 2 - q 2 ^ 2) * x 0 + 2 * (q 0 * q 1 - q 2 * q 3) * x 1 + 2 * (q 0 * q 2 + q 1 * q 3) * x 2,
    2 * (q 0 * q 1 + q 2 * q 3) * x 0 + (q 3 ^ 2 - q 0 ^ 2 + q 1 ^ 2 - q 2 ^ 2) * x 1 + 2 * (q 1 * q 2 - q 0 * q 3) * x 2,
    2 * (q 0 * q 2 - q 1 * q 3) * x 0 + 2 * (q 1 * q 2 + q 0 * q 3) * x 1 + (q 3 ^ 2 - q 0 ^ 2 - q 1 ^ 2 + q 2 ^ 2) * x 2]

theorem applyQuat_fin (x : Fin 3 → K) (q : Fin 4 → K) : applyQuat (toFl x : Vec R) (toFl q) = .ok (toFl (krot q x)) := by
  rw [toFl3 x, toFl4 q, toFl3]
  simp [applyQuat, hamiltonProduct, bind, Except.bind, pure, Except.pure, krot]
  refine ⟨?_, ?_, ?_⟩ <;> ring

/-- the thrust in Hill's frame -/
def hillThrust (body : Bool) (y : Fin 13 → K) (u : Fin 6 → K) : Fin 3 → K :=
  if body then krot ![y 3, y 4, y 5, y 6] ![u 0, u 1, u 2] else ![u 0, u 1, u 2]

def sixDofRate (m n : K) (I : Fin 3 → K) (body : Bool) (y : Fin 13 → K) (u : Fin 6 → K) : Fin 13 → K :=
  ![y 7, y 8, y 9,
    (y 6 * y 10 - y 5 * y 11 + y 4 * y 12) / 2,
    (y 5 * y 10 + y 6 * y 11 - y 3 * y 12) / 2,
    (-y 4 * y 10 + y 3 * y 11 + y 6 * y 12) / 2,
    (-y 3 * y 10 - y 4 * y 11 - y 5 * y 12) / 2,
    3 * n ^ 2 * y 0 + 2 * n * y 8 + hillThrust body y u 0 / m,
    -2 * n * y 7 + hillThrust body y u 1 / m,
    -n ^ 2 * y 2 + hillThrust body y u 2 / m,
    ((I 1 - I 2) * y 11 * y 12 + u 3) / I 0,
    ((I 2 - I 0) * y 10 * y 12 + u 4) / I 1,
    ((I 0 - I 1) * y 10 * y 11 + u 5) / I 2]

/-- the six-degrees-of-freedom system -/
def sixDofModel (p : SixDofParams K) (body : Bool) : KModel K 13 6 where
  dom := fun _ => True
  rate := fun _ y u => sixDofRate p.m p.n (fun i => p.inertia i i) body y u
  lo := ![none, none, none, none, none, none, none, none, none, none, some (-p.velLimit 0), some (-p.velLimit 1), some (-p.velLimit 2)]
  hi := ![none, none, none, none, none, none, none, none, none, none, some (p.velLimit 0), some (p.velLimit 1), some (p.velLimit 2)]
  dlo := fun _ => none
  dhi := fun _ => none
  centre := fun _ => none
  ulo := ![some (-p.thrust), some (-p.thrust), some (-p.thrust), some (-(p.accLimit 0 * p.inertia 0 0)),
    some (-(p.accLimit 1 * p.inertia 1 1)), some (-(p.accLimit 2 * p.inertia 2 2))]
  uhi := ![some p.thrust, some p.thrust, some p.thrust, some (p.accLimit 0 * p.inertia 0 0),
    some (p.accLimit 1 * p.inertia 1 1), some (p.accLimit 2 * p.inertia 2 2)]

theorem limitIs_np {uninit : List Nat → Vec R} {x : NumInput R} {v : Fin 3 → K} (h : LimitIs x v) :
    numberListToNp uninit x [3] = .ok ⟨[3], "float64", [.fin (v 0), .fin (v 1), .fin (v 2)]⟩ := by
  rcases h with ⟨c, rfl, hc⟩ | rfl
  · simp [numberListToNp, bind, Except.bind, pure, Except.pure, List.replicate, hc]
  · simp [numberListToNp, bind, Except.bind, pure, Except.pure]

theorem sixDof_rhs {m n : K} (hm0 : m ≠ 0) {I : Fin 3 → Fin 3 → Fl R} {J : Fin 3 → K} (hI : ∀ i, I i i = .fin (J i)) (hJ : ∀ i, J i ≠ 0)
    (body : Bool) {A B : Mat R} (hAB : generateCwhMatrices (.fin m) (.fin n) "3d" = .ok (A, B)) (t : Fl R) (y : Fin 13 → K) (u : Fin 6 → K) :
    affineRhs (sixDofF A I) (sixDofG (.fin m) I B body) t (toFl y) (toFl u) = .ok (toFl (sixDofRate m n J body y u)) := by
  unfold generateCwhMatrices at hAB
  simp only [show ("3d" = "2d") = False from by simp, if_true, if_false] at hAB
  obtain ⟨r, hr, hAB⟩ := Except.bind_ok.1 hAB
  have hr' := hr
  rw [Fl.one_fin] at hr
  obtain ⟨-, rfl⟩ := pyDiv_fin hr
  cases hAB
  have hdiv : ∀ x i, (.fin x / .fin (J i) : Fl R) = .fin (x / J i) := fun x i => Fl.fin_div_fin _ _ (hJ i)
  have a1 := applyQuat_fin (R := R) ![1, 0, 0] ![y 3, y 4, y 5, y 6]
  have a2 := applyQuat_fin (R := R) ![0, 1, 0] ![y 3, y 4, y 5, y 6]
  have a3 := applyQuat_fin (R := R) ![0, 0, 1] ![y 3, y 4, y 5, y 6]
  simp only [toFl3, toFl4, Matrix.cons_val] at a1 a2 a3
  rw [toFl13 y, toFl6 u, toFl13]
  cases body
  · simp [affineRhs, sixDofF, sixDofG, matVec, dot, bind, Except.bind, vadd, bcast2, pure, Except.pure, sixDofRate, hillThrust, half_fin, hI, hdiv]
    refine ⟨?_, ?_, ?_, ?_, ?_, ?_, ?_, ?_, ?_, ?_⟩ <;> ring
  · simp only [affineRhs, sixDofG, List.drop, List.take, if_true, Fl.one_fin, Fl.zero_fin, a1, a2, a3]
    simp [affineRhs, sixDofF, matVec, dot, bind, Except.bind, vadd, bcast2, pure, Except.pure, sixDofRate, hillThrust, half_fin, hI, hdiv,
      hr, vscale, krot]
    refine ⟨?_, ?_, ?_, ?_, ?_, ?_, ?_, ?_, ?_, ?_⟩ <;> ring

theorem sixDof_realised {env : Env R} {uninit : List Nat → Vec R} {a : SixDofArgs R} {p : SixDofParams K} (hp : p.Of a)
    (hI : ∀ i, p.inertia i i ≠ 0) {e : Entity R} (h : newSixDof env uninit a = .ok e) :
    Realises e (sixDofModel p a.bodyFrameThrust) ∧ p.m ≠ 0 ∧
      e.dynamics.integrationMethod = a.integrationMethod ∧ some e.dynamics.trajectorySamples = a.trajectorySamples := by
  have h := instantiate_ok h
  unfold initSixDof at h
  rw [limitIs_np hp.angAcc, limitIs_np hp.angVel] at h
  have hdiv : ∀ x i, (.fin x / .fin (p.inertia i i) : Fl R) = .fin (x / p.inertia i i) := fun x i => Fl.fin_div_fin _ _ (hI i)
  have hax : ∀ i : Fin 3, sixDofAxis a [.fin (p.angAcc 0), .fin (p.angAcc 1), .fin (p.angAcc 2)] [.fin (p.angVel 0), .fin (p.angVel 1), .fin (p.angVel 2)] i
      = .ok (.fin (p.accLimit i), .fin (p.velLimit i), .fin (p.accLimit i * p.inertia i i)) := by
    intro i
    fin_cases i <;> simp [sixDofAxis, getIdx, bind, Except.bind, pure, Except.pure, hp.wheelInertia, hp.wheelAcc, hp.wheelVel, hp.inertia, hdiv,
      pyMin_fin, SixDofParams.accLimit, SixDofParams.velLimit]
  simp only [bind, Except.bind, hax] at h
  split at h
  · cases h
  rename_i d hd
  obtain ⟨g1, -, g3, g4, -⟩ := baseInit_ok h
  unfold mkSixDofDynamics at hd
  simp only [numberListToNp, bind, Except.bind, pure, Except.pure, if_true] at hd
  split at hd
  · cases hd
  rename_i AB hAB
  obtain ⟨A, B⟩ := AB
  simp only [getIdx, List.getElem?_cons_zero, List.getElem?_cons_succ, Option.getD_none] at hd
  obtain ⟨k, hk, -, hd⟩ := mkOdeDyn_ok hd
  simp only at hAB hd
  rw [hp.m, hp.n] at hAB
  have hm0 : p.m ≠ 0 := by
    have hAB := hAB
    unfold generateCwhMatrices at hAB
    simp only [show ("3d" = "2d") = False from by simp, if_true, if_false] at hAB
    obtain ⟨r, hr, -⟩ := Except.bind_ok.1 hAB
    rw [Fl.one_fin] at hr
    exact (pyDiv_fin hr).1
  refine ⟨⟨⟨?_, ?_, .inl ?_, .inl ?_, .inr ?_, .inr ?_, .inl ?_⟩, .inl ?_, .inl ?_⟩, hm0, ?_, ?_⟩
  · rw [g1, hd]
  · intro t y u _
    rw [g1, hd, hp.m]
    exact sixDof_rhs hm0 (fun i => hp.inertia i i) hI _ hAB (.fin t) y u
  · rw [g1, hd]; simp [sixDofModel, List.ofFn_succ, loFl, List.replicate]
  · rw [g1, hd]; simp [sixDofModel, List.ofFn_succ, hiFl, List.replicate]
  · rw [g1, hd]; simp [sixDofModel, loFl]
  · rw [g1, hd]; simp [sixDofModel, hiFl]
  · rw [g1, hd]; simp [sixDofModel]
  · rw [g3]; simp [sixDofModel, List.ofFn_succ, loFl, hp.thrust]
  · rw [g4]; simp [sixDofModel, List.ofFn_succ, hiFl, hp.thrust]
  · rw [g1, hd]
  · rw [g1, hd]; exact hk.symm

end
end SAD
