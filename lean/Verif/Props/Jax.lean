import Verif.Lemmas.Jax
import Verif.Props.Solver
import Verif.Props.Rotational
import Verif.Props.Sun
import Verif.Props.Turn
import Verif.Props.SciPy

/-!
# C95: integration with JAX
-/

set_option linter.unusedSectionVars false

namespace SAD
open Spec Real

/-! ## steps that take no time, and rates that are not numbers -/

section anyFormat
variable {K : Type} {R : Fmt K} [Field K] [LinearOrder K]

theorem mem_of_bget {α : Type} {xs : List α} {i : Nat} {x : α} (h : bget xs i = some x) : x ∈ xs := by
  unfold bget at h
  split at h
  · cases h; simp
  · exact List.mem_of_getElem? h

theorem bcast2_nan {f : Fl R → Fl R → Fl R} (hf : ∀ y, f .nan y = .nan) {xs ys zs : Vec R} (hx : ∀ x ∈ xs, x = .nan)
    (h : bcast2 f xs ys = .ok zs) : ∀ z ∈ zs, z = .nan := by
  intro z hz
  obtain ⟨i, hi⟩ := List.getElem?_of_mem hz
  obtain ⟨x, y, e1, -, rfl⟩ := bcast2_bget h (bget_of_get hi)
  rw [hx x (mem_of_bget e1), hf]

variable [FloorRing K]

/-- clipping and wrapping keep NaNs -/
theorem nan_kept {d : Dyn R} {y c s : Vec R} (hy : ∀ x ∈ y, x = .nan) (h1 : npClip y d.stateMin d.stateMax = .ok c)
    (h2 : d.wrapAngles c = .ok s) : ∀ x ∈ s, x = .nan := by
  unfold npClip at h1
  obtain ⟨z, g1, g2⟩ := Except.bind_ok.1 h1
  have hc := bcast2_nan (fun _ => rfl) (bcast2_nan (fun _ => rfl) hy g1) g2
  unfold Dyn.wrapAngles at h2
  split at h2
  · cases h2
    exact hc
  · refine bcast2_nan (fun y => ?_) hc h2
    split
    · rfl
    · unfold wrapElem
      rw [anyNan_add, show Fl.pyMod (.nan : Fl R) (2 * Fl.pi) = .nan from rfl, anyNan_sub, anyNan_add]

theorem jaxTimes_nonpos [IsStrictOrderedRing K] (hR : Sound R) {T : Fl R} (hT : ¬ 0 < T) : ∀ t ∈ jaxTimes T, ¬ 0 < t := by
  intro t ht
  rcases List.mem_append.1 ht with ht | ht
  · obtain ⟨i, -, rfl⟩ := List.mem_map.1 ht
    have h10 : ((10 : ℕ) : K) ≠ 0 := by norm_num
    have hq : (.fin 0 : Fl R) ≤ .fin ((i + 1 : Nat) : K) / 10 := by
      have hm := hR.mono 0 (((i + 1 : Nat) : K) / ((10 : Nat) : K)) (by positivity)
      rw [hR.rnd_zero] at hm
      rw [show (10 : Fl R) = .fin ((10 : ℕ) : K) from rfl]
      show .fin 0 ≤ Fl.div (.fin ((i + 1 : Nat) : K) : Fl R) (.fin ((10 : ℕ) : K))
      simp only [Fl.div, h10, if_false]
      exact hm
    generalize (Fl.fin ((i + 1 : Nat) : K) / 10 : Fl R) = q at hq
    rw [Fl.zero_fin] at hT ⊢
    have hpos : ∀ x : Fl R, x = .nan ∨ x = .ninf → ¬ (.fin 0 : Fl R) < x := by
      rintro x (rfl | rfl)
      · exact Fl.lt_nan _
      · intro h; cases h
    cases q with
    | nan => exact absurd hq (Fl.le_nan _)
    | ninf => cases hq
    | pinf =>
      cases T with
      | nan => exact hpos _ (.inl rfl)
      | ninf => exact hpos _ (.inr rfl)
      | pinf => exact absurd rfl hT
      | fin a =>
        rw [Fl.fin_lt_fin, not_lt] at hT
        apply hpos
        show Fl.infSign a = .nan ∨ Fl.infSign a = .ninf
        unfold Fl.infSign
        rw [if_neg (not_lt.2 hT)]
        split <;> simp
    | fin b =>
      rw [Fl.fin_le_fin] at hq
      cases T with
      | nan => exact hpos _ (.inl rfl)
      | pinf => exact absurd rfl hT
      | ninf =>
        apply hpos
        show Fl.neg (Fl.infSign b) = .nan ∨ Fl.neg (Fl.infSign b) = .ninf
        unfold Fl.infSign
        split
        · exact .inl rfl
        · rename_i h
          rw [if_pos (lt_of_le_of_ne hq (Ne.symm h))]
          exact .inr rfl
      | fin a =>
        rw [Fl.fin_lt_fin, not_lt] at hT
        have hm := hR.mono (a * b) 0 (mul_nonpos_of_nonpos_of_nonneg hT hq)
        rw [hR.rnd_zero] at hm
        change ¬ (.fin 0 : Fl R) < Fl.round (a * b)
        generalize (Fl.round (a * b) : Fl R) = r at hm
        cases r with
        | nan => exact Fl.lt_nan _
        | ninf => exact hpos _ (.inr rfl)
        | pinf => cases hm
        | fin c =>
          rw [Fl.fin_lt_fin, not_lt]
          rwa [Fl.fin_le_fin] at hm
  · rw [List.mem_singleton.1 ht]; exact hT

/-- A step whose duration is not positive (zero, negative, or NaN) turns every element of the state into NaN if it is integrated with JAX, in any
arithmetic: `odeint` evaluates the polynomial of a step it never took. The other methods leave the state as it is (C19). -/
theorem C95_no_time [IsStrictOrderedRing K] (hR : Sound R) (fuel : Nat) (e : Entity R) (hc : e.dynamics.custom = none) (hm : e.dynamics.integrationMethod = "RK45_JAX")
    (T : Fl R) (hT : ¬ 0 < T) (a : Action R) (hok : (e.step (jaxEnv fuel) T a).outcome = .ok ()) :
    ∀ x ∈ (e.step (jaxEnv fuel) T a).entity.state, x = .nan := by
  obtain ⟨v, rows, yf, c, -, h1, h2, -, h3, h4⟩ := C20_jax_step (jaxEnv fuel) e T a hc hm hok
  have h1' : jaxOdeint fuel (fun t y => e.dynamics.rhs t y v) e.state T = .ok rows := h1
  have h1 := h1'
  unfold jaxOdeint at h1
  obtain ⟨k, g1, h1⟩ := Except.bind_ok.1 h1
  obtain ⟨f0, g2, h1⟩ := Except.bind_ok.1 h1
  obtain ⟨dt, g3, h1⟩ := Except.bind_ok.1 h1
  obtain ⟨rows', k1, k2⟩ := jaxOdeint_stuck (fuel := fuel) (T := T) (by rw [Fl.zero_fin]; show Fl.add (.fin 0 : Fl R) (Fl.neg (.fin 0)) = _; simp only [Fl.neg, Fl.add, neg_zero, add_zero]; exact hR.rnd_zero) g1 g2 g3 (fun t ht h => jaxTimes_nonpos hR hT t ht h.1)
  rw [h1'] at k1
  cases k1
  rw [h2] at k2
  cases k2
  exact nan_kept (fun x hx => List.eq_of_mem_replicate hx) (npClip_iff.2 h3) h4

theorem jaxInitialStep_nan {f : Rhs R} {y0 f0 : Vec R} (hf : Total f y0.length) (hl : f0.length = y0.length) (h0 : .nan ∈ f0) :
    jaxInitialStep f y0 f0 = .ok .nan := by
  have hd1 : jaxNorm (List.zipWith (· / ·) f0 (y0.map fun y => jaxTol + y.abs * jaxTol)) = .nan := by
    unfold jaxNorm
    rw [foldl_sq_nan _ _ (.inr (zipWith_nan anyNan_div (by simp [hl]) h0))]
    rfl
  unfold jaxInitialStep
  simp only [hd1]
  generalize (if jaxNorm (List.zipWith (· / ·) y0 (y0.map fun y => jaxTol + y.abs * jaxTol)) < (1 / 100000 : Fl R) ∨ (.nan : Fl R) < 1 / 100000
    then (1 / 1000000 : Fl R) else _) = h0
  obtain ⟨k, h1, h2⟩ := hf (0 + h0) (List.zipWith (fun y k => y + h0 * k) y0 f0) (by simp [hl])
  simp only [h1, fitRow_self h2, bind, Except.bind, pure, Except.pure]
  rw [if_neg (by rintro ⟨h, -⟩; exact Fl.nan_le _ h)]
  have e1 : Fl.npMax (.nan : Fl R) (jaxNorm (List.zipWith (· / ·) (List.zipWith (· - ·) k f0) (y0.map fun y => jaxTol + y.abs * jaxTol)) / h0) = .nan := rfl
  have e2 : ∀ x : Fl R, Fl.npMin x .nan = .nan := fun x => by
    unfold Fl.npMin
    split
    · cases x <;> simp_all [Fl.isNan]
    · rw [if_neg (Fl.lt_nan _)]
  rw [e1, anyDiv_nan, show powSci (.nan : Fl R) (1 / 5) = .nan from rfl, e2]

theorem bcast2_error {α β γ : Type} {f : α → β → γ} {xs : List α} {ys : List β} {x : PyErr} (h : bcast2 f xs ys = .error x) : x = .valueError := by
  unfold bcast2 at h
  split at h
  · cases h
  · split at h <;> cases h
    rfl

theorem bind_error {α β : Type} {x : Py α} {f : α → Py β} {ex : PyErr} (h : (x >>= f) = .error ex) : x = .error ex ∨ ∃ a, x = .ok a ∧ f a = .error ex := by
  cases x with
  | error e => exact .inl (by simpa [bind, Except.bind] using h)
  | ok a => exact .inr ⟨a, rfl, h⟩

theorem npClip_error {u : Vec R} {lo hi : Arr R} {x : PyErr} (h : npClip u lo hi = .error x) : x = .valueError := by
  unfold npClip at h
  rcases bind_error h with h | ⟨a, -, h⟩ <;> exact bcast2_error h

theorem npWhere_error {α : Type} {c : List Bool} {u v : List α} {x : PyErr} (h : npWhere c u v = .error x) : x = .valueError := by
  unfold npWhere at h
  rcases bind_error h with h | ⟨a, -, h⟩ <;> exact bcast2_error h

/-- If some element of the model's derivative is NaN when the step starts, a step with JAX does not hang as one with SciPy does (C92): it
returns, or raises for the shape of the limits. But if it returns, every element of the new state is NaN. In any arithmetic, for any duration. -/
theorem C95_nan (hz : (0 - 0 : Fl R) = 0) (fuel : Nat) (e : Entity R) (hc : e.dynamics.custom = none) (hm : e.dynamics.integrationMethod = "RK45_JAX")
    (T : Fl R) (a : Action R) (v : Vec R) (hv : Applied (jaxEnv fuel) e a v)
    (hrhs : ∀ t y, y.length = e.state.length → ∃ k, e.dynamics.rhs t y v = .ok k ∧ k.length = e.state.length)
    (hn : ∃ k, e.dynamics.rhs 0 e.state v = .ok k ∧ .nan ∈ k) :
    (e.step (jaxEnv fuel) T a).outcome ≠ .error .diverges ∧
    ((e.step (jaxEnv fuel) T a).outcome = .ok () → ∀ x ∈ (e.step (jaxEnv fuel) T a).entity.state, x = .nan) := by
  obtain ⟨k, k1, k2⟩ := hn
  have hk : k.length = e.state.length := by
    obtain ⟨k', k3, k4⟩ := hrhs 0 e.state rfl
    rw [k1] at k3
    cases k3
    exact k4
  obtain ⟨rows, g1, g2⟩ := jaxOdeint_stuck (fuel := fuel) (f := fun t y => e.dynamics.rhs t y v) (T := T) (by rw [hz]; simp) k1 (fitRow_self hk)
    (jaxInitialStep_nan hrhs hk k2) (fun t _ h => Fl.lt_nan _ h.2)
  constructor
  · intro h
    obtain ⟨ty, u, hr, h1⟩ := applied_iff.1 hv
    obtain ⟨w, h4⟩ := exceeds_of_npClip h1
    unfold Entity.step at h
    simp only [hr, h4, h1] at h
    have hcsd : e.dynamics.computeStateDot T (List.replicate e.state.length .nan) v ≠ .error .diverges := by
      intro hx
      obtain ⟨k', k3, -⟩ := hrhs T (List.replicate e.state.length .nan) (by simp)
      unfold Dyn.computeStateDot at hx
      rw [k3] at hx
      rcases bind_error hx with hx | ⟨s1, hs1, hx⟩
      · cases hx
      rcases bind_error hx with hx | ⟨s2, hs2, hx⟩
      · cases npClip_error hx
      unfold Dyn.clipStateDotByStateLimits at hx
      rcases bind_error hx with hx | ⟨s3, -, hx⟩
      · cases bcast2_error hx
      rcases bind_error hx with hx | ⟨s4, -, hx⟩
      · cases bcast2_error hx
      rcases bind_error hx with hx | ⟨s5, -, hx⟩ <;> cases npWhere_error hx
    have hd : ∀ x, (e.dynamics.step (jaxEnv fuel) T e.state v).2 = .error x → x ≠ .diverges := by
      intro x hx hdiv
      subst hdiv
      unfold Dyn.step at hx
      rw [rawStep_ode hc] at hx
      rcases bind_error hx with hx | ⟨p, -, hx⟩
      · unfold Dyn.odeStep at hx
        simp only [hm, show ("RK45_JAX" = "RK45") = False from by simp, if_false, if_true] at hx
        split at hx
        · cases hx
        split at hx
        · cases hx
        rcases bind_error hx with hx | ⟨r, hr2, hx⟩
        · rw [show (jaxEnv fuel).odeint (fun t y => e.dynamics.computeStateDotJax t y v) e.state T = .ok rows from g1] at hx
          cases hx
        rw [show (jaxEnv fuel).odeint (fun t y => e.dynamics.computeStateDotJax t y v) e.state T = .ok rows from g1] at hr2
        cases hr2
        have hlr : lastRow rows = .ok (List.replicate e.state.length .nan) := by simp [lastRow, g2]
        rcases bind_error hx with hx | ⟨r, hr2, hx⟩
        · rw [hlr] at hx; cases hx
        rw [hlr] at hr2
        cases hr2
        rcases bind_error hx with hx | ⟨sd, -, hx⟩
        · exact hcsd hx
        · cases hx
      · rcases bind_error hx with hx | ⟨q, -, hx⟩
        · cases npClip_error hx
        rcases bind_error hx with hx | ⟨q, -, hx⟩
        · unfold Dyn.wrapAngles at hx
          split at hx
          · cases hx
          · cases bcast2_error hx
        · cases hx
    generalize e.dynamics.step (jaxEnv fuel) T e.state v = ds at h hd
    obtain ⟨d, r⟩ := ds
    cases r with
    | error x => exact hd x rfl (Except.error.inj h)
    | ok p => cases h
  · intro hok
    obtain ⟨v', rows', yf, c, h0, h1, h2, -, h3, h4⟩ := C20_jax_step (jaxEnv fuel) e T a hc hm hok
    obtain rfl : v' = v := by
      obtain ⟨ty, u, hr, h1⟩ := applied_iff.1 hv
      obtain ⟨ty', u', hr', h1'⟩ := applied_iff.1 h0
      rw [hr] at hr'
      cases hr'
      rw [h1] at h1'
      exact (Except.ok.inj h1').symm
    rw [show (jaxEnv fuel).odeint (fun t y => e.dynamics.rhs t y v') e.state T = .ok rows from g1] at h1
    cases h1
    rw [h2] at g2
    cases g2
    exact nan_kept (fun x hx => List.eq_of_mem_replicate hx) (npClip_iff.2 h3) h4

end anyFormat

/-- A step integrated with JAX's `odeint` that returns has controlled its error: the new state is the clipped and wrapped answer of adaptive
Dormand-Prince steps for the model's raw derivative, of which none was accepted with an estimated error above the tolerance. The reported
derivative is the limited one at the unclipped answer. -/
theorem C95_error_controlled {n : Nat} (hn : 0 < n) (fuel : Nat) (e : Entity realFmt) (hc : e.dynamics.custom = none)
    (hm : e.dynamics.integrationMethod = "RK45_JAX") (y : Fin n → ℝ) (he : e.state = toFl y) (T : ℝ) (hT : 0 < T) (a : Action realFmt)
    (F : ℝ → (Fin n → ℝ) → (Fin n → ℝ))
    (hF : ∀ t y v, Applied (jaxEnv fuel) e a v → e.dynamics.rhs (.fin t) (toFl y) v = .ok (toFl (F t y)))
    (hok : (e.step (jaxEnv fuel) (.fin T) a).outcome = .ok ()) :
    ∃ v z c, Applied (jaxEnv fuel) e a v ∧ JaxAnswer F 0 y T z ∧ ClippedTo e.dynamics.stateMin e.dynamics.stateMax (toFl z) c ∧
      e.dynamics.wrapAngles c = .ok (e.step (jaxEnv fuel) (.fin T) a).entity.state ∧
      e.dynamics.computeStateDot (.fin T) (toFl z) v = .ok (e.step (jaxEnv fuel) (.fin T) a).entity.stateDot := by
  obtain ⟨v, rows, yf, c, h0, h1, h2, h3, h4, h5⟩ := C20_jax_step (jaxEnv fuel) e (.fin T) a hc hm hok
  rw [he] at h1
  obtain ⟨z, g1, g2⟩ := jaxOdeint_answer (S := fun _ => True) (f := fun t y => e.dynamics.rhs t y v) hn (fun t y _ => hF t y v h0) (Stable.univ F)
    trivial hT h1
  rw [h2] at g1
  cases g1
  exact ⟨v, z, c, h0, g2, h4, h5, h3⟩

/-- one step for a pair of components in uniform acceleration -/
theorem jaxStep_uniform {n : Nat} {F : ℝ → (Fin n → ℝ) → (Fin n → ℝ)} {i j : Fin n} {a : ℝ} (hi : ∀ t y, F t y i = y j) (hj : ∀ t y, F t y j = a)
    {t h : ℝ} {y y' e m : Fin n → ℝ} (hs : JaxStep F t h y y' e m) :
    y' i = y i + y j * h + a * h ^ 2 / 2 ∧ y' j = y j + a * h ∧ m i = y i + y j * (h / 2) + a * (h / 2) ^ 2 / 2 ∧ m j = y j + a * (h / 2) := by
  obtain ⟨k1, k2, k3, k4, k5, k6, k7, rfl, h2, h3, h4, h5, h6, hy, h7, -, rfl⟩ := hs
  have j2 : k2 j = a := by rw [h2, hj]
  have j3 : k3 j = a := by rw [h3, hj]
  have j4 : k4 j = a := by rw [h4, hj]
  have j5 : k5 j = a := by rw [h5, hj]
  have j6 : k6 j = a := by rw [h6, hj]
  have j7 : k7 j = a := by rw [h7, hj]
  have y'j : y' j = y j + a * h := by
    rw [hy]; simp only [Pi.add_apply, Pi.smul_apply, smul_eq_mul, hj, j3, j4, j5, j6]; ring
  have i2 : k2 i = y j + a * (1/5 * h) := by
    rw [h2, hi]; simp only [Pi.add_apply, Pi.smul_apply, smul_eq_mul, hj]; ring
  have i3 : k3 i = y j + a * (3/10 * h) := by
    rw [h3, hi]; simp only [Pi.add_apply, Pi.smul_apply, smul_eq_mul, hj, j2]; ring
  have i4 : k4 i = y j + a * (4/5 * h) := by
    rw [h4, hi]; simp only [Pi.add_apply, Pi.smul_apply, smul_eq_mul, hj, j2, j3]; ring
  have i5 : k5 i = y j + a * (8/9 * h) := by
    rw [h5, hi]; simp only [Pi.add_apply, Pi.smul_apply, smul_eq_mul, hj, j2, j3, j4]; ring
  have i6 : k6 i = y j + a * h := by
    rw [h6, hi]; simp only [Pi.add_apply, Pi.smul_apply, smul_eq_mul, hj, j2, j3, j4, j5]; ring
  have i7 : k7 i = y j + a * h := by rw [h7, hi, y'j]
  refine ⟨?_, y'j, ?_, ?_⟩
  · rw [hy]; simp only [Pi.add_apply, Pi.smul_apply, smul_eq_mul, hi, i3, i4, i5, i6]; ring
  · simp only [Pi.add_apply, Pi.smul_apply, smul_eq_mul, hi, i3, i4, i5, i6, i7]; ring
  · simp only [Pi.add_apply, Pi.smul_apply, smul_eq_mul, hj, j3, j4, j5, j6, j7]; ring

theorem jaxSteps_uniform {n : Nat} {F : ℝ → (Fin n → ℝ) → (Fin n → ℝ)} {i j : Fin n} {a : ℝ} (hi : ∀ t y, F t y i = y j) (hj : ∀ t y, F t y j = a)
    {t : ℝ} {y z : Fin n → ℝ} {hs : List ℝ} (h : JaxSteps F t y hs z) :
    z i = y i + y j * hs.sum + a * hs.sum ^ 2 / 2 ∧ z j = y j + a * hs.sum := by
  induction h with
  | nil => simp
  | cons _ hs _ _ ih =>
    obtain ⟨g1, g2, -, -⟩ := jaxStep_uniform hi hj hs
    rw [ih.1, ih.2, g1, g2, List.sum_cons]
    constructor <;> ring

/-- For a pair of components in uniform acceleration the answer is exact. -/
theorem jaxAnswer_uniform {n : Nat} {F : ℝ → (Fin n → ℝ) → (Fin n → ℝ)} {i j : Fin n} {a : ℝ} (hi : ∀ t y, F t y i = y j) (hj : ∀ t y, F t y j = a)
    {T : ℝ} {y z : Fin n → ℝ} (h : JaxAnswer F 0 y T z) : z i = y i + y j * T + a * T ^ 2 / 2 ∧ z j = y j + a * T := by
  obtain ⟨hs, l, h, p, q, e, m, h1, h2, h3, h4, h5, -, A, B, C, g1, g2, g3, g4⟩ := h
  obtain ⟨p1, p2⟩ := jaxSteps_uniform hi hj h1
  obtain ⟨s1, s2, s3, s4⟩ := jaxStep_uniform hi hj h5
  rw [zero_add] at h2
  subst h2
  have hh : h ≠ 0 := by intro hz; rw [hz] at h4; linarith
  have dat : ∀ k, (h • F hs.sum p) k = h * F hs.sum p k := fun k => rfl
  have dat' : ∀ k, (h • F (hs.sum + h) q) k = h * F (hs.sum + h) q k := fun k => rfl
  constructor
  · have a1 := g1 i; have a2 := g2 i; have a3 := g3 i
    rw [dat, hi] at a1 a2 a3
    rw [dat', hi] at a2
    rw [s1] at a1; rw [s2] at a2; rw [s3] at a3
    have hA : A i = 0 := by linarith
    have hB : B i = 0 := by linarith
    have hC : C i = a * h ^ 2 / 2 := by linarith
    rw [g4 i, hA, hB, hC, dat, hi, p1, p2]
    field_simp
    ring
  · have a1 := g1 j; have a2 := g2 j; have a3 := g3 j
    rw [dat, hj] at a1 a2 a3
    rw [dat', hj] at a2
    rw [s2] at a1; rw [s4] at a3
    have hA : A j = 0 := by linarith
    have hB : B j = 0 := by linarith
    have hC : C j = 0 := by linarith
    rw [g4 j, hA, hB, hC, dat, hj, p2]
    field_simp
    ring

/-- a step of any entity that computes the system `M`, integrated with JAX -/
theorem Realises.jaxStep {n m : Nat} (hn : 0 < n) {fuel : Nat} {e : Entity realFmt} {M : KModel ℝ n m} (h : Realises e M)
    (hm : e.dynamics.integrationMethod = "RK45_JAX") {a : Action realFmt} {u : Fin m → ℝ} (ha : Asks (jaxEnv fuel) e a u) (hdom : ∀ y, M.dom y)
    {y : Fin n → ℝ} (he : e.state = toFl y) {T : ℝ} (hT : 0 < T) (hok : (e.step (jaxEnv fuel) (.fin T) a).outcome = .ok ()) :
    ∃ z, JaxAnswer (fun t y => M.rate t y (M.sat u)) 0 y T z ∧
      (e.step (jaxEnv fuel) (.fin T) a).entity.state = toFl (M.post π z) ∧
      (e.step (jaxEnv fuel) (.fin T) a).entity.stateDot = toFl (M.field (M.sat u) T z) := by
  obtain ⟨v, z, c, h1, h2, h3, h4, h5⟩ := C95_error_controlled hn fuel e h.dyn.custom hm y he T hT a (fun t y => M.rate t y (M.sat u))
    (fun t y v hv => by rw [h.applied ha hv]; exact h.dyn.rhs t y _ (hdom y)) hok
  rw [← npClip_iff, npClip_toFl z h.dyn.lo h.dyn.hi] at h3
  cases h3
  rw [wrap_lift pi_pos h.dyn z] at h4
  rw [h.applied ha h1, show e.dynamics.computeStateDot (.fin T) (toFl z) (toFl (M.sat u)) = _ from h.dyn.liftsOn (S := fun _ => True) (M.sat u) (fun y _ => hdom y) T z trivial] at h5
  exact ⟨z, h2, (Except.ok.inj h4).symm, (Except.ok.inj h5).symm⟩

/-- the wrapped angle -/
theorem rot2d_post (m inertia n acc vel : ℝ) (z : Fin 6 → ℝ) :
    SameAngle π (z 2) ((rot2dModel realFmt m inertia n acc vel).post π z 2) ∧
      -π ≤ (rot2dModel realFmt m inertia n acc vel).post π z 2 ∧ (rot2dModel realFmt m inertia n acc vel).post π z 2 < π ∧
      (rot2dModel realFmt m inertia n acc vel).post π z 5 = min (max (z 5) (-vel)) vel := by
  have e2 : (rot2dModel realFmt m inertia n acc vel).post π z 2 = z 2 + 0 - 2 * π * ⌊(z 2 + π) / (2 * π)⌋ := by
    simp [KModel.post, rot2dModel, kclip]
  have hp : (0 : ℝ) < 2 * π := by positivity
  refine ⟨by rw [e2]; exact wrap_angle _, ?_, ?_, by simp [KModel.post, rot2dModel, kclip]⟩
  · rw [e2]
    have := Int.floor_le ((z 2 + π) / (2 * π))
    rw [le_div_iff₀ hp] at this
    linarith
  · rw [e2]
    have := Int.lt_floor_add_one ((z 2 + π) / (2 * π))
    rw [div_lt_iff₀ hp] at this
    linarith

/-- A 2d rotating spacecraft integrated with JAX turns as under a constant angular acceleration, whatever steps `odeint` takes and however it
moves: from heading `θ` and angular velocity `w` a step of duration `T` that returns ends at `θ + w T + α T² / 2`, wrapped, with `α` the applied moment
over the inertia. The angular velocity `w + α T` is cut at the limit only when the step is over. -/
theorem C95_rotation (fuel : Nat) (args : Rot2dArgs realFmt) (p : Rot2dParams ℝ) (hp : p.Of args) (hm : args.integrationMethod = "RK45_JAX")
    (e0 : Entity realFmt) (h0 : newRot2d (jaxEnv fuel) args = .ok e0) (ops : List (Op realFmt)) (e : Entity realFmt) (he : e = e0.run (jaxEnv fuel) ops)
    (y : Fin 6 → ℝ) (hs : e.state = toFl y) (a : Action realFmt) (fx fy mz : ℝ) (ha : Asks (jaxEnv fuel) e a ![fx, fy, mz]) (T : ℝ) (hT : 0 < T)
    (hok : (e.step (jaxEnv fuel) (.fin T) a).outcome = .ok ()) (α : ℝ)
    (hα : α = min (max mz (-(p.accLimit * p.inertia))) (p.accLimit * p.inertia) / p.inertia) :
    ∃ y' : Fin 6 → ℝ, (e.step (jaxEnv fuel) (.fin T) a).entity.state = toFl y' ∧
      SameAngle π (y 2 + y 5 * T + α * T ^ 2 / 2) (y' 2) ∧ -π ≤ y' 2 ∧ y' 2 < π ∧
      y' 5 = min (max (y 5 + α * T) (-p.velLimit)) p.velLimit := by
  obtain ⟨hr, -, -, hmeth, -⟩ := rot2d_realised hp h0
  have hc := run_sameConfig (jaxEnv fuel) ops e0
  rw [← he] at hc
  obtain ⟨z, g1, g2, -⟩ := (hr.congr hc).jaxStep (by norm_num) (by rw [(sameConfig_method hc).1, hmeth, hm]) ha (fun _ => trivial) hs hT hok
  obtain ⟨z2, z5⟩ := jaxAnswer_uniform (i := 2) (j := 5) (a := α) (fun _ _ => rfl)
    (fun t y => by simp [rot2dModel, KModel.sat, kclip, hα]) g1
  obtain ⟨q1, q2, q3, q4⟩ := rot2d_post p.m p.inertia p.n p.accLimit p.velLimit z
  refine ⟨_, g2, ?_, q2, q3, ?_⟩
  · rw [← z2]; exact q1
  · rw [← z5]; exact q4

/-- JAX ignores the angular velocity limit while it integrates. A 2d spacecraft turning at exactly its limit, pushed further by a positive
moment, turns by more than `velLimit * T` in a step of duration `T` with `RK45_JAX`; with `RK45` or `Euler` it turns by exactly `velLimit * T`. -/
theorem C95_limits (fuel : Nat) (env : Env realFmt) (henv : IsRk dopri env) (args : Rot2dArgs realFmt) (p : Rot2dParams ℝ) (hp : p.Of args)
    (hI : 0 < p.inertia) (hv : 0 < p.velLimit) (hacc : 0 < p.accLimit) (hm : args.integrationMethod = "RK45_JAX") (e0 e1 : Entity realFmt)
    (h0 : newRot2d (jaxEnv fuel) args = .ok e0) (method : String) (jax : Bool)
    (h1 : newRot2d env { args with integrationMethod := method, useJax := jax } = .ok e1) (hpl : PlainMethod e1.dynamics) (ops ops' : List (Op realFmt)) (y : Fin 6 → ℝ)
    (hs0 : (e0.run (jaxEnv fuel) ops).state = toFl y) (hs1 : (e1.run env ops').state = toFl y) (hw : y 5 = p.velLimit)
    (a : Action realFmt) (fx fy mz : ℝ) (hmz : 0 < mz) (ha : Asks (jaxEnv fuel) (e0.run (jaxEnv fuel) ops) a ![fx, fy, mz])
    (ha1 : Asks env (e1.run env ops') a ![fx, fy, mz]) (T : ℝ) (hT : 0 < T)
    (hok : ((e0.run (jaxEnv fuel) ops).step (jaxEnv fuel) (.fin T) a).outcome = .ok ())
    (hok1 : ((e1.run env ops').step env (.fin T) a).outcome = .ok ()) :
    (∃ (y' : Fin 6 → ℝ) (turned : ℝ), ((e0.run (jaxEnv fuel) ops).step (jaxEnv fuel) (.fin T) a).entity.state = toFl y' ∧
      SameAngle π (y 2 + turned) (y' 2) ∧ p.velLimit * T < turned) ∧
    (∃ y' : Fin 6 → ℝ, ((e1.run env ops').step env (.fin T) a).entity.state = toFl y' ∧ SameAngle π (y 2 + p.velLimit * T) (y' 2)) := by
  constructor
  · obtain ⟨y', g1, g2, -, -, -⟩ := C95_rotation fuel args p hp hm e0 h0 ops _ rfl y hs0 a fx fy mz ha T hT hok _ rfl
    refine ⟨y', _, g1, by rw [← add_assoc]; exact g2, ?_⟩
    have hA : 0 < p.accLimit * p.inertia := mul_pos hacc hI
    have : 0 < min (max mz (-(p.accLimit * p.inertia))) (p.accLimit * p.inertia) / p.inertia :=
      div_pos (lt_min (lt_max_of_lt_left hmz) hA) hI
    rw [hw]
    have := mul_pos this (pow_pos hT 2)
    linarith
  · have hp' : p.Of { args with integrationMethod := method, useJax := jax } :=
      ⟨hp.m, hp.inertia, hp.angAcc, hp.angVel, hp.wheelInertia, hp.wheelAcc, hp.wheelVel, hp.n⟩
    have hc := run_sameConfig env ops' e1
    have hr := (rot2d_realised hp' h1).1.congr hc
    obtain ⟨M, hM⟩ : ∃ M, M = rot2dModel realFmt p.m p.inertia p.n p.accLimit p.velLimit := ⟨_, rfl⟩
    rw [← hM] at hr
    let D : Submodule ℝ (Fin 6 → ℝ) := LinearMap.ker (LinearMap.proj (R := ℝ) (φ := fun _ : Fin 6 => ℝ) 5)
    have hA : 0 < p.accLimit * p.inertia := mul_pos hacc hI
    have hfield : ∀ t (z : Fin 6 → ℝ), z 5 = p.velLimit →
        M.field (M.sat ![fx, fy, mz]) t z 2 = p.velLimit ∧ M.field (M.sat ![fx, fy, mz]) t z 5 = 0 := by
      intro t z hz
      have h5 : 0 ≤ M.sat ![fx, fy, mz] 2 / p.inertia := by
        apply div_nonneg _ hI.le
        rw [hM]
        simp [KModel.sat, rot2dModel, kclip, hmz.le, hA.le]
      constructor
      · rw [hM]
        simp [KModel.field, rot2dModel, klimit, kclip, hz]
      · rw [hM] at h5 ⊢
        simp [KModel.field, rot2dModel, klimit, kclip, hz] at h5 ⊢
        exact ⟨.inl h5, hacc.le⟩
    have hst : Stable (M.field (M.sat ![fx, fy, mz])) (fun z => z 5 = p.velLimit) D := by
      constructor
      · intro t z hz
        rw [LinearMap.mem_ker]
        exact (hfield t z hz).2
      · intro y d hy hd
        rw [LinearMap.mem_ker] at hd
        change d 5 = 0 at hd
        simp [hy, hd]
    obtain ⟨tab, hs, hrun, g1, -⟩ := hr.step henv pi_pos (plain_congr hc hpl) ha1 (S := fun z => z 5 = p.velLimit) (D := D) (by rw [hM]; exact fun _ _ => trivial) hst hs1 hw hok1
    refine ⟨_, g1, ?_⟩
    have h2 : rkChain tab (M.field (M.sat ![fx, fy, mz])) 0 y hs 2 = y 2 + p.velLimit * T := by
      rw [rkChain_congrOn tab (G := fun t z => if z 5 = p.velLimit then M.field (M.sat ![fx, fy, mz]) t z else ![0, 0, p.velLimit, 0, 0, 0]) hst.field hst.move
        (by intro t z hz; rw [if_pos hz]) 0 y hs hw]
      have := rkChain_const_rate tab hrun.b.1 hrun.b.2
        (fun t z => if z 5 = p.velLimit then M.field (M.sat ![fx, fy, mz]) t z else ![0, 0, p.velLimit, 0, 0, 0])
        (LinearMap.proj (R := ℝ) (φ := fun _ : Fin 6 => ℝ) 2) p.velLimit (by
          intro t z
          by_cases hz : z 5 = p.velLimit
          · simp only [hz, if_true]; exact (hfield t z hz).1
          · simp only [hz, if_false]; rfl) 0 y hs
      rw [hrun.sum] at this
      exact this
    rw [← h2, hM]
    exact (rot2d_post p.m p.inertia p.n p.accLimit p.velLimit _).1

end SAD
