import Verif.Lemmas.Spin
import Verif.Lemmas.Timed
import Verif.Props.Cwh
import Verif.Props.SixDof
import Verif.Props.Rotational
import Verif.Props.Demo
import Verif.Props.Dubins

/-!
# C123: the guiding centre and the size of a relative orbit

Without thrust a spacecraft moves on a 2 by 1 ellipse around a guiding centre, which drifts along the track, and swings across the plane. The
guiding centre is followed exactly by both methods. The ellipse is not: Euler makes it larger with every call, RK45 hardly smaller.
-/

set_option linter.unusedSectionVars false

namespace SAD
open Spec

section spec
variable {K : Type} [Field K]

/-- radial position of the centre of the relative orbit -/
def Spec.centreX (n : K) (s : Fin 6 → K) : K := 4 * s 0 + 2 * s 4 / n
/-- along-track position of the centre of the relative orbit -/
def Spec.centreY (n : K) (s : Fin 6 → K) : K := s 1 - 2 * s 3 / n
/-- square of the smaller semi-axis of the ellipse about the centre -/
def Spec.ellipseSq (n : K) (s : Fin 6 → K) : K := (s 0 - centreX n s) ^ 2 + (s 3 / n) ^ 2
/-- square of the amplitude of the swing across the plane -/
def Spec.swingSq (n : K) (s : Fin 6 → K) : K := s 2 ^ 2 + (s 5 / n) ^ 2

/-- position and velocity of a planar rotating spacecraft -/
def Spec.orbitOfPlanar (y : Fin 6 → K) : Fin 6 → K := ![y 0, y 1, 0, y 3, y 4, 0]
/-- position and velocity of a spacecraft with six degrees of freedom -/
def Spec.orbitOfSixDof (y : Fin 13 → K) : Fin 6 → K := ![y 0, y 1, y 2, y 7, y 8, y 9]

/-- `s'` is `t` seconds after `s` as far as the centre is concerned -/
def Spec.CentreAfter (n t : K) (s s' : Fin 6 → K) : Prop :=
  centreX n s' = centreX n s ∧ centreY n s' = centreY n s - 3 / 2 * n * centreX n s * t

/-- after `k` equal calls of `T` seconds with Euler -/
def Spec.GrownBy (n T : K) (k : ℕ) (s s' : Fin 6 → K) : Prop :=
  ellipseSq n s' = (1 + (n * T) ^ 2) ^ k * ellipseSq n s ∧ swingSq n s' = (1 + (n * T) ^ 2) ^ k * swingSq n s

/-- after `t` seconds of calls of at least `η` seconds with Euler -/
def Spec.GrownAtLeast [LE K] (n η t : K) (s s' : Fin 6 → K) : Prop :=
  (1 + n ^ 2 * η * t) * ellipseSq n s ≤ ellipseSq n s' ∧ (1 + n ^ 2 * η * t) * swingSq n s ≤ swingSq n s'

/-- within `ε` times the size of the ellipse, or the swing, of the exact solution -/
def Spec.NearSolution (n t ε : ℝ) (s s' : Fin 6 → ℝ) : Prop :=
  |s' 0 - cwSolution n s t 0| ≤ ε * √(ellipseSq n s) ∧ |s' 1 - cwSolution n s t 1| ≤ 2 * ε * √(ellipseSq n s) ∧
  |s' 2 - cwSolution n s t 2| ≤ ε * √(swingSq n s) ∧ |s' 3 - cwSolution n s t 3| ≤ n * ε * √(ellipseSq n s) ∧
  |s' 4 - cwSolution n s t 4| ≤ 2 * n * ε * √(ellipseSq n s) ∧ |s' 5 - cwSolution n s t 5| ≤ n * ε * √(swingSq n s)

/-- not larger, and smaller at most by the fraction `δ` -/
def Spec.ShrunkAtMost (n δ : ℝ) (s s' : Fin 6 → ℝ) : Prop :=
  ellipseSq n s' ≤ ellipseSq n s ∧ (1 - δ) * ellipseSq n s ≤ ellipseSq n s' ∧
  swingSq n s' ≤ swingSq n s ∧ (1 - δ) * swingSq n s ≤ swingSq n s'

end spec

section exact
variable {K : Type} {R : Fmt K} [Field K] [LinearOrder K] [IsStrictOrderedRing K] [FloorRing K] [Exact R]

theorem cwModel_sat_zero (m n : K) : (cwModel m n).sat 0 = 0 := by
  rw [cwModel_sat]; funext i; simp

theorem cwModel_centre (tab : KTab K) (hb : tab.b.sum = 1) (hl : tab.b.length = tab.stages.length + 1) (m n : K) (hn : n ≠ 0)
    (y : Fin 6 → K) (hs : List K) :
    centreX n (rkChain tab ((cwModel m n).field 0) 0 y hs) = centreX n y ∧
    centreY n (rkChain tab ((cwModel m n).field 0) 0 y hs) = centreY n y - 3 / 2 * n * centreX n y * hs.sum := by
  let F : K → (Fin 6 → K) → (Fin 6 → K) := (cwModel m n).field 0
  let L : (Fin 6 → K) →ₗ[K] K := (4 : K) • LinearMap.proj 0 + (2 / n) • LinearMap.proj 4
  have h1 := rkChain_const_rate tab hb hl F L 0 (by
    intro t y
    simp [F, L, cwModel_field]
    field_simp
    ring) 0 y hs
  have e1 : ∀ y, L y = centreX n y := by intro y; simp [L, centreX]; ring
  rw [e1, e1, zero_mul, add_zero] at h1
  refine ⟨h1, ?_⟩
  let L' : (Fin 6 → K) →ₗ[K] K := LinearMap.proj 1 - (2 / n) • LinearMap.proj 3
  have e2 : ∀ y, L' y = centreY n y := by intro y; simp [L', centreY]; ring
  let W : (Fin 6 → K) →ₗ[K] K × K := LinearMap.prod L L'
  have h2 := rkChain_map tab W F (fun _ p => (0, -(3 / 2 * n * p.1))) (by
    intro t y
    simp [F, W, L, L', cwModel_field]
    constructor
    · field_simp; ring
    · field_simp; ring) 0 y hs
  -- on the pair the second rate is constant along the chain
  have h3 : ∀ (hs : List K) (t : K) (p : K × K), (rkChain tab (fun (_ : K) (p : K × K) => ((0 : K), -(3 / 2 * n * p.1))) t p hs).2 = p.2 + -(3 / 2 * n * p.1) * hs.sum := by
    intro hs t p
    have g := rkChain_congrOn (K := K) tab (F := fun (_ : K) (p : K × K) => ((0 : K), -(3 / 2 * n * p.1))) (G := fun (_ : K) (_ : K × K) => ((0 : K), -(3 / 2 * n * p.1)))
      (S := fun q => q.1 = p.1) (D := LinearMap.ker (LinearMap.fst K K K)) (by intro t q hq; simp) (by intro a d ha hd; simpa [ha] using hd)
      (by intro t q hq; show ((0 : K), -(3 / 2 * n * q.1)) = _; rw [hq]) t p hs rfl
    rw [g]
    exact rkChain_const_rate tab hb hl _ (LinearMap.snd K K K) _ (fun _ _ => rfl) t p hs
  have := congrArg Prod.snd h2
  rw [h3] at this
  simp only [W, LinearMap.prod_apply, Function.prod, e1, e2] at this
  rw [this]; ring

/-- a system whose position and velocity, as `π` reads them, follow the unforced Clohessy-Wiltshire equations while `Z` holds of the controls -/
structure Coaster (pi n : K) {N k : ℕ} (M : KModel K N k) (Z : (Fin k → K) → Prop) (π : (Fin N → K) →ₗ[K] (Fin 6 → K)) : Prop where
  dom : ∀ y, M.dom y
  field : ∀ u, Z u → ∀ t y, π (M.field (M.sat u) t y) = (cwModel 1 n).field 0 t (π y)
  post : ∀ y, π (M.post pi y) = π y

variable {N k : ℕ} {M : KModel K N k} {Z : (Fin k → K) → Prop} {π : (Fin N → K) →ₗ[K] (Fin 6 → K)}

theorem Coaster.chain {pi n : K} (C : Coaster pi n M Z π) (tab : KTab K) {u : Fin k → K} (hu : Z u) (y : Fin N → K) (hs : List K) :
    π (M.post pi (rkChain tab (M.field (M.sat u)) 0 y hs)) = rkChain tab ((cwModel 1 n).field 0) 0 (π y) hs := by
  rw [C.post, rkChain_map tab π _ _ (C.field u hu)]

theorem Coaster.centre {n : K} (C : Coaster R.pi n M Z π) (hpi : 0 < R.pi) {env : Env R} (henv : IsRk dopri env) (hn0 : n ≠ 0) {e : Entity R}
    (r : Realises e M) (hp : PlainMethod e.dynamics) {s : Fin N → K} (hs : e.state = toFl s) (hist : List (K × Action R))
    (hreq : ∀ h ∈ hist, ∃ u, Asks env e h.2 u ∧ Z u) :
    ∃ s' : Fin N → K, (e.run env (stepsOf hist)).state = toFl s' ∧ CentreAfter n (elapsed env e hist) (π s) (π s') := by
  obtain ⟨s', g1, g2, g3⟩ := Realises.run_timed henv hpi (M := M)
    (fun τ y => centreX n (π y) = centreX n (π s) ∧ centreY n (π y) = centreY n (π s) - 3 / 2 * n * centreX n (π s) * τ) (fun _ u => Z u)
    (S := fun _ => True) (D := ⊤) (fun y _ => C.dom y) (fun _ _ _ => Stable.univ _) (fun _ _ _ => trivial) (d := e.dynamics)
    (by
      rintro τ T u hu tab hs y hr ⟨q1, q2⟩
      rw [C.chain tab hu]
      obtain ⟨k1, k2⟩ := cwModel_centre tab hr.b.1 hr.b.2 1 n hn0 (π y) hs
      rw [k1, k2, hr.sum, q1, q2]
      exact ⟨rfl, by ring⟩)
    hist r hp rfl hreq (τ := 0) hs ⟨rfl, by ring⟩
  exact ⟨s', g1, g2, by rw [g3, zero_add]⟩

theorem cwModel_euler (m n : K) (hn : n ≠ 0) (y : Fin 6 → K) (T : K) :
    ellipseSq n (rkChain keuler ((cwModel m n).field 0) 0 y [T]) = (1 + (n * T) ^ 2) * ellipseSq n y ∧
    swingSq n (rkChain keuler ((cwModel m n).field 0) 0 y [T]) = (1 + (n * T) ^ 2) * swingSq n y := by
  simp only [rkChain_keuler, cwModel_field, ellipseSq, swingSq, centreX, Pi.add_apply, Pi.smul_apply, smul_eq_mul]
  constructor
  · simp; field_simp; ring
  · simp; field_simp; ring

theorem Coaster.euler_equal {n : K} (C : Coaster R.pi n M Z π) (hpi : 0 < R.pi) {env : Env R} (henv : IsRk dopri env) (hn0 : n ≠ 0) {e : Entity R}
    (r : Realises e M) (hp : PlainMethod e.dynamics) (hme : e.dynamics.integrationMethod = "Euler") {s : Fin N → K} (hs : e.state = toFl s)
    (hist : List (K × Action R)) (hreq : ∀ h ∈ hist, ∃ u, Asks env e h.2 u ∧ Z u) (T : K) (hT : ∀ h ∈ hist, h.1 = T) :
    ∃ (s' : Fin N → K) (k : ℕ), (e.run env (stepsOf hist)).state = toFl s' ∧ elapsed env e hist = k * T ∧ GrownBy n T k (π s) (π s') := by
  obtain ⟨s', g1, k, g2, g3, g4⟩ := Realises.run_timed henv hpi (M := M)
    (fun τ y => ∃ k : ℕ, τ = k * T ∧ ellipseSq n (π y) = (1 + (n * T) ^ 2) ^ k * ellipseSq n (π s) ∧
      swingSq n (π y) = (1 + (n * T) ^ 2) ^ k * swingSq n (π s))
    (fun t u => Z u ∧ t = T)
    (S := fun _ => True) (D := ⊤) (fun y _ => C.dom y) (fun _ _ _ => Stable.univ _) (fun _ _ _ => trivial) (d := e.dynamics)
    (by
      rintro τ t u ⟨hu, rfl⟩ tab hs y hr ⟨k, q1, q2, q3⟩
      obtain ⟨rfl, rfl⟩ : tab = keuler ∧ hs = [t] := by
        rcases hr.kind with ⟨h, -⟩ | ⟨-, h⟩
        · rw [hme] at h; exact absurd h (by decide)
        · exact h
      rw [C.chain _ hu]
      obtain ⟨k1, k2⟩ := cwModel_euler 1 n hn0 (π y) t
      refine ⟨k + 1, by rw [q1]; push_cast; ring, ?_, ?_⟩
      · rw [k1, q2]; ring
      · rw [k2, q3]; ring)
    hist r hp rfl (fun h hh => by obtain ⟨u, h1, h2⟩ := hreq h hh; exact ⟨u, h1, h2, hT h hh⟩) (τ := 0) hs ⟨0, by simp, by simp, by simp⟩
  exact ⟨s', k, g1, by rw [← g2, zero_add], g3, g4⟩

theorem Coaster.euler_grows {n : K} (C : Coaster R.pi n M Z π) (hpi : 0 < R.pi) {env : Env R} (henv : IsRk dopri env) (hn0 : n ≠ 0) {e : Entity R}
    (r : Realises e M) (hp : PlainMethod e.dynamics) (hme : e.dynamics.integrationMethod = "Euler") {s : Fin N → K} (hs : e.state = toFl s)
    (hist : List (K × Action R)) (hreq : ∀ h ∈ hist, ∃ u, Asks env e h.2 u ∧ Z u) (η : K) (hη : 0 ≤ η) (hT : ∀ h ∈ hist, η ≤ h.1) :
    ∃ s' : Fin N → K, (e.run env (stepsOf hist)).state = toFl s' ∧ GrownAtLeast n η (elapsed env e hist) (π s) (π s') := by
  have hA : 0 ≤ ellipseSq n (π s) := by unfold ellipseSq; positivity
  have hB : 0 ≤ swingSq n (π s) := by unfold swingSq; positivity
  have key : ∀ τ T A X : K, 0 ≤ τ → η ≤ T → 0 ≤ A → (1 + n ^ 2 * η * τ) * A ≤ X → (1 + n ^ 2 * η * (τ + T)) * A ≤ (1 + (n * T) ^ 2) * X := by
    intro τ T A X h1 h2 h3 h4
    have hT0 : 0 ≤ T := hη.trans h2
    have hn2 : 0 ≤ n ^ 2 := sq_nonneg n
    have a1 : n ^ 2 * η * T ≤ (n * T) ^ 2 := by
      rw [mul_pow, pow_two T, ← mul_assoc]
      exact mul_le_mul_of_nonneg_right (mul_le_mul_of_nonneg_left h2 hn2) hT0
    have a2 : 0 ≤ n ^ 2 * η * τ := mul_nonneg (mul_nonneg hn2 hη) h1
    have a3 : 0 ≤ n ^ 2 * η * T := mul_nonneg (mul_nonneg hn2 hη) hT0
    calc (1 + n ^ 2 * η * (τ + T)) * A ≤ (1 + n ^ 2 * η * T) * ((1 + n ^ 2 * η * τ) * A) := by
          have := mul_nonneg (mul_nonneg a2 a3) h3
          nlinarith
      _ ≤ (1 + (n * T) ^ 2) * ((1 + n ^ 2 * η * τ) * A) :=
          mul_le_mul_of_nonneg_right (by linarith) (mul_nonneg (by linarith) h3)
      _ ≤ _ := mul_le_mul_of_nonneg_left h4 (by positivity)
  obtain ⟨s', g1, -, g2, g3⟩ := Realises.run_timed henv hpi (M := M)
    (fun τ y => 0 ≤ τ ∧ (1 + n ^ 2 * η * τ) * ellipseSq n (π s) ≤ ellipseSq n (π y) ∧ (1 + n ^ 2 * η * τ) * swingSq n (π s) ≤ swingSq n (π y))
    (fun t u => Z u ∧ η ≤ t)
    (S := fun _ => True) (D := ⊤) (fun y _ => C.dom y) (fun _ _ _ => Stable.univ _) (fun _ _ _ => trivial) (d := e.dynamics)
    (by
      rintro τ t u ⟨hu, ht⟩ tab hs y hr ⟨q0, q1, q2⟩
      obtain ⟨rfl, rfl⟩ : tab = keuler ∧ hs = [t] := by
        rcases hr.kind with ⟨h, -⟩ | ⟨-, h⟩
        · rw [hme] at h; exact absurd h (by decide)
        · exact h
      rw [C.chain _ hu]
      obtain ⟨k1, k2⟩ := cwModel_euler 1 n hn0 (π y) t
      rw [k1, k2]
      exact ⟨add_nonneg q0 (hη.trans ht), key _ _ _ _ q0 ht hA q1, key _ _ _ _ q0 ht hB q2⟩)
    hist r hp rfl (fun h hh => by obtain ⟨u, h1, h2⟩ := hreq h hh; exact ⟨u, h1, h2, hT h hh⟩) (τ := 0) hs ⟨le_rfl, by simp, by simp⟩
  rw [zero_add] at g2 g3
  exact ⟨s', g1, g2, g3⟩

/-! ### the three spacecraft -/

theorem cw_coaster (pi m n : K) : Coaster pi n (cwModel m n) (fun u => u = 0) LinearMap.id where
  dom _ := trivial
  field := by
    rintro u rfl t y
    simp only [LinearMap.id_apply, cwModel_sat_zero, cwModel_field]
    simp
  post y := by rw [cwModel_post]

/-- `orbitOfPlanar` as a linear map -/
def planarPart (K : Type) [Field K] : (Fin 6 → K) →ₗ[K] (Fin 6 → K) where
  toFun := orbitOfPlanar
  map_add' a b := by funext i; fin_cases i <;> simp [orbitOfPlanar]
  map_smul' c a := by funext i; fin_cases i <;> simp [orbitOfPlanar]

theorem rot2d_coaster (m inertia n acc vel : K) :
    Coaster R.pi n (rot2dModel R m inertia n acc vel) (fun u => u 0 = 0 ∧ u 1 = 0) (planarPart K) where
  dom _ := trivial
  field := by
    rintro u ⟨h0, h1⟩ t y
    have s0 : (rot2dModel R m inertia n acc vel).sat u 0 = 0 := by
      simp [KModel.sat, rot2dModel, h0, kclip]
    have s1 : (rot2dModel R m inertia n acc vel).sat u 1 = 0 := by
      simp [KModel.sat, rot2dModel, h1, kclip]
    generalize (rot2dModel R m inertia n acc vel).sat u = w at *
    rw [cwModel_field]
    funext i
    fin_cases i <;> simp [planarPart, orbitOfPlanar, KModel.field, rot2dModel, klimit_free, s0, s1]
  post y := by
    funext i
    fin_cases i <;> simp [planarPart, orbitOfPlanar, KModel.post, rot2dModel, kclip]

/-- `orbitOfSixDof` as a linear map -/
def sixDofPart (K : Type) [Field K] : (Fin 13 → K) →ₗ[K] (Fin 6 → K) where
  toFun := orbitOfSixDof
  map_add' a b := by funext i; fin_cases i <;> simp [orbitOfSixDof]
  map_smul' c a := by funext i; fin_cases i <;> simp [orbitOfSixDof]

theorem sixDof_coaster (pi : K) (p : SixDofParams K) (body : Bool) (hth : 0 ≤ p.thrust) :
    Coaster pi p.n (sixDofModel p body) (fun u => u 0 = 0 ∧ u 1 = 0 ∧ u 2 = 0) (sixDofPart K) where
  dom _ := trivial
  field := by
    rintro u ⟨h0, h1, h2⟩ t y
    have s0 : (sixDofModel p body).sat u 0 = 0 := by
      have : (sixDofModel p body).sat u 0 = kclip (some (-p.thrust)) (some p.thrust) (u 0) := rfl
      rw [this, h0]; exact kclip_within (neg_nonpos.2 hth) hth
    have s1 : (sixDofModel p body).sat u 1 = 0 := by
      have : (sixDofModel p body).sat u 1 = kclip (some (-p.thrust)) (some p.thrust) (u 1) := rfl
      rw [this, h1]; exact kclip_within (neg_nonpos.2 hth) hth
    have s2 : (sixDofModel p body).sat u 2 = 0 := by
      have : (sixDofModel p body).sat u 2 = kclip (some (-p.thrust)) (some p.thrust) (u 2) := rfl
      rw [this, h2]; exact kclip_within (neg_nonpos.2 hth) hth
    generalize (sixDofModel p body).sat u = w at *
    have hz : ∀ i, hillThrust body y w i = 0 := by
      intro i
      cases body <;> fin_cases i <;> simp [hillThrust, krot, s0, s1, s2]
    rw [cwModel_field]
    funext i
    fin_cases i <;> simp [sixDofPart, orbitOfSixDof, sixDofModel_field_orbit, sixDofRate, hz]
  post y := by
    funext i
    fin_cases i <;> simp [sixDofPart, orbitOfSixDof, sixDofModel_post]

/-- C123: while no thrust is asked for, the centre of the relative orbit keeps its radial position exactly and moves along the track at exactly
`-3/2 n` times this, with either method and any steps of the solver, through every history of calls of any durations. -/
theorem C123_centre (hpi : 0 < R.pi) (env : Env R) (henv : IsRk dopri env) (args : CwhArgs R) (m n : K) (hm : args.m = .fin m)
    (hn : args.n = .fin n) (hn0 : n ≠ 0) (e0 : Entity R) (h0 : newCwhSpacecraft env args = .ok e0) (hp : PlainMethod e0.dynamics)
    (ops : List (Op R)) (e : Entity R) (he : e = e0.run env ops) (s : Fin 6 → K) (hs : e.state = toFl s) (hist : List (K × Action R))
    (hreq : ∀ h ∈ hist, Asks env e h.2 (0 : Fin 3 → K)) :
    ∃ s' : Fin 6 → K, (e.run env (stepsOf hist)).state = toFl s' ∧ CentreAfter n (elapsed env e hist) s s' := by
  have r := (cwhSpacecraft_realised hm hn h0).1
  have hc := run_sameConfig env ops e0
  rw [← he] at hc
  exact (cw_coaster R.pi m n).centre hpi henv hn0 (r.congr hc) (plain_congr hc hp) hs hist (fun h hh => ⟨0, hreq h hh, rfl⟩)

/-- C123: the same for the planar spacecraft that turns, whatever moments it is asked for. -/
theorem C123_centre_rot2d (hpi : 0 < R.pi) (env : Env R) (henv : IsRk dopri env) (args : Rot2dArgs R) (p : Rot2dParams K) (hpa : p.Of args)
    (hn0 : p.n ≠ 0) (e0 : Entity R) (h0 : newRot2d env args = .ok e0) (hp : PlainMethod e0.dynamics)
    (ops : List (Op R)) (e : Entity R) (he : e = e0.run env ops) (s : Fin 6 → K) (hs : e.state = toFl s) (hist : List (K × Action R))
    (hreq : ∀ h ∈ hist, ∃ mz : K, Asks env e h.2 ![0, 0, mz]) :
    ∃ s' : Fin 6 → K, (e.run env (stepsOf hist)).state = toFl s' ∧ CentreAfter p.n (elapsed env e hist) (orbitOfPlanar s) (orbitOfPlanar s') := by
  have r := (rot2d_realised hpa h0).1
  have hc := run_sameConfig env ops e0
  rw [← he] at hc
  exact (rot2d_coaster p.m p.inertia p.n p.accLimit p.velLimit).centre hpi henv hn0 (r.congr hc) (plain_congr hc hp) hs hist
    (fun h hh => by obtain ⟨mz, ha⟩ := hreq h hh; exact ⟨_, ha, rfl, rfl⟩)

/-- C123: and for the spacecraft with six degrees of freedom, whatever moments it is asked for. -/
theorem C123_centre_sixdof (hpi : 0 < R.pi) (env : Env R) (henv : IsRk dopri env) (uninit : List Nat → Vec R) (args : SixDofArgs R)
    (p : SixDofParams K) (hpa : p.Of args) (hI : ∀ i, p.inertia i i ≠ 0) (hth : 0 ≤ p.thrust)
    (hn0 : p.n ≠ 0) (e0 : Entity R) (h0 : newSixDof env uninit args = .ok e0) (hp : PlainMethod e0.dynamics)
    (ops : List (Op R)) (e : Entity R) (he : e = e0.run env ops) (s : Fin 13 → K) (hs : e.state = toFl s) (hist : List (K × Action R))
    (hreq : ∀ h ∈ hist, ∃ mx my mz : K, Asks env e h.2 ![0, 0, 0, mx, my, mz]) :
    ∃ s' : Fin 13 → K, (e.run env (stepsOf hist)).state = toFl s' ∧ CentreAfter p.n (elapsed env e hist) (orbitOfSixDof s) (orbitOfSixDof s') := by
  have r := (sixDof_realised hpa hI h0).1
  have hc := run_sameConfig env ops e0
  rw [← he] at hc
  exact (sixDof_coaster R.pi p args.bodyFrameThrust hth).centre hpi henv hn0 (r.congr hc) (plain_congr hc hp) hs hist
    (fun h hh => by obtain ⟨mx, my, mz, ha⟩ := hreq h hh; exact ⟨_, ha, rfl, rfl, rfl⟩)

/-- C123: with Euler, calls of equal duration each multiply the squared size of the ellipse and of the swing by exactly `1 + (n T)^2`. -/
theorem C123_euler_equal (hpi : 0 < R.pi) (env : Env R) (henv : IsRk dopri env) (args : CwhArgs R) (m n : K) (hm : args.m = .fin m)
    (hn : args.n = .fin n) (hn0 : n ≠ 0) (e0 : Entity R) (h0 : newCwhSpacecraft env args = .ok e0) (hp : PlainMethod e0.dynamics)
    (hE : args.integrationMethod = "Euler")
    (ops : List (Op R)) (e : Entity R) (he : e = e0.run env ops) (s : Fin 6 → K) (hs : e.state = toFl s) (hist : List (K × Action R))
    (hreq : ∀ h ∈ hist, Asks env e h.2 (0 : Fin 3 → K)) (T : K) (hT : ∀ h ∈ hist, h.1 = T) :
    ∃ (s' : Fin 6 → K) (k : ℕ), (e.run env (stepsOf hist)).state = toFl s' ∧ elapsed env e hist = k * T ∧ GrownBy n T k s s' := by
  obtain ⟨r, -, hmeth, -⟩ := cwhSpacecraft_realised hm hn h0
  have hc := run_sameConfig env ops e0
  rw [← he] at hc
  exact (cw_coaster R.pi m n).euler_equal hpi henv hn0 (r.congr hc) (plain_congr hc hp) (by rw [(sameConfig_method hc).1, hmeth, hE]) hs hist
    (fun h hh => ⟨0, hreq h hh, rfl⟩) T hT

/-- C123: with Euler the ellipse and the swing only grow, and without bound: in calls of at least `η` seconds their squared size grows at least
by the factor `1 + n^2 η t`. -/
theorem C123_euler_grows (hpi : 0 < R.pi) (env : Env R) (henv : IsRk dopri env) (args : CwhArgs R) (m n : K) (hm : args.m = .fin m)
    (hn : args.n = .fin n) (hn0 : n ≠ 0) (e0 : Entity R) (h0 : newCwhSpacecraft env args = .ok e0) (hp : PlainMethod e0.dynamics)
    (hE : args.integrationMethod = "Euler")
    (ops : List (Op R)) (e : Entity R) (he : e = e0.run env ops) (s : Fin 6 → K) (hs : e.state = toFl s) (hist : List (K × Action R))
    (hreq : ∀ h ∈ hist, Asks env e h.2 (0 : Fin 3 → K)) (η : K) (hη : 0 ≤ η) (hT : ∀ h ∈ hist, η ≤ h.1) :
    ∃ s' : Fin 6 → K, (e.run env (stepsOf hist)).state = toFl s' ∧ GrownAtLeast n η (elapsed env e hist) s s' := by
  obtain ⟨r, -, hmeth, -⟩ := cwhSpacecraft_realised hm hn h0
  have hc := run_sameConfig env ops e0
  rw [← he] at hc
  exact (cw_coaster R.pi m n).euler_grows hpi henv hn0 (r.congr hc) (plain_congr hc hp) (by rw [(sameConfig_method hc).1, hmeth, hE]) hs hist
    (fun h hh => ⟨0, hreq h hh, rfl⟩) η hη hT

/-- C123: the same for the planar spacecraft that turns. -/
theorem C123_euler_rot2d (hpi : 0 < R.pi) (env : Env R) (henv : IsRk dopri env) (args : Rot2dArgs R) (p : Rot2dParams K) (hpa : p.Of args)
    (hn0 : p.n ≠ 0) (e0 : Entity R) (h0 : newRot2d env args = .ok e0) (hp : PlainMethod e0.dynamics) (hE : args.integrationMethod = "Euler")
    (ops : List (Op R)) (e : Entity R) (he : e = e0.run env ops) (s : Fin 6 → K) (hs : e.state = toFl s) (hist : List (K × Action R))
    (hreq : ∀ h ∈ hist, ∃ mz : K, Asks env e h.2 ![0, 0, mz]) (η : K) (hη : 0 ≤ η) (hT : ∀ h ∈ hist, η ≤ h.1) :
    ∃ s' : Fin 6 → K, (e.run env (stepsOf hist)).state = toFl s' ∧ GrownAtLeast p.n η (elapsed env e hist) (orbitOfPlanar s) (orbitOfPlanar s') := by
  obtain ⟨r, -, -, hmeth, -⟩ := rot2d_realised hpa h0
  have hc := run_sameConfig env ops e0
  rw [← he] at hc
  exact (rot2d_coaster p.m p.inertia p.n p.accLimit p.velLimit).euler_grows hpi henv hn0 (r.congr hc) (plain_congr hc hp)
    (by rw [(sameConfig_method hc).1, hmeth, hE]) hs hist (fun h hh => by obtain ⟨mz, ha⟩ := hreq h hh; exact ⟨_, ha, rfl, rfl⟩) η hη hT

/-- C123: and for the spacecraft with six degrees of freedom. -/
theorem C123_euler_sixdof (hpi : 0 < R.pi) (env : Env R) (henv : IsRk dopri env) (uninit : List Nat → Vec R) (args : SixDofArgs R)
    (p : SixDofParams K) (hpa : p.Of args) (hI : ∀ i, p.inertia i i ≠ 0) (hth : 0 ≤ p.thrust)
    (hn0 : p.n ≠ 0) (e0 : Entity R) (h0 : newSixDof env uninit args = .ok e0) (hp : PlainMethod e0.dynamics) (hE : args.integrationMethod = "Euler")
    (ops : List (Op R)) (e : Entity R) (he : e = e0.run env ops) (s : Fin 13 → K) (hs : e.state = toFl s) (hist : List (K × Action R))
    (hreq : ∀ h ∈ hist, ∃ mx my mz : K, Asks env e h.2 ![0, 0, 0, mx, my, mz]) (η : K) (hη : 0 ≤ η) (hT : ∀ h ∈ hist, η ≤ h.1) :
    ∃ s' : Fin 13 → K, (e.run env (stepsOf hist)).state = toFl s' ∧ GrownAtLeast p.n η (elapsed env e hist) (orbitOfSixDof s) (orbitOfSixDof s') := by
  obtain ⟨r, -, hmeth, -⟩ := sixDof_realised hpa hI h0
  have hc := run_sameConfig env ops e0
  rw [← he] at hc
  exact (sixDof_coaster R.pi p args.bodyFrameThrust hth).euler_grows hpi henv hn0 (r.congr hc) (plain_congr hc hp)
    (by rw [(sameConfig_method hc).1, hmeth, hE]) hs hist
    (fun h hh => by obtain ⟨mx, my, mz, ha⟩ := hreq h hh; exact ⟨_, ha, rfl, rfl, rfl⟩) η hη hT

end exact

section rk45
open Quaternion

/-- a complex number as a quaternion -/
def planeQ (a b : ℝ) : ℍ[ℝ] := ⟨a, b, 0, 0⟩
@[simp] theorem planeQ_re (a b : ℝ) : (planeQ a b).re = a := rfl
@[simp] theorem planeQ_imI (a b : ℝ) : (planeQ a b).imI = b := rfl
@[simp] theorem planeQ_imJ (a b : ℝ) : (planeQ a b).imJ = 0 := rfl
@[simp] theorem planeQ_imK (a b : ℝ) : (planeQ a b).imK = 0 := rfl

/-- the unit of the rotation -/
def unitI : ℍ[ℝ] := planeQ 0 1
theorem unitI_sq : unitI * unitI = -1 := by ext <;> simp [unitI]

/-- where on its ellipse the spacecraft is, as a complex number -/
noncomputable def ellipseAt (n : ℝ) : (Fin 6 → ℝ) →ₗ[ℝ] ℍ[ℝ] where
  toFun y := planeQ (y 0 - centreX n y) (-(y 3 / n))
  map_add' a b := by ext <;> simp [centreX] <;> ring_nf
  map_smul' c a := by ext <;> simp [centreX] <;> ring_nf

/-- where in its swing across the plane the spacecraft is, as a complex number -/
noncomputable def swingAt (n : ℝ) : (Fin 6 → ℝ) →ₗ[ℝ] ℍ[ℝ] where
  toFun y := planeQ (y 2) (-(y 5 / n))
  map_add' a b := by ext <;> simp <;> ring_nf
  map_smul' c a := by ext <;> simp <;> ring_nf

theorem ellipseAt_norm (n : ℝ) (y : Fin 6 → ℝ) : ‖ellipseAt n y‖ ^ 2 = ellipseSq n y := by
  rw [pow_two, ← Quaternion.normSq_eq_norm_mul_self, Quaternion.normSq_def']
  simp [ellipseAt, ellipseSq]

theorem swingAt_norm (n : ℝ) (y : Fin 6 → ℝ) : ‖swingAt n y‖ ^ 2 = swingSq n y := by
  rw [pow_two, ← Quaternion.normSq_eq_norm_mul_self, Quaternion.normSq_def']
  simp [swingAt, swingSq]

theorem cwModel_spins (m n : ℝ) (hn : n ≠ 0) (y : Fin 6 → ℝ) (hs : List ℝ) :
    ellipseAt n (rkChain kdopri ((cwModel m n).field 0) 0 y hs) = ellipseAt n y * spinHom unitI unitI_sq (spinProd (2 * n) hs) ∧
    swingAt n (rkChain kdopri ((cwModel m n).field 0) 0 y hs) = swingAt n y * spinHom unitI unitI_sq (spinProd (2 * n) hs) := by
  constructor
  · rw [rkChain_map kdopri (ellipseAt n) _ (fun _ q => q * ((2 * n / 2) • unitI)) ?_ 0 y hs, spin_chain]
    intro t y
    ext
    all_goals
      simp [ellipseAt, unitI, cwModel_field, centreX]
      try field_simp
      try ring
  · rw [rkChain_map kdopri (swingAt n) _ (fun _ q => q * ((2 * n / 2) • unitI)) ?_ 0 y hs, spin_chain]
    intro t y
    ext
    all_goals
      simp [swingAt, unitI, cwModel_field]
      try field_simp
      try ring

theorem cwSolution_spins (n : ℝ) (hn : n ≠ 0) (s : Fin 6 → ℝ) (t : ℝ) :
    ellipseAt n (cwSolution n s t) = ellipseAt n s * spinHom unitI unitI_sq (Complex.exp (Complex.I * (n * t : ℝ))) ∧
    swingAt n (cwSolution n s t) = swingAt n s * spinHom unitI unitI_sq (Complex.exp (Complex.I * (n * t : ℝ))) ∧
    centreX n (cwSolution n s t) = centreX n s ∧ centreY n (cwSolution n s t) = centreY n s - 3 / 2 * n * centreX n s * t := by
  have hexp : ∀ x : ℝ, Complex.exp (Complex.I * x) = ⟨Real.cos x, Real.sin x⟩ := by
    intro x
    rw [mul_comm, Complex.exp_mul_I]
    apply Complex.ext <;> simp [Complex.cos_ofReal_re, Complex.sin_ofReal_re]
  rw [hexp, spinHom_apply]
  generalize hc : Real.cos (n * t) = c
  generalize hd : Real.sin (n * t) = d
  refine ⟨?_, ?_, ?_, ?_⟩
  · ext
    all_goals
      simp [ellipseAt, unitI, centreX, cwSolution, hc, hd]
      try field_simp
      try ring
  · ext
    all_goals
      simp [swingAt, unitI, cwSolution, hc, hd]
      try field_simp
      try ring
  · simp [centreX, cwSolution, hc, hd]; field_simp; ring
  · simp [centreX, centreY, cwSolution, hc, hd]; field_simp; ring

variable {N k : ℕ} {M : KModel ℝ N k} {Z : (Fin k → ℝ) → Prop} {π : (Fin N → ℝ) →ₗ[ℝ] (Fin 6 → ℝ)}

theorem Coaster.rk45 {n : ℝ} (C : Coaster realFmt.pi n M Z π) {env : Env realFmt} (henv : IsRk dopri env) (hn0 : 0 < n) {e : Entity realFmt}
    (r : Realises e M) (hme : e.dynamics.integrationMethod = "RK45") {s : Fin N → ℝ} (hs : e.state = toFl s) (hist : List (ℝ × Action realFmt))
    (hreq : ∀ h ∈ hist, ∃ u, Asks env e h.2 u ∧ Z u) {η : ℝ} (hη : n * η ≤ 9 / 10)
    (hT : ∀ h ∈ hist, 0 ≤ h.1 ∧ h.1 ≤ η) {t : ℝ} (ht : t = elapsed env e hist) {ε : ℝ} (hε : ε = n * t * (n * η) ^ 5 / 2100) :
    ∃ s' : Fin N → ℝ, (e.run env (stepsOf hist)).state = toFl s' ∧
      NearSolution n t ε (π s) (π s') ∧ ShrunkAtMost n (n * t * (n * η) ^ 5 / 1800) (π s) (π s') := by
  have hn' := hn0.ne'
  obtain ⟨c1, hc1⟩ : ∃ c, c = n * (n * η) ^ 5 / 2100 := ⟨_, rfl⟩
  obtain ⟨c2, hc2⟩ : ∃ c, c = n * (n * η) ^ 5 / 1800 := ⟨_, rfl⟩
  obtain ⟨s', g1, -, g2, g3, z, g4, g5, g6, g7, g8⟩ := Realises.run_timed henv Real.pi_pos (M := M) (d := e.dynamics)
    (fun τ y => 0 ≤ τ ∧ centreX n (π y) = centreX n (π s) ∧ centreY n (π y) = centreY n (π s) - 3 / 2 * n * centreX n (π s) * τ ∧
      ∃ c : ℂ, ellipseAt n (π y) = ellipseAt n (π s) * spinHom unitI unitI_sq c ∧ swingAt n (π y) = swingAt n (π s) * spinHom unitI unitI_sq c ∧
        ‖c‖ ≤ 1 ∧ 1 - c2 * τ ≤ ‖c‖ ^ 2 ∧ ‖c - Complex.exp (Complex.I * (n * τ : ℝ))‖ ≤ c1 * τ)
    (fun T u => Z u ∧ 0 ≤ T ∧ T ≤ η) (S := fun _ => True) (D := ⊤) (fun y _ => C.dom y) (fun _ _ _ => Stable.univ _) (fun _ _ _ => trivial)
    (by
      rintro τ T u ⟨hu, hT0, hTη⟩ tab hs y hrun ⟨q0, x1, x2, c, q1, q2, q3, q4, q5⟩
      rw [C.chain tab hu]
      have hb : ∀ h ∈ hs, 0 ≤ h ∧ h ≤ η := by
        intro h hh
        refine ⟨hrun.nonneg hT0 h hh, le_trans ?_ hTη⟩
        rw [← hrun.sum]
        exact List.single_le_sum (hrun.nonneg hT0) h hh
      have hsum := hrun.sum
      have htab : tab = kdopri := by
        rcases hrun.kind with ⟨-, h⟩ | ⟨h, -⟩
        · exact h
        · rw [hme] at h; exact absurd h (by decide)
      obtain ⟨k1, k2⟩ := cwModel_centre tab hrun.b.1 hrun.b.2 1 n hn' (π y) hs
      subst htab
      obtain ⟨p1, p2⟩ := cwModel_spins 1 n hn' (π y) hs
      obtain ⟨b1, b2, b3⟩ := spinProd_bounds (ω := 2 * n) (by positivity) (by linarith) hs hb
      rw [hsum] at b2 b3
      rw [show 2 * n * T / 2 = n * T by ring, show 2 * n * η / 2 = n * η by ring] at b2 b3
      generalize rkChain kdopri ((cwModel 1 n).field 0) 0 (π y) hs = z' at *
      generalize spinProd (2 * n) hs = P at *
      refine ⟨add_nonneg q0 hT0, by rw [k1, x1], by rw [k2, x1, x2, hsum]; ring, c * P, ?_, ?_, ?_, ?_, ?_⟩
      · rw [p1, q1, mul_assoc, ← map_mul]
      · rw [p2, q2, mul_assoc, ← map_mul]
      · rw [norm_mul]; exact mul_le_one₀ q3 (norm_nonneg _) b1
      · rw [norm_mul, mul_pow]
        have e1 : ‖c‖ ^ 2 ≤ 1 := by nlinarith [norm_nonneg c]
        have e2 : ‖P‖ ^ 2 ≤ 1 := by nlinarith [norm_nonneg P]
        have e3 : n * T * (n * η) ^ 5 / 1800 = c2 * T := by rw [hc2]; ring
        rw [e3] at b2
        nlinarith [mul_nonneg (sub_nonneg.2 e1) (sub_nonneg.2 e2)]
      · have e2 : Complex.exp (Complex.I * (n * (τ + T) : ℝ))
            = Complex.exp (Complex.I * (n * τ : ℝ)) * Complex.exp (Complex.I * (n * T : ℝ)) := by
          rw [← Complex.exp_add]; congr 1; push_cast; ring
        have n1 : ‖Complex.exp (Complex.I * (n * T : ℝ))‖ = 1 := by rw [mul_comm]; exact Complex.norm_exp_ofReal_mul_I _
        have e3 : n * T * (n * η) ^ 5 / 2100 = c1 * T := by rw [hc1]; ring
        rw [e3] at b3
        rw [e2]
        generalize Complex.exp (Complex.I * (n * τ : ℝ)) = E at *
        generalize Complex.exp (Complex.I * (n * T : ℝ)) = E' at *
        rw [show c * P - E * E' = c * (P - E') + (c - E) * E' by ring]
        refine (norm_add_le _ _).trans ?_
        rw [norm_mul, norm_mul, n1, mul_one]
        have := mul_le_of_le_one_left (norm_nonneg (P - E')) q3
        linarith)
    hist r (.inl hme) rfl (fun h hh => by obtain ⟨u, h1, h2⟩ := hreq h hh; exact ⟨u, h1, h2, hT h hh⟩) (τ := 0) (y := s) hs
    ⟨le_rfl, rfl, by ring, 1, by rw [map_one, mul_one], by rw [map_one, mul_one], by simp, by simp, by simp⟩
  rw [zero_add, ← ht] at g3 g7 g8
  obtain ⟨w1, w2, w3, w4⟩ := cwSolution_spins n hn' (π s) t
  have hre : unitI.re = 0 := rfl
  have nE : √(ellipseSq n (π s)) = ‖ellipseAt n (π s)‖ := by rw [← ellipseAt_norm, Real.sqrt_sq (norm_nonneg _)]
  have nS : √(swingSq n (π s)) = ‖swingAt n (π s)‖ := by rw [← swingAt_norm, Real.sqrt_sq (norm_nonneg _)]
  have hε' : c1 * t = ε := by rw [hc1, hε]; ring
  rw [hε'] at g8
  have dE : ‖ellipseAt n (π s') - ellipseAt n (cwSolution n (π s) t)‖ ≤ ε * √(ellipseSq n (π s)) := by
    rw [g4, w1, ← mul_sub, ← map_sub, norm_mul, spinHom_norm _ _ hre, nE, mul_comm]
    exact mul_le_mul_of_nonneg_right g8 (norm_nonneg _)
  have dS : ‖swingAt n (π s') - swingAt n (cwSolution n (π s) t)‖ ≤ ε * √(swingSq n (π s)) := by
    rw [g5, w2, ← mul_sub, ← map_sub, norm_mul, spinHom_norm _ _ hre, nS, mul_comm]
    exact mul_le_mul_of_nonneg_right g8 (norm_nonneg _)
  have part : ∀ q : ℍ[ℝ], |q.re| ≤ ‖q‖ ∧ |q.imI| ≤ ‖q‖ := by
    intro q
    have h := Quaternion.normSq_eq_norm_mul_self q
    rw [Quaternion.normSq_def'] at h
    constructor
    · apply abs_le_of_sq_le_sq _ (norm_nonneg q)
      nlinarith [sq_nonneg q.imI, sq_nonneg q.imJ, sq_nonneg q.imK]
    · apply abs_le_of_sq_le_sq _ (norm_nonneg q)
      nlinarith [sq_nonneg q.re, sq_nonneg q.imJ, sq_nonneg q.imK]
  unfold NearSolution
  generalize cwSolution n (π s) t = f at *
  have sc : ∀ {x B : ℝ}, |x / n| ≤ B → |x| ≤ n * B := by
    intro x B h
    rw [abs_div, abs_of_pos hn0, div_le_iff₀ hn0] at h
    linarith
  have E0 : |π s' 0 - f 0| ≤ ε * √(ellipseSq n (π s)) := by
    have := (part _).1.trans dE
    rwa [show (ellipseAt n (π s') - ellipseAt n f).re = π s' 0 - f 0 by simp [ellipseAt, g2, w3]] at this
  have E3 : |(π s' 3 - f 3) / n| ≤ ε * √(ellipseSq n (π s)) := by
    have := (part _).2.trans dE
    rwa [show (ellipseAt n (π s') - ellipseAt n f).imI = -((π s' 3 - f 3) / n) by simp [ellipseAt]; ring, abs_neg] at this
  have S0 : |π s' 2 - f 2| ≤ ε * √(swingSq n (π s)) := by
    have := (part _).1.trans dS
    rwa [show (swingAt n (π s') - swingAt n f).re = π s' 2 - f 2 by simp [swingAt]] at this
  have S3 : |(π s' 5 - f 5) / n| ≤ ε * √(swingSq n (π s)) := by
    have := (part _).2.trans dS
    rwa [show (swingAt n (π s') - swingAt n f).imI = -((π s' 5 - f 5) / n) by simp [swingAt]; ring, abs_neg] at this
  have sq1 : ‖z‖ ^ 2 ≤ 1 := by nlinarith [norm_nonneg z]
  have hc2' : c2 * t = n * t * (n * η) ^ 5 / 1800 := by rw [hc2]; ring
  rw [hc2'] at g7
  refine ⟨s', g1, ⟨E0, ?_, S0, (sc E3).trans (le_of_eq (by ring)), ?_, (sc S3).trans (le_of_eq (by ring))⟩, ?_, ?_, ?_, ?_⟩
  · have : π s' 1 - f 1 = 2 * ((π s' 3 - f 3) / n) := by
      simp only [centreY] at g3 w4
      have := g3.trans w4.symm
      rw [sub_div]; linear_combination this
    rw [this, abs_mul, abs_of_pos (by norm_num : (0 : ℝ) < 2), mul_assoc]
    exact mul_le_mul_of_nonneg_left E3 (by norm_num)
  · have : π s' 4 - f 4 = -(2 * n * (π s' 0 - f 0)) := by
      simp only [centreX] at g2 w3
      have := g2.trans w3.symm
      field_simp at this
      linear_combination this / 2
    rw [this, abs_neg, abs_mul, abs_of_pos (by positivity : 0 < 2 * n), mul_assoc (2 * n)]
    exact mul_le_mul_of_nonneg_left E0 (by positivity)
  · rw [← ellipseAt_norm, ← ellipseAt_norm, g4, norm_mul, spinHom_norm _ _ hre, mul_pow]
    exact mul_le_of_le_one_right (sq_nonneg _) sq1
  · rw [← ellipseAt_norm, ← ellipseAt_norm, g4, norm_mul, spinHom_norm _ _ hre, mul_pow _ ‖z‖, mul_comm]
    exact mul_le_mul_of_nonneg_left g7 (sq_nonneg _)
  · rw [← swingAt_norm, ← swingAt_norm, g5, norm_mul, spinHom_norm _ _ hre, mul_pow]
    exact mul_le_of_le_one_right (sq_nonneg _) sq1
  · rw [← swingAt_norm, ← swingAt_norm, g5, norm_mul, spinHom_norm _ _ hre, mul_pow _ ‖z‖, mul_comm]
    exact mul_le_mul_of_nonneg_left g7 (sq_nonneg _)

/-- C123: with RK45 and calls of at most `0.9 / n` seconds, whatever steps the solver takes, a coasting spacecraft is after `t` seconds where the
exact solution of the Clohessy-Wiltshire equations is, up to an error that grows only linearly in time and with the fifth power of the call's
duration: at most `n t (n η)^5 / 2100` of the size of its ellipse radially, twice this along the track, and this fraction of its swing across
the plane. The ellipse and the swing do not grow and hardly shrink. -/
theorem C123_rk45 (env : Env realFmt) (henv : IsRk dopri env) (args : CwhArgs realFmt) (m n : ℝ) (hm : args.m = .fin m)
    (hn : args.n = .fin n) (hn0 : 0 < n) (e0 : Entity realFmt) (h0 : newCwhSpacecraft env args = .ok e0)
    (hR : args.integrationMethod = "RK45")
    (ops : List (Op realFmt)) (e : Entity realFmt) (he : e = e0.run env ops) (s : Fin 6 → ℝ) (hs : e.state = toFl s)
    (hist : List (ℝ × Action realFmt)) (hreq : ∀ h ∈ hist, Asks env e h.2 (0 : Fin 3 → ℝ)) (η : ℝ) (hη : n * η ≤ 9 / 10)
    (hT : ∀ h ∈ hist, 0 ≤ h.1 ∧ h.1 ≤ η) (t : ℝ) (ht : t = elapsed env e hist) :
    ∃ s' : Fin 6 → ℝ, (e.run env (stepsOf hist)).state = toFl s' ∧
      NearSolution n t (n * t * (n * η) ^ 5 / 2100) s s' ∧ ShrunkAtMost n (n * t * (n * η) ^ 5 / 1800) s s' := by
  obtain ⟨r, -, hmeth, -⟩ := cwhSpacecraft_realised hm hn h0
  have hc := run_sameConfig env ops e0
  rw [← he] at hc
  exact (cw_coaster realFmt.pi m n).rk45 henv hn0 (r.congr hc) (by rw [(sameConfig_method hc).1, hmeth, hR]) hs hist
    (fun h hh => ⟨0, hreq h hh, rfl⟩) hη hT ht rfl

/-- C123: the same for the planar spacecraft that turns. -/
theorem C123_rk45_rot2d (env : Env realFmt) (henv : IsRk dopri env) (args : Rot2dArgs realFmt) (p : Rot2dParams ℝ) (hpa : p.Of args)
    (hn0 : 0 < p.n) (e0 : Entity realFmt) (h0 : newRot2d env args = .ok e0) (hR : args.integrationMethod = "RK45")
    (ops : List (Op realFmt)) (e : Entity realFmt) (he : e = e0.run env ops) (s : Fin 6 → ℝ) (hs : e.state = toFl s)
    (hist : List (ℝ × Action realFmt)) (hreq : ∀ h ∈ hist, ∃ mz : ℝ, Asks env e h.2 ![0, 0, mz]) (η : ℝ) (hη : p.n * η ≤ 9 / 10)
    (hT : ∀ h ∈ hist, 0 ≤ h.1 ∧ h.1 ≤ η) (t : ℝ) (ht : t = elapsed env e hist) :
    ∃ s' : Fin 6 → ℝ, (e.run env (stepsOf hist)).state = toFl s' ∧
      NearSolution p.n t (p.n * t * (p.n * η) ^ 5 / 2100) (orbitOfPlanar s) (orbitOfPlanar s') ∧
      ShrunkAtMost p.n (p.n * t * (p.n * η) ^ 5 / 1800) (orbitOfPlanar s) (orbitOfPlanar s') := by
  obtain ⟨r, -, -, hmeth, -⟩ := rot2d_realised hpa h0
  have hc := run_sameConfig env ops e0
  rw [← he] at hc
  exact (rot2d_coaster (R := realFmt) p.m p.inertia p.n p.accLimit p.velLimit).rk45 henv hn0 (r.congr hc)
    (by rw [(sameConfig_method hc).1, hmeth, hR]) hs hist (fun h hh => by obtain ⟨mz, ha⟩ := hreq h hh; exact ⟨_, ha, rfl, rfl⟩) hη hT ht rfl

/-- C123: and for the spacecraft with six degrees of freedom. -/
theorem C123_rk45_sixdof (env : Env realFmt) (henv : IsRk dopri env) (uninit : List Nat → Vec realFmt) (args : SixDofArgs realFmt)
    (p : SixDofParams ℝ) (hpa : p.Of args) (hI : ∀ i, p.inertia i i ≠ 0) (hth : 0 ≤ p.thrust)
    (hn0 : 0 < p.n) (e0 : Entity realFmt) (h0 : newSixDof env uninit args = .ok e0) (hR : args.integrationMethod = "RK45")
    (ops : List (Op realFmt)) (e : Entity realFmt) (he : e = e0.run env ops) (s : Fin 13 → ℝ) (hs : e.state = toFl s)
    (hist : List (ℝ × Action realFmt)) (hreq : ∀ h ∈ hist, ∃ mx my mz : ℝ, Asks env e h.2 ![0, 0, 0, mx, my, mz]) (η : ℝ) (hη : p.n * η ≤ 9 / 10)
    (hT : ∀ h ∈ hist, 0 ≤ h.1 ∧ h.1 ≤ η) (t : ℝ) (ht : t = elapsed env e hist) :
    ∃ s' : Fin 13 → ℝ, (e.run env (stepsOf hist)).state = toFl s' ∧
      NearSolution p.n t (p.n * t * (p.n * η) ^ 5 / 2100) (orbitOfSixDof s) (orbitOfSixDof s') ∧
      ShrunkAtMost p.n (p.n * t * (p.n * η) ^ 5 / 1800) (orbitOfSixDof s) (orbitOfSixDof s') := by
  obtain ⟨r, -, hmeth, -⟩ := sixDof_realised hpa hI h0
  have hc := run_sameConfig env ops e0
  rw [← he] at hc
  exact (sixDof_coaster realFmt.pi p args.bodyFrameThrust hth).rk45 henv hn0 (r.congr hc)
    (by rw [(sameConfig_method hc).1, hmeth, hR]) hs hist
    (fun h hh => by obtain ⟨mx, my, mz, ha⟩ := hreq h hh; exact ⟨_, ha, rfl, rfl, rfl⟩) hη hT ht rfl

end rk45

/-- The hypotheses are met by the default spacecraft, on an ellipse about a centre that drifts, and swinging across the plane. -/
example : ∃ e : Entity ratFmt, newCwhSpacecraft (R := ratFmt) (rkEnv dopri (fun _ _ _ => [1, 2]))
      { n := .fin (1 / 100), kwargs := [("name", .str "a"), ("x", .num 4), ("y_dot", .num (.fin (-1 / 10))), ("z", .num 3)] } = .ok e ∧
    (decide (e.dynamics.integrationMethod = "RK45") && decide (e.state = toFl (![4, 0, 3, 0, -1 / 10, 0] : Fin 6 → ℚ)) &&
    decide (e.resolve (rkEnv dopri (fun _ _ _ => [1, 2])) .none = .ok (.f64, toFl (0 : Fin 3 → ℚ))) &&
    decide ((e.step (rkEnv dopri (fun _ _ _ => [1, 2])) 5 .none).outcome = .ok ())) = true :=
  Demo.of_okAnd (by decide +kernel)
/-- of this ellipse, and with Euler: the centre is at -4, the ellipse 8 high, the first call of 5 seconds enlarges it. -/
example : centreX (1 / 100 : ℚ) ![4, 0, 3, 0, -1 / 10, 0] = -4 ∧ ellipseSq (1 / 100 : ℚ) ![4, 0, 3, 0, -1 / 10, 0] = 64 ∧
    swingSq (1 / 100 : ℚ) ![4, 0, 3, 0, -1 / 10, 0] = 9 := by decide +kernel
example : ∃ e : Entity ratFmt, newCwhSpacecraft (R := ratFmt) (rkEnv dopri (fun _ _ _ => [1, 2]))
      { n := .fin (1 / 100), integrationMethod := "Euler", kwargs := [("name", .str "a"), ("x", .num 4), ("y_dot", .num (.fin (-1 / 10))), ("z", .num 3)] } = .ok e ∧
    (decide (e.dynamics.integrationMethod = "Euler") && decide (e.dynamics.trajectorySamples ≤ 0) &&
    decide (e.resolve (rkEnv dopri (fun _ _ _ => [1, 2])) .none = .ok (.f64, toFl (0 : Fin 3 → ℚ))) &&
    decide ((e.step (rkEnv dopri (fun _ _ _ => [1, 2])) 5 .none).outcome = .ok ()) &&
    decide (elapsed (rkEnv dopri (fun _ _ _ => [1, 2])) e [(5, .none), (5, .none)] = 10)) = true :=
  Demo.of_okAnd (by decide +kernel)
/-- the planar spacecraft and the one with six degrees of freedom, turning and asked for a moment -/
example : ∃ e : Entity ratFmt, newRot2d (R := ratFmt) (rkEnv dopri (fun _ _ _ => [1, 2]))
      { n := .fin (1 / 100), kwargs := [("name", .str "a"), ("x", .num 4), ("y_dot", .num (.fin (-1 / 10))), ("wz", .num (.fin (1 / 100)))] } = .ok e ∧
    (decide (e.dynamics.integrationMethod = "RK45") && decide (e.state = toFl (![4, 0, 0, 0, -1 / 10, 1 / 100] : Fin 6 → ℚ)) &&
    decide (e.resolve (rkEnv dopri (fun _ _ _ => [1, 2])) (.dict [("moment_z", .fin (1 / 100000))]) = .ok (.f64, toFl (![0, 0, 1 / 100000] : Fin 3 → ℚ))) &&
    decide ((e.step (rkEnv dopri (fun _ _ _ => [1, 2])) 5 (.dict [("moment_z", .fin (1 / 100000))])).outcome = .ok ())) = true :=
  Demo.of_okAnd (by decide +kernel)
example : ∃ e : Entity ratFmt, newSixDof (R := ratFmt) (rkEnv dopri (fun _ _ _ => [1])) (fun _ => [])
      { n := .fin (1 / 100), kwargs := [("name", .str "a"), ("x", .num 4), ("q4", .num 1), ("wx", .num (.fin (1 / 100)))] } = .ok e ∧
    (decide (e.dynamics.integrationMethod = "RK45") && decide (e.state = toFl (![4, 0, 0, 0, 0, 0, 1, 0, 0, 0, 1 / 100, 0, 0] : Fin 13 → ℚ)) &&
    decide (e.resolve (rkEnv dopri (fun _ _ _ => [1])) (.dict [("moment_y", .fin (1 / 100000))])
      = .ok (.f64, toFl (![0, 0, 0, 0, 1 / 100000, 0] : Fin 6 → ℚ))) &&
    decide ((e.step (rkEnv dopri (fun _ _ _ => [1])) 5 (.dict [("moment_y", .fin (1 / 100000))])).outcome = .ok ())) = true :=
  Demo.of_okAnd (by decide +kernel)

/-- calls of up to 876 seconds are short enough for the default reference orbit -/
example : (0.001027 : ℝ) * 876 ≤ 9 / 10 := by norm_num

end SAD
