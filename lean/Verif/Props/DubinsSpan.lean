import Verif.Props.DubinsReach
import Verif.Props.Separation

/-! # C104, C136: how far an aircraft can get with RK45 -/

set_option linter.unusedSectionVars false

namespace SAD
open Spec Real

section
variable {V : Type} [AddCommGroup V] [Module ℝ V]

theorem kdopri_stages_of (F : ℝ → V → V) (t h : ℝ) (y : V) : ∃ k1 k2 k3 k4 k5 k6 : V, ∃ t2 t3 t4 t5 t6 : ℝ, k1 = F t y ∧
    k2 = F t2 (y + h • ((1 / 5 : ℝ) • k1)) ∧ k3 = F t3 (y + h • ((3 / 40 : ℝ) • k1 + (9 / 40 : ℝ) • k2)) ∧
    k4 = F t4 (y + h • ((44 / 45 : ℝ) • k1 + (-56 / 15 : ℝ) • k2 + (32 / 9 : ℝ) • k3)) ∧
    k5 = F t5 (y + h • ((19372 / 6561 : ℝ) • k1 + (-25360 / 2187 : ℝ) • k2 + (64448 / 6561 : ℝ) • k3 + (-212 / 729 : ℝ) • k4)) ∧
    k6 = F t6 (y + h • ((9017 / 3168 : ℝ) • k1 + (-355 / 33 : ℝ) • k2 + (46732 / 5247 : ℝ) • k3 + (49 / 176 : ℝ) • k4 + (-5103 / 18656 : ℝ) • k5)) ∧
    rkStep kdopri F t h y = y + h • ((35 / 384 : ℝ) • k1 + (0 : ℝ) • k2 + (500 / 1113 : ℝ) • k3 + (125 / 192 : ℝ) • k4 + (-2187 / 6784 : ℝ) • k5
      + (11 / 84 : ℝ) • k6) :=
  ⟨_, _, _, _, _, _, _, _, _, _, _, rfl, rfl, rfl, rfl, rfl, rfl, by
    simp only [rkStep, kdopri, rkStages, combo, List.zip_cons_cons, List.foldl_cons, List.zip_nil_right, List.foldl_nil, zero_add,
      List.cons_append, List.nil_append]; rfl⟩

variable {F : ℝ → V → V} {P U : V →ₗ[ℝ] ℝ} {A : ℝ}

/-- One Dormand-Prince step of a coordinate `P` whose rate is at most the speed `U`, which changes by at most `A` per second. -/
theorem span_step (hP : ∀ t z, |P (F t z)| ≤ |U z|) (hU : ∀ t z, |U (F t z)| ≤ A) {t h : ℝ} (hh : 0 ≤ h) {y : V} {X : ℝ} (hX : |U y| ≤ X) :
    |P (rkStep kdopri F t h y) - P y| ≤ 33 / 20 * (X + 25 * A * h) * h ∧ |U (rkStep kdopri F t h y)| ≤ X + 33 / 20 * A * h := by
  obtain ⟨k1, k2, k3, k4, k5, k6, t2, t3, t4, t5, t6, h1, h2, h3, h4, h5, h6, e⟩ := kdopri_stages_of F t h y
  have hA : 0 ≤ A := (abs_nonneg _).trans (hU t y)
  have stage : ∀ {s : ℝ} {k w : V}, |U w| ≤ 25 * A → k = F s (y + h • w) → |P k| ≤ X + 25 * A * h := by
    intro s k w hw hk
    rw [hk]
    refine (hP _ _).trans ?_
    rw [map_add, map_smul, smul_eq_mul]
    refine (abs_add_le _ _).trans ?_
    rw [abs_mul, abs_of_nonneg hh]
    have := mul_le_mul_of_nonneg_left hw hh
    linarith
  have u1 : |U k1| ≤ A := by rw [h1]; exact hU _ _
  have u2 : |U k2| ≤ A := by rw [h2]; exact hU _ _
  have u3 : |U k3| ≤ A := by rw [h3]; exact hU _ _
  have u4 : |U k4| ≤ A := by rw [h4]; exact hU _ _
  have u5 : |U k5| ≤ A := by rw [h5]; exact hU _ _
  have u6 : |U k6| ≤ A := by rw [h6]; exact hU _ _
  have p1 : |P k1| ≤ X + 25 * A * h := stage (w := 0) (by simpa using hA) (by simpa using h1)
  rw [abs_le] at u1 u2 u3 u4 u5 u6
  obtain ⟨a1, b1⟩ := u1
  obtain ⟨a2, b2⟩ := u2
  obtain ⟨a3, b3⟩ := u3
  obtain ⟨a4, b4⟩ := u4
  obtain ⟨a5, b5⟩ := u5
  obtain ⟨a6, b6⟩ := u6
  have p3 : |P k3| ≤ X + 25 * A * h := stage (by
    simp only [map_add, map_smul, smul_eq_mul]
    rw [abs_le]; constructor <;> linarith) h3
  have p4 : |P k4| ≤ X + 25 * A * h := stage (by
    simp only [map_add, map_smul, smul_eq_mul]
    rw [abs_le]; constructor <;> linarith) h4
  have p5 : |P k5| ≤ X + 25 * A * h := stage (by
    simp only [map_add, map_smul, smul_eq_mul]
    rw [abs_le]; constructor <;> linarith) h5
  have p6 : |P k6| ≤ X + 25 * A * h := stage (by
    simp only [map_add, map_smul, smul_eq_mul]
    rw [abs_le]; constructor <;> linarith) h6
  rw [e]
  simp only [map_add, map_smul, smul_eq_mul, add_sub_cancel_left]
  constructor
  · rw [abs_mul, abs_of_nonneg hh, mul_comm]
    refine mul_le_mul_of_nonneg_right ?_ hh
    rw [abs_le] at p1 p3 p4 p5 p6 ⊢
    obtain ⟨c1, d1⟩ := p1
    obtain ⟨c3, d3⟩ := p3
    obtain ⟨c4, d4⟩ := p4
    obtain ⟨c5, d5⟩ := p5
    obtain ⟨c6, d6⟩ := p6
    constructor <;> linarith
  · refine (abs_add_le _ _).trans (add_le_add hX ?_)
    rw [abs_mul, abs_of_nonneg hh, mul_comm]
    refine mul_le_mul_of_nonneg_right ?_ hh
    rw [abs_le]
    constructor <;> linarith

theorem span_chain (hP : ∀ t z, |P (F t z)| ≤ |U z|) (hU : ∀ t z, |U (F t z)| ≤ A) (hs : List ℝ) : ∀ (t : ℝ) (y : V) (X : ℝ),
    (∀ h ∈ hs, 0 ≤ h) → |U y| ≤ X → |P (rkChain kdopri F t y hs) - P y| ≤ 33 / 20 * (X + 25 * A * hs.sum) * hs.sum := by
  induction hs with
  | nil => intro t y X _ _; simp [rkChain]
  | cons h hs ih =>
    intro t y X h0 hX
    have hA : 0 ≤ A := (abs_nonneg _).trans (hU t y)
    have hh := h0 h (by simp)
    have hsum : 0 ≤ hs.sum := List.sum_nonneg fun z hz => h0 z (by simp [hz])
    obtain ⟨a1, a2⟩ := span_step hP hU (t := t) hh hX
    have a3 := ih (t + h) _ _ (fun z hz => h0 z (by simp [hz])) a2
    simp only [rkChain, List.sum_cons]
    have := abs_sub_le (P (rkChain kdopri F (t + h) (rkStep kdopri F t h y) hs)) (P (rkStep kdopri F t h y)) (P y)
    refine this.trans ((add_le_add a3 a1).trans ?_)
    nlinarith [mul_nonneg hA (mul_nonneg hh hsum)]

end

/-- C104: with either method, whatever steps the solver takes and whatever the actions, a 2d aircraft flies at most `33/20 (v_max + 25 A η)` feet per
second in a straight line, where `A` bounds the acceleration and `η` the durations of the calls. -/
theorem C104_span_2d (env : Env realFmt) (henv : IsRk dopri env) (args : Dubins2dArgs realFmt) (p : Dubins2dParams ℝ) (hp : p.Of args)
    (hlim : 0 ≤ p.vMin ∧ p.vMin ≤ p.vMax) (A : ℝ) (hA : -A ≤ p.accMin ∧ p.accMin ≤ p.accMax ∧ p.accMax ≤ A) (e0 : Entity realFmt)
    (h0 : newDubins2d env args = .ok e0) (hm : PlainMethod e0.dynamics) (ops : List (Op realFmt)) (e : Entity realFmt) (he : e = e0.run env ops)
    (x y heading v : ℝ) (hs : e.state = [.fin x, .fin y, .fin heading, .fin v]) (hv : p.vMin ≤ v ∧ v ≤ p.vMax) (η : ℝ)
    (hist : List (ℝ × Action realFmt)) (hu : ∀ h ∈ hist, (0 ≤ h.1 ∧ h.1 ≤ η) ∧ ∃ u : Fin 2 → ℝ, Asks env e h.2 u) :
    ∃ x' y' heading' v' : ℝ, (e.run env (stepsOf hist)).state = [.fin x', .fin y', .fin heading', .fin v'] ∧ p.vMin ≤ v' ∧ v' ≤ p.vMax ∧
      √((x' - x) ^ 2 + (y' - y) ^ 2) ≤ 33 / 20 * (p.vMax + 25 * A * η) * elapsed env e hist := by
  have hc := run_sameConfig env ops e0
  have hr := (dubins2d_realised hp h0).congr hc
  have hm' := plain_congr hc hm
  rw [← he] at hr hm'
  have hA0 : 0 ≤ A := by linarith
  obtain ⟨y', g1, g2, g3⟩ := Realises.run_timed henv pi_pos (M := dubins2dModel realFmt p) (d := e.dynamics)
    (fun τ z => (p.vMin ≤ z 3 ∧ z 3 ≤ p.vMax) ∧ ∀ c s : ℝ, c ^ 2 + s ^ 2 = 1 →
      |c * (z 0 - x) + s * (z 1 - y)| ≤ 33 / 20 * (p.vMax + 25 * A * η) * τ)
    (fun T _ => 0 ≤ T ∧ T ≤ η) (S := fun _ => True) (D := ⊤) (fun _ _ => trivial)
    (fun _ _ _ => ⟨fun _ _ _ => trivial, fun _ _ _ _ => trivial⟩) (fun _ _ _ => trivial)
    (by
      rintro τ T u ⟨hT, hη⟩ tab hs z hrun ⟨q1, q2⟩
      obtain ⟨w, hw⟩ : ∃ w, w = rkChain tab ((dubins2dModel realFmt p).field ((dubins2dModel realFmt p).sat u)) 0 z hs := ⟨_, rfl⟩
      rw [← hw]
      have p0 : (dubins2dModel realFmt p).post realFmt.pi w 0 = w 0 := by simp [KModel.post, dubins2dModel, kclip]
      have p1 : (dubins2dModel realFmt p).post realFmt.pi w 1 = w 1 := by simp [KModel.post, dubins2dModel, kclip]
      have p3 : (dubins2dModel realFmt p).post realFmt.pi w 3 = min (max (w 3) p.vMin) p.vMax := by simp [KModel.post, dubins2dModel, kclip]
      rw [p0, p1, p3]
      refine ⟨⟨le_min (le_max_right _ _) hlim.2, min_le_right _ _⟩, fun c s hcs => ?_⟩
      have hX : |z 3| ≤ p.vMax := by rw [abs_of_nonneg (hlim.1.trans q1.1)]; exact q1.2
      obtain ⟨P, hP⟩ : ∃ P : (Fin 4 → ℝ) →ₗ[ℝ] ℝ, P = c • LinearMap.proj 0 + s • LinearMap.proj 1 := ⟨_, rfl⟩
      have hPz : ∀ z : Fin 4 → ℝ, P z = c * z 0 + s * z 1 := fun z => by rw [hP]; simp
      have b1 : ∀ t z, |P ((dubins2dModel realFmt p).field ((dubins2dModel realFmt p).sat u) t z)| ≤ |LinearMap.proj (R := ℝ) (φ := fun _ : Fin 4 => ℝ) 3 z| := by
        intro t z
        have e1 : P ((dubins2dModel realFmt p).field ((dubins2dModel realFmt p).sat u) t z) = z 3 * (c * cos (z 2) + s * sin (z 2)) := by
          have f0 : (dubins2dModel realFmt p).field ((dubins2dModel realFmt p).sat u) t z 0 = z 3 * cos (z 2) := by
            simp [KModel.field, dubins2dModel, klimit_free]; exact Or.inl rfl
          have f1 : (dubins2dModel realFmt p).field ((dubins2dModel realFmt p).sat u) t z 1 = z 3 * sin (z 2) := by
            simp [KModel.field, dubins2dModel, klimit_free]; exact Or.inl rfl
          rw [hPz, f0, f1]; ring
        rw [e1, abs_mul, LinearMap.proj_apply]
        have : |c * cos (z 2) + s * sin (z 2)| ≤ 1 := by
          rw [← sq_le_one_iff_abs_le_one]
          nlinarith [sq_nonneg (c * sin (z 2) - s * cos (z 2)), sin_sq_add_cos_sq (z 2)]
        exact mul_le_of_le_one_right (abs_nonneg _) this
      have b2 : ∀ t z, |LinearMap.proj (R := ℝ) (φ := fun _ : Fin 4 => ℝ) 3 ((dubins2dModel realFmt p).field ((dubins2dModel realFmt p).sat u) t z)| ≤ A := by
        intro t z
        obtain ⟨a, ha⟩ : ∃ a, a = min (max (u 1) p.accMin) p.accMax := ⟨_, rfl⟩
        have a1 : p.accMin ≤ a ∧ a ≤ p.accMax := by rw [ha]; exact ⟨le_min (le_max_right _ _) hA.2.1, min_le_right _ _⟩
        have e1 : LinearMap.proj (R := ℝ) (φ := fun _ : Fin 4 => ℝ) 3 ((dubins2dModel realFmt p).field ((dubins2dModel realFmt p).sat u) t z)
            = klimit (some p.vMin) (some p.vMax) none none (z 3) a := by
          simp [KModel.field, dubins2dModel, KModel.sat, kclip, ha]
        rw [e1, abs_le]
        simp only [klimit, kclip]
        split_ifs
        · exact ⟨le_min (by linarith) (by linarith), (min_le_left _ _).trans (by linarith)⟩
        · exact ⟨le_max_of_le_left (by linarith), max_le (by linarith) hA0⟩
        · exact ⟨by linarith, by linarith⟩
      have hspan : |P w - P z| ≤ 33 / 20 * (p.vMax + 25 * A * T) * T := by
        rcases hrun.kind with ⟨-, rfl⟩ | ⟨-, rfl, rfl⟩
        · have := span_chain b1 b2 hs 0 z p.vMax (hrun.nonneg hT) hX
          rw [hrun.sum, ← hw] at this
          exact this
        · rw [hw, rkChain_keuler, map_add, add_sub_cancel_left, map_smul, smul_eq_mul, abs_mul, abs_of_nonneg hT, mul_comm]
          refine mul_le_mul_of_nonneg_right ((b1 0 z).trans (hX.trans ?_)) hT
          have : 0 ≤ p.vMax := hlim.1.trans hlim.2
          have := mul_nonneg hA0 hT
          linarith
      have h1 := q2 c s hcs
      have h2 : c * (w 0 - x) + s * (w 1 - y) = (P w - P z) + (c * (z 0 - x) + s * (z 1 - y)) := by rw [hPz, hPz]; ring
      rw [h2]
      refine (abs_add_le _ _).trans ?_
      have h3 : 33 / 20 * (p.vMax + 25 * A * T) * T ≤ 33 / 20 * (p.vMax + 25 * A * η) * T := by
        refine mul_le_mul_of_nonneg_right ?_ hT
        have := mul_le_mul_of_nonneg_left hη hA0
        linarith
      linarith)
    hist hr hm' rfl (fun h hh => by
      obtain ⟨h1, u, h2⟩ := hu h hh
      exact ⟨u, h2, h1⟩) (τ := 0) (y := ![x, y, heading, v])
    (by rw [hs, toFl4]; rfl) ⟨hv, fun _ _ _ => by simp⟩
  rw [zero_add] at g3
  refine ⟨y' 0, y' 1, y' 2, y' 3, by rw [g1, toFl4], g2.1, g2.2, ?_⟩
  obtain ⟨r, hr⟩ : ∃ r, r = √((y' 0 - x) ^ 2 + (y' 1 - y) ^ 2) := ⟨_, rfl⟩
  have hr2 : r ^ 2 = (y' 0 - x) ^ 2 + (y' 1 - y) ^ 2 := by rw [hr, sq_sqrt (by positivity)]
  rw [← hr]
  rcases eq_or_ne r 0 with h | h
  · rw [h]
    exact (abs_nonneg _).trans (g3 1 0 (by norm_num))
  · have := g3 ((y' 0 - x) / r) ((y' 1 - y) / r) (by field_simp; rw [hr2])
    have e1 : (y' 0 - x) / r * (y' 0 - x) + (y' 1 - y) / r * (y' 1 - y) = r := by
      field_simp; rw [hr2]
    rw [e1] at this
    exact (le_abs_self _).trans this

/-- C136: with either method two 2d aircraft come closer to each other, or get farther apart, by at most the sum of what `C104_span_2d` allows each. -/
theorem C136_separation_rk45 (env env' : Env realFmt) (henv : IsRk dopri env) (henv' : IsRk dopri env') (args args' : Dubins2dArgs realFmt)
    (p p' : Dubins2dParams ℝ) (hp : p.Of args) (hp' : p'.Of args')
    (hlim : 0 ≤ p.vMin ∧ p.vMin ≤ p.vMax) (hlim' : 0 ≤ p'.vMin ∧ p'.vMin ≤ p'.vMax) (A A' : ℝ)
    (hA : -A ≤ p.accMin ∧ p.accMin ≤ p.accMax ∧ p.accMax ≤ A) (hA' : -A' ≤ p'.accMin ∧ p'.accMin ≤ p'.accMax ∧ p'.accMax ≤ A')
    (e0 e0' : Entity realFmt) (h0 : newDubins2d env args = .ok e0) (h0' : newDubins2d env' args' = .ok e0')
    (hm : PlainMethod e0.dynamics) (hm' : PlainMethod e0'.dynamics) (ops ops' : List (Op realFmt)) (e e' : Entity realFmt)
    (he : e = e0.run env ops) (he' : e' = e0'.run env' ops') (x y heading v x' y' heading' v' : ℝ)
    (hs : e.state = [.fin x, .fin y, .fin heading, .fin v]) (hs' : e'.state = [.fin x', .fin y', .fin heading', .fin v'])
    (hv : p.vMin ≤ v ∧ v ≤ p.vMax) (hv' : p'.vMin ≤ v' ∧ v' ≤ p'.vMax) (η η' : ℝ) (hist hist' : List (ℝ × Action realFmt))
    (hu : ∀ h ∈ hist, (0 ≤ h.1 ∧ h.1 ≤ η) ∧ ∃ u : Fin 2 → ℝ, Asks env e h.2 u)
    (hu' : ∀ h ∈ hist', (0 ≤ h.1 ∧ h.1 ≤ η') ∧ ∃ u : Fin 2 → ℝ, Asks env' e' h.2 u)
    (r r' : ℝ) (hr : r = 33 / 20 * (p.vMax + 25 * A * η) * elapsed env e hist)
    (hr' : r' = 33 / 20 * (p'.vMax + 25 * A' * η') * elapsed env' e' hist') :
    ∃ x1 y1 a1 v1 x2 y2 a2 v2 : ℝ, (e.run env (stepsOf hist)).state = [.fin x1, .fin y1, .fin a1, .fin v1] ∧
      (e'.run env' (stepsOf hist')).state = [.fin x2, .fin y2, .fin a2, .fin v2] ∧
      √((x - x') ^ 2 + (y - y') ^ 2) - (r + r') ≤ √((x1 - x2) ^ 2 + (y1 - y2) ^ 2) ∧
      √((x1 - x2) ^ 2 + (y1 - y2) ^ 2) ≤ √((x - x') ^ 2 + (y - y') ^ 2) + (r + r') := by
  obtain ⟨x1, y1, a1, v1, g1, -, -, g2⟩ := C104_span_2d env henv args p hp hlim A hA e0 h0 hm ops e he x y heading v hs hv η hist hu
  obtain ⟨x2, y2, a2, v2, k1, -, -, k2⟩ := C104_span_2d env' henv' args' p' hp' hlim' A' hA' e0' h0' hm' ops' e' he' x' y' heading' v' hs' hv' η' hist' hu'
  rw [← hr] at g2
  rw [← hr'] at k2
  refine ⟨x1, y1, a1, v1, x2, y2, a2, v2, g1, k1, ?_, ?_⟩
  · have h := (plane_triangle _ _ _ _).trans (add_le_add_left (plane_triangle (x1 - x2) (y1 - y2) (-(x1 - x)) (-(y1 - y))) √((x2 - x') ^ 2 + (y2 - y') ^ 2))
    rw [show x1 - x2 + -(x1 - x) + (x2 - x') = x - x' by ring, show y1 - y2 + -(y1 - y) + (y2 - y') = y - y' by ring, neg_sq, neg_sq] at h
    linarith
  · have h := (plane_triangle _ _ _ _).trans
      (add_le_add_left (plane_triangle (x - x') (y - y') (x1 - x) (y1 - y)) √((-(x2 - x')) ^ 2 + (-(y2 - y')) ^ 2))
    rw [show x - x' + (x1 - x) + -(x2 - x') = x1 - x2 by ring, show y - y' + (y1 - y) + -(y2 - y') = y1 - y2 by ring, neg_sq, neg_sq] at h
    linarith

/-- An RK45 aircraft near its greatest speed, told to turn and to speed up, then to brake, in calls of at most a tenth of a second. -/
example : ∃ e0 : Entity realFmt, newDubins2d (rkEnv dopri (fun _ _ _ => [1, 2]))
      { headingRateMin := -1, headingRateMax := 1, accMin := -96, accMax := 96, kwargs := [("name", .str "a"), ("heading", .num 1)] } = .ok e0 ∧
    Dubins2dParams.Of (R := realFmt) ⟨200, 400, -1, 1, -96, 96⟩
      { headingRateMin := -1, headingRateMax := 1, accMin := -96, accMax := 96, kwargs := [("name", .str "a"), ("heading", .num 1)] } ∧
    PlainMethod e0.dynamics ∧
    (e0.run (rkEnv dopri (fun _ _ _ => [1, 2])) [.setState [.fin 0, .fin 0, .fin 1, .fin 390]]).state = [.fin 0, .fin 0, .fin 1, .fin 390] ∧
    ∀ h ∈ [((1 / 10 : ℝ), (.ndarray .f64 [.fin 1, .fin 500] : Action realFmt)), (1 / 20, .ndarray .f64 [.fin (-7), .fin (-50)])],
      (0 ≤ h.1 ∧ h.1 ≤ 1 / 10) ∧ ∃ u : Fin 2 → ℝ, Asks (rkEnv dopri (fun _ _ _ => [1, 2])) e0 h.2 u := by
  refine ⟨_, rfl, ⟨Fl.ofNat_fin 200, Fl.ofNat_fin 400, congrArg Fl.neg Fl.one_fin, Fl.one_fin, congrArg Fl.neg (Fl.ofNat_fin 96), Fl.ofNat_fin 96⟩,
    .inl rfl, rfl, ?_⟩
  intro h hh
  simp only [List.mem_cons, List.not_mem_nil, or_false] at hh
  rcases hh with rfl | rfl
  · exact ⟨by norm_num, ![1, 500], .f64, .array _ _⟩
  · exact ⟨by norm_num, ![-7, -50], .f64, .array _ _⟩

end SAD
