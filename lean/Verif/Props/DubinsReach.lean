import Verif.Lemmas.Agree
import Verif.Lemmas.Dubins
import Verif.Lemmas.Timed
import Verif.Props.Turn
import Mathlib.Analysis.InnerProductSpace.PiL2

/-! # C104: how far a Dubins aircraft flies -/

set_option linter.unusedSectionVars false

namespace SAD
open Spec Real

/-! ### Euler -/

theorem plane_triangle (a b c d : ℝ) : √((a + c) ^ 2 + (b + d) ^ 2) ≤ √(a ^ 2 + b ^ 2) + √(c ^ 2 + d ^ 2) := by
  have h := norm_add_le (⟨a, b⟩ : ℂ) ⟨c, d⟩
  simp only [Complex.norm_def, Complex.normSq_apply, Complex.add_re, Complex.add_im] at h
  simpa [sq] using h

/-- what a history of Euler steps preserves; where the model is defined, all the steps succeed -/
theorem Realises.run_euler {env : Env realFmt} {n m : Nat} {M : KModel ℝ n m} (P : ℝ → (Fin n → ℝ) → Prop) (Q : ℝ → Prop)
    (hdom : ∀ τ y, P τ y → M.dom y)
    (hP : ∀ τ T u y, Q T → P τ y → P (τ + T) (M.post π (y + T • M.field (M.sat u) 0 y))) :
    ∀ (hist : List (ℝ × Action realFmt)) {e : Entity realFmt}, Realises e M → e.dynamics.integrationMethod = "Euler" →
      e.dynamics.trajectorySamples ≤ 0 → (∀ h ∈ hist, Q h.1 ∧ ∃ u : Fin m → ℝ, Asks env e h.2 u) → ∀ {τ : ℝ} {y : Fin n → ℝ}, e.state = toFl y → P τ y →
      ∃ y', (e.run env (stepsOf hist)).state = toFl y' ∧ P (τ + (hist.map Prod.fst).sum) y'
  | [], e, _, _, _, _, τ, y, he, hy => ⟨y, he, by simpa using hy⟩
  | (T, a) :: hist, e, hr, hm, hs, hq, τ, y, he, hy => by
    have hc : SameConfig e (e.step env (.fin T) a).entity := step_sameConfig env e _ _
    obtain ⟨k1, k2⟩ := sameConfig_method hc
    have hrun : e.run env (stepsOf ((T, a) :: hist)) = (e.step env (.fin T) a).entity.run env (stepsOf hist) := rfl
    rw [hrun]
    obtain ⟨hQ, u, hu⟩ := hq (T, a) (by simp)
    have hst : (e.step env (.fin T) a).entity.state = toFl (M.post π (y + T • M.field (M.sat u) 0 y)) := by
      obtain ⟨w, hstep⟩ := step_realised hr hu (.fin T)
      have hraw := rawStep_euler env hr.dyn.custom hm hs (hr.dyn.liftsOn (S := fun z => z = y) (M.sat u) (by rintro z rfl; exact hdom τ z hy)) T y rfl
      have hd := dynStep_lift pi_pos hr.dyn hraw
      rw [hstep]
      rw [← he] at hd
      cases hds : e.dynamics.step env (.fin T) e.state (toFl (M.sat u)) with
      | mk d r =>
        rw [hds] at hd
        simp only at hd
        subst hd
        rfl
    obtain ⟨y', g1, g2⟩ := Realises.run_euler P Q hdom hP hist (hr.congr hc) (k1.trans hm) (k2 ▸ hs)
      (fun h hh => ⟨(hq h (by simp [hh])).1, (hq h (by simp [hh])).2.imp fun u hu => requests_congr hc hu⟩) hst (hP τ T u y hQ hy)
    exact ⟨y', g1, by simpa [add_assoc] using g2⟩

/-- C104: with Euler's method a 2d aircraft never gets farther than its greatest speed times the time, whatever it is asked to do. -/
theorem C104_euler_2d (env : Env realFmt) (args : Dubins2dArgs realFmt) (p : Dubins2dParams ℝ) (hp : p.Of args)
    (hlim : p.vMin ≤ p.vMax) (e0 : Entity realFmt) (h0 : newDubins2d env args = .ok e0) (hm : e0.dynamics.integrationMethod = "Euler")
    (hts : e0.dynamics.trajectorySamples ≤ 0) (ops : List (Op realFmt)) (e : Entity realFmt) (he : e = e0.run env ops) (x y heading v : ℝ)
    (hs : e.state = [.fin x, .fin y, .fin heading, .fin v]) (hv : p.vMin ≤ v ∧ v ≤ p.vMax) (hist : List (ℝ × Action realFmt))
    (hu : ∀ h ∈ hist, 0 ≤ h.1 ∧ ∃ u : Fin 2 → ℝ, Asks env e h.2 u) :
    ∃ x' y' heading' v' : ℝ, (e.run env (stepsOf hist)).state = [.fin x', .fin y', .fin heading', .fin v'] ∧ p.vMin ≤ v' ∧ v' ≤ p.vMax ∧
      √((x' - x) ^ 2 + (y' - y) ^ 2) ≤ max |p.vMin| |p.vMax| * (hist.map Prod.fst).sum := by
  have hc := run_sameConfig env ops e0
  have hr := (dubins2d_realised hp h0).congr hc
  obtain ⟨k1, k2⟩ := sameConfig_method hc
  rw [← he] at hr k1 k2
  obtain ⟨y', g1, g2, g3⟩ := Realises.run_euler (env := env) (M := dubins2dModel realFmt p)
    (fun τ z => (p.vMin ≤ z 3 ∧ z 3 ≤ p.vMax) ∧ √((z 0 - x) ^ 2 + (z 1 - y) ^ 2) ≤ max |p.vMin| |p.vMax| * τ)
    (fun T => 0 ≤ T) (fun _ _ _ => trivial)
    (by
      rintro τ T u z hT ⟨⟨q1, q2⟩, q3⟩
      obtain ⟨w, hw⟩ : ∃ w, w = z + T • (dubins2dModel realFmt p).field ((dubins2dModel realFmt p).sat u) 0 z := ⟨_, rfl⟩
      rw [← hw]
      have p0 : (dubins2dModel realFmt p).post π w 0 = w 0 := by simp [KModel.post, dubins2dModel, kclip]
      have p1 : (dubins2dModel realFmt p).post π w 1 = w 1 := by simp [KModel.post, dubins2dModel, kclip]
      have p3 : (dubins2dModel realFmt p).post π w 3 = min (max (w 3) p.vMin) p.vMax := by simp [KModel.post, dubins2dModel, kclip]
      have w0 : w 0 = z 0 + T * (z 3 * cos (z 2)) := by
        rw [hw]; simp [KModel.field, dubins2dModel, klimit_free]; exact Or.inl (Or.inl rfl)
      have w1 : w 1 = z 1 + T * (z 3 * sin (z 2)) := by
        rw [hw]; simp [KModel.field, dubins2dModel, klimit_free]; exact Or.inl (Or.inl rfl)
      rw [p0, p1, p3]
      refine ⟨⟨le_min (le_max_right _ _) hlim, min_le_right _ _⟩, ?_⟩
      have h1 := plane_triangle (z 0 - x) (z 1 - y) (T * (z 3 * cos (z 2))) (T * (z 3 * sin (z 2)))
      have h2 : √((T * (z 3 * cos (z 2))) ^ 2 + (T * (z 3 * sin (z 2))) ^ 2) = T * |z 3| := by
        rw [show (T * (z 3 * cos (z 2))) ^ 2 + (T * (z 3 * sin (z 2))) ^ 2 = (T * z 3) ^ 2 * (sin (z 2) ^ 2 + cos (z 2) ^ 2) by ring, sin_sq_add_cos_sq,
          mul_one, sqrt_sq_eq_abs, abs_mul, abs_of_nonneg hT]
      have h3 : |z 3| ≤ max |p.vMin| |p.vMax| := abs_le_max_abs_abs q1 q2
      rw [h2] at h1
      rw [w0, w1, show z 0 + T * (z 3 * cos (z 2)) - x = z 0 - x + T * (z 3 * cos (z 2)) by ring,
        show z 1 + T * (z 3 * sin (z 2)) - y = z 1 - y + T * (z 3 * sin (z 2)) by ring]
      nlinarith [mul_le_mul_of_nonneg_left h3 hT])
    hist hr (k1.trans hm) (k2 ▸ hts) hu (τ := 0) (y := ![x, y, heading, v])
    (by rw [hs, toFl4]; rfl) ⟨hv, by simp⟩
  refine ⟨y' 0, y' 1, y' 2, y' 3, by rw [g1, toFl4], g2.1, g2.2, ?_⟩
  simpa using g3

theorem space_triangle (a b c d e f : ℝ) : √((a + d) ^ 2 + (b + e) ^ 2 + (c + f) ^ 2) ≤ √(a ^ 2 + b ^ 2 + c ^ 2) + √(d ^ 2 + e ^ 2 + f ^ 2) := by
  have h := norm_add_le (!₂[a, b, c] : EuclideanSpace ℝ (Fin 3)) !₂[d, e, f]
  simpa [EuclideanSpace.norm_eq, Fin.sum_univ_three] using h

/-- C104: the same of a 3d aircraft, whose speed must not be 0, so that its least speed has to be positive. -/
theorem C104_euler_3d (env : Env realFmt) (args : Dubins3dArgs realFmt) (p : Dubins3dParams ℝ) (hp : p.Of args)
    (hlim : p.vMin ≤ p.vMax) (hpos : 0 < p.vMin) (e0 : Entity realFmt) (h0 : newDubins3d env args = .ok e0)
    (hm : e0.dynamics.integrationMethod = "Euler") (hts : e0.dynamics.trajectorySamples ≤ 0) (ops : List (Op realFmt)) (e : Entity realFmt)
    (he : e = e0.run env ops) (x y z heading gamma roll v : ℝ)
    (hs : e.state = [.fin x, .fin y, .fin z, .fin heading, .fin gamma, .fin roll, .fin v]) (hv : p.vMin ≤ v ∧ v ≤ p.vMax)
    (hist : List (ℝ × Action realFmt)) (hu : ∀ h ∈ hist, 0 ≤ h.1 ∧ ∃ u : Fin 3 → ℝ, Asks env e h.2 u) :
    ∃ x' y' z' heading' gamma' roll' v' : ℝ,
      (e.run env (stepsOf hist)).state = [.fin x', .fin y', .fin z', .fin heading', .fin gamma', .fin roll', .fin v'] ∧
      p.vMin ≤ v' ∧ v' ≤ p.vMax ∧ √((x' - x) ^ 2 + (y' - y) ^ 2 + (z' - z) ^ 2) ≤ p.vMax * (hist.map Prod.fst).sum := by
  have hc := run_sameConfig env ops e0
  have hr := (dubins3d_realised hp h0).congr hc
  obtain ⟨k1, k2⟩ := sameConfig_method hc
  rw [← he] at hr k1 k2
  obtain ⟨y', g1, g2, g3⟩ := Realises.run_euler (env := env) (M := dubins3dModel realFmt p)
    (fun τ s => (p.vMin ≤ s 6 ∧ s 6 ≤ p.vMax) ∧ √((s 0 - x) ^ 2 + (s 1 - y) ^ 2 + (s 2 - z) ^ 2) ≤ p.vMax * τ)
    (fun T => 0 ≤ T) (fun _ s h => (hpos.trans_le h.1.1).ne')
    (by
      rintro τ T u s hT ⟨⟨q1, q2⟩, q3⟩
      obtain ⟨w, hw⟩ : ∃ w, w = s + T • (dubins3dModel realFmt p).field ((dubins3dModel realFmt p).sat u) 0 s := ⟨_, rfl⟩
      rw [← hw]
      have p0 : (dubins3dModel realFmt p).post π w 0 = w 0 := by simp [KModel.post, dubins3dModel, kclip]
      have p1 : (dubins3dModel realFmt p).post π w 1 = w 1 := by simp [KModel.post, dubins3dModel, kclip]
      have p2 : (dubins3dModel realFmt p).post π w 2 = w 2 := by simp [KModel.post, dubins3dModel, kclip]
      have p6 : (dubins3dModel realFmt p).post π w 6 = min (max (w 6) p.vMin) p.vMax := by simp [KModel.post, dubins3dModel, kclip]
      have w0 : w 0 = s 0 + T * (s 6 * cos (s 3) * cos (s 4)) := by
        rw [hw]; simp [KModel.field, dubins3dModel, klimit_free]; exact Or.inl rfl
      have w1 : w 1 = s 1 + T * (s 6 * sin (s 3) * cos (s 4)) := by
        rw [hw]; simp [KModel.field, dubins3dModel, klimit_free]; exact Or.inl rfl
      have w2 : w 2 = s 2 + T * (-(s 6 * sin (s 4))) := by
        rw [hw]; simp [KModel.field, dubins3dModel, klimit_free]; exact Or.inl (Or.inl rfl)
      rw [p0, p1, p2, p6]
      refine ⟨⟨le_min (le_max_right _ _) hlim, min_le_right _ _⟩, ?_⟩
      have h1 := space_triangle (s 0 - x) (s 1 - y) (s 2 - z) (T * (s 6 * cos (s 3) * cos (s 4))) (T * (s 6 * sin (s 3) * cos (s 4)))
        (T * (-(s 6 * sin (s 4))))
      have h2 : √((T * (s 6 * cos (s 3) * cos (s 4))) ^ 2 + (T * (s 6 * sin (s 3) * cos (s 4))) ^ 2 + (T * (-(s 6 * sin (s 4)))) ^ 2) = T * s 6 := by
        rw [show (T * (s 6 * cos (s 3) * cos (s 4))) ^ 2 + (T * (s 6 * sin (s 3) * cos (s 4))) ^ 2 + (T * (-(s 6 * sin (s 4)))) ^ 2
            = (T * s 6) ^ 2 * ((sin (s 3) ^ 2 + cos (s 3) ^ 2) * cos (s 4) ^ 2 + sin (s 4) ^ 2) by ring, sin_sq_add_cos_sq, one_mul, cos_sq_add_sin_sq,
          mul_one, sqrt_sq_eq_abs, abs_of_nonneg (mul_nonneg hT (hpos.le.trans q1))]
      rw [h2] at h1
      rw [w0, w1, w2, add_sub_right_comm, add_sub_right_comm (s 1), add_sub_right_comm (s 2)]
      nlinarith [mul_le_mul_of_nonneg_left q2 hT])
    hist hr (k1.trans hm) (k2 ▸ hts) hu (τ := 0) (y := ![x, y, z, heading, gamma, roll, v])
    (by rw [hs, toFl7]; rfl) ⟨hv, by simp⟩
  refine ⟨y' 0, y' 1, y' 2, y' 3, y' 4, y' 5, y' 6, by rw [g1, toFl7], g2.1, g2.2, ?_⟩
  simpa using g3

/-! ### straight accelerated flight -/

/-- C104: straight flight under a constant acceleration that stays between the speed limits: with RK45, whatever steps the solver takes, the
aircraft gains exactly `a τ` of speed and flies exactly `v τ + a τ² / 2` along its heading. -/
theorem C104_accelerated_2d (env : Env realFmt) (henv : IsRk dopri env) (args : Dubins2dArgs realFmt) (p : Dubins2dParams ℝ) (hp : p.Of args)
    (hrate : p.headingRateMin ≤ 0 ∧ 0 ≤ p.headingRateMax) (e0 : Entity realFmt) (h0 : newDubins2d env args = .ok e0)
    (hm : e0.dynamics.integrationMethod = "RK45") (ops : List (Op realFmt)) (e : Entity realFmt) (he : e = e0.run env ops) (x y heading v acc a : ℝ)
    (hs : e.state = [.fin x, .fin y, .fin heading, .fin v]) (hv : p.vMin < v ∧ v < p.vMax) (ha : a = min (max acc p.accMin) p.accMax)
    (hist : List (ℝ × Action realFmt)) (hT : ∀ h ∈ hist, 0 ≤ h.1) (hu : ∀ h ∈ hist, Asks env e h.2 ![0, acc])
    (hend : p.vMin < v + a * elapsed env e hist ∧ v + a * elapsed env e hist < p.vMax) :
    ∃ heading' : ℝ, SameAngle π heading heading' ∧
      (e.run env (stepsOf hist)).state
        = [.fin (x + (v * elapsed env e hist + a * elapsed env e hist ^ 2 / 2) * cos heading),
           .fin (y + (v * elapsed env e hist + a * elapsed env e hist ^ 2 / 2) * sin heading), .fin heading', .fin (v + a * elapsed env e hist)] := by
  have hc := run_sameConfig env ops e0
  have hr := (dubins2d_realised hp h0).congr hc
  obtain ⟨k1, -⟩ := sameConfig_method hc
  rw [← he] at hr k1
  obtain ⟨E, hE⟩ : ∃ E, E = elapsed env e hist := ⟨_, rfl⟩
  rw [← hE] at hend ⊢
  have hsat : (dubins2dModel realFmt p).sat ![0, acc] = ![0, a] := by
    funext i
    fin_cases i
    · simpa [KModel.sat, dubins2dModel] using kclip_within hrate.1 hrate.2
    · simp [KModel.sat, dubins2dModel, kclip, ha]
  obtain ⟨y', g1, -, g2⟩ := Realises.run_timed henv pi_pos (M := dubins2dModel realFmt p) (d := e.dynamics)
    (fun τ z => 0 ≤ τ ∧ (τ ≤ E → z 3 = v + a * τ ∧ SameAngle π heading (z 2) ∧
      z 0 = x + (v * τ + a * τ ^ 2 / 2) * cos heading ∧ z 1 = y + (v * τ + a * τ ^ 2 / 2) * sin heading))
    (fun T u => 0 ≤ T ∧ u = ![0, acc]) (S := fun _ => True) (D := ⊤) (fun _ _ => trivial)
    (fun _ _ _ => ⟨fun _ _ _ => trivial, fun _ _ _ _ => trivial⟩) (fun _ _ _ => trivial)
    (by
      rintro τ T u ⟨hT, rfl⟩ tab hs z hrun ⟨q0, q⟩
      refine ⟨add_nonneg q0 hT, fun hτ => ?_⟩
      obtain ⟨q1, q2, q3, q4⟩ := q (by linarith)
      rcases hrun.kind with ⟨-, rfl⟩ | ⟨hb, -⟩
      swap
      · rw [k1, hm] at hb; simp at hb
      rw [hsat]
      have htrig : cos (z 2) = cos heading ∧ sin (z 2) = sin heading := by
        obtain ⟨k, hk⟩ := q2
        rw [hk, show 2 * π * (k : ℝ) = k * (2 * π) by ring, cos_add_int_mul_two_pi, sin_add_int_mul_two_pi]
        exact ⟨rfl, rfl⟩
      let D : Submodule ℝ (Fin 4 → ℝ) := LinearMap.ker (LinearMap.proj (R := ℝ) (φ := fun _ : Fin 4 => ℝ) 2)
      let F' : ℝ → (Fin 4 → ℝ) → Fin 4 → ℝ := fun _ w =>
        ![w 3 * cos heading, w 3 * sin heading, 0, klimit (some p.vMin) (some p.vMax) none none (w 3) a]
      let G : ℝ → (Fin 4 → ℝ) → Fin 4 → ℝ := fun _ w => ![w 3 * cos heading, w 3 * sin heading, 0, a]
      have hF : ∀ t (w : Fin 4 → ℝ), w 2 = z 2 → (dubins2dModel realFmt p).field ![0, a] t w = F' t w := by
        intro t w hw
        funext i
        fin_cases i
        · simp [KModel.field, dubins2dModel, klimit_free, F', ← htrig.1, hw]; exact Or.inl rfl
        · simp [KModel.field, dubins2dModel, klimit_free, F', ← htrig.2, hw]; exact Or.inl rfl
        · simp [KModel.field, dubins2dModel, klimit_free, F']
        · simp [KModel.field, dubins2dModel, F']
      have hst : Stable ((dubins2dModel realFmt p).field ![0, a]) (fun w => w 2 = z 2) D := by
        constructor
        · intro t w hw
          rw [LinearMap.mem_ker, hF t w hw]
          rfl
        · intro y d hy hd
          rw [LinearMap.mem_ker] at hd
          change d 2 = 0 at hd
          simp [hy, hd]
      have hc1 : rkChain kdopri ((dubins2dModel realFmt p).field ![0, a]) 0 z hs = rkChain kdopri F' 0 z hs :=
        rkChain_congrOn kdopri hst.field hst.move hF 0 z hs rfl
      have hinv : rkChain kdopri ((dubins2dModel realFmt p).field ![0, a]) 0 z hs 2 = z 2 :=
        rkChain_inv kdopri _ (fun w => w 2 = z 2) D hst.field hst.move 0 z hs rfl
      have hsum := hrun.sum
      have hE0 : 0 ≤ E := by linarith
      have hin : ∀ s, 0 ≤ s → s ≤ E → p.vMin < v + a * s ∧ v + a * s < p.vMax := by
        intro s s0 s1
        rcases eq_or_lt_of_le hE0 with h | h
        · obtain rfl : s = 0 := by linarith
          simpa using hv
        · have := between hv hend ⟨div_nonneg s0 hE0, (div_le_one h).2 s1⟩
          rwa [show v + s / E * (v + a * E - v) = v + a * s by field_simp; ring] at this
      have hc2 : rkChain kdopri F' 0 z hs = rkChain kdopri G 0 z hs := by
        refine rkChain_agree (LinearMap.proj 3) a p.vMin p.vMax (fun _ _ => rfl) ?_ kdopri kdopri_consistent.rows kdopri_consistent.b1
          kdopri_consistent.blen kdopri_nodes hs 0 z (.inl (hrun.nonneg hT)) ?_ ?_
        · rintro t w ⟨h1, h2⟩
          simp only [LinearMap.proj_apply] at h1 h2
          simp [F', G, klimit, kclip, not_le.2 h1, not_le.2 h2]
        · simp only [LinearMap.proj_apply, q1]
          exact hin τ q0 (by linarith)
        · simp only [LinearMap.proj_apply, q1, hsum]
          have := hin (τ + T) (by linarith) hτ
          rwa [show v + a * τ + a * T = v + a * (τ + T) by ring]
      rw [hc1, hc2] at hinv
      rw [hc1, hc2]
      obtain ⟨w, hw⟩ : ∃ w, w = rkChain kdopri G 0 z hs := ⟨_, rfl⟩
      have w3 : w 3 = v + a * (τ + T) := by
        have := rkChain_const_rate kdopri kdopri_consistent.b1 kdopri_consistent.blen G (LinearMap.proj 3) a (fun _ _ => rfl) 0 z hs
        simp only [LinearMap.proj_apply, ← hw, q1, hsum] at this
        rw [this]; ring
      have hpos : ∀ (j : Fin 4) (c : ℝ), (∀ t w, G t w j = w 3 * c) → w j = z j + (v + a * τ) * c * T + a * c * T ^ 2 * (1 / 2) := by
        intro j c hj
        have := rkChain_double_integrator kdopri kdopri_consistent G (LinearMap.proj j) (c • LinearMap.proj 3) (a * c)
          (by intro t w; simp [hj t w, mul_comm]) (by intro t w; simp [G, mul_comm]) 0 z hs
        simp only [LinearMap.proj_apply, LinearMap.smul_apply, smul_eq_mul, ← hw, q1, hsum] at this
        rw [this]; ring
      have w0 := hpos 0 (cos heading) (fun _ _ => rfl)
      have w1 := hpos 1 (sin heading) (fun _ _ => rfl)
      rw [← hw] at hinv ⊢
      have hlim := hin (τ + T) (by linarith) hτ
      have p0 : (dubins2dModel realFmt p).post realFmt.pi w 0 = w 0 := by simp [KModel.post, dubins2dModel, kclip]
      have p1 : (dubins2dModel realFmt p).post realFmt.pi w 1 = w 1 := by simp [KModel.post, dubins2dModel, kclip]
      have p3 : (dubins2dModel realFmt p).post realFmt.pi w 3 = w 3 := by
        rw [← w3] at hlim
        simpa [KModel.post, dubins2dModel] using kclip_within hlim.1.le hlim.2.le
      have p2 : SameAngle π (w 2) ((dubins2dModel realFmt p).post realFmt.pi w 2) := by
        have := wrap_angle (w 2)
        simp [KModel.post, dubins2dModel, kclip] at this ⊢
        exact this
      rw [p0, p1, p3]
      refine ⟨w3, SameAngle.trans (hinv ▸ q2) p2, ?_, ?_⟩
      · rw [w0, q3]; ring
      · rw [w1, q4]; ring)
    hist hr (.inl (k1.trans hm)) rfl (fun h hh => ⟨_, hu h hh, hT h hh, rfl⟩) (τ := 0) (y := ![x, y, heading, v])
    (by rw [hs, toFl4]; rfl) ⟨le_rfl, fun _ => ⟨by simp, ⟨0, by simp⟩, by simp, by simp⟩⟩
  rw [zero_add, ← hE] at g2
  obtain ⟨g3, g4, g5, g6⟩ := g2 le_rfl
  exact ⟨y' 2, g4, by rw [g1, toFl4, g3, g5, g6]⟩

/-! ### overspeed -/

/-- one Dormand-Prince step of `x' = c v`, `v' = g v`, where the rate is `a` at the start and 0 from the speed `m` on, which the second stage reaches -/
theorem kdopri_overspeed (g : ℝ → ℝ) (c a m x v T : ℝ) (hv : g v = a) (hg : ∀ w, m ≤ w → g w = 0) (h0 : 0 ≤ a * T) (hm : m ≤ v + 3 / 40 * (a * T)) :
    rkStep kdopri (fun _ (q : ℝ × ℝ) => (c * q.2, g q.2)) 0 T (x, v) = (x + T * (c * (v + 35 / 384 * (a * T))), v + 35 / 384 * (a * T)) := by
  have e2 : g (v + T * (1 / 5 * a)) = 0 := hg _ (by linarith)
  have e3 : g (v + T * (3 / 40 * a)) = 0 := hg _ (by linarith)
  have e4 : g (v + T * (44 / 45 * a)) = 0 := hg _ (by linarith)
  have e5 : g (v + T * (19372 / 6561 * a)) = 0 := hg _ (by linarith)
  have e6 : g (v + T * (9017 / 3168 * a)) = 0 := hg _ (by linarith)
  simp only [rkStep, kdopri, rkStages, combo, List.zip_cons_cons, List.foldl_cons, List.zip_nil_left, List.zip_nil_right, List.foldl_nil, zero_add,
    List.cons_append, List.nil_append, Prod.smul_mk, Prod.mk_add_mk, smul_eq_mul, hv, e2, mul_zero, add_zero, e3, e4, e5, e6]
  refine Prod.ext ?_ ?_
  · dsimp only; ring
  · dsimp only; ring

/-- C104: with RK45 the bound fails: if the speed would reach its maximum early in a step of the solver, the aircraft flies
farther in that step than its maximum speed allows. -/
theorem C104_overspeed (args : Dubins2dArgs realFmt) (p : Dubins2dParams ℝ) (hp : p.Of args) (hlim : p.vMin ≤ p.vMax)
    (hrate : p.headingRateMin ≤ 0 ∧ 0 ≤ p.headingRateMax) (e0 : Entity realFmt)
    (h0 : newDubins2d (rkEnv dopri (fun _ _ _ => [])) args = .ok e0) (hm : e0.dynamics.integrationMethod = "RK45")
    (ops : List (Op realFmt)) (e : Entity realFmt) (he : e = e0.run (rkEnv dopri (fun _ _ _ => [])) ops) (x y heading v acc a T : ℝ)
    (hs : e.state = [.fin x, .fin y, .fin heading, .fin v]) (ha : a = min (max acc p.accMin) p.accMax) (ha0 : 0 < a) (hT : 0 < T)
    (hv : v < p.vMax) (hreach : p.vMax ≤ v + 3 / 40 * (a * T)) (act : Action realFmt) (hu : Asks (rkEnv dopri (fun _ _ _ => [])) e act ![0, acc]) :
    (e.step (rkEnv dopri (fun _ _ _ => [])) (.fin T) act).outcome = .ok () ∧
    (∃ heading' : ℝ, (e.step (rkEnv dopri (fun _ _ _ => [])) (.fin T) act).entity.state
      = [.fin (x + T * (v + 35 / 384 * (a * T)) * cos heading), .fin (y + T * (v + 35 / 384 * (a * T)) * sin heading), .fin heading', .fin p.vMax]) ∧
    p.vMax * T < T * (v + 35 / 384 * (a * T)) := by
  have hc := run_sameConfig (rkEnv dopri (fun _ _ _ => [])) ops e0
  have hr := (dubins2d_realised hp h0).congr hc
  obtain ⟨k1, -⟩ := sameConfig_method hc
  rw [← he] at hr k1
  have haT : 0 < a * T := mul_pos ha0 hT
  have hsat : (dubins2dModel realFmt p).sat ![0, acc] = ![0, a] := by
    funext i
    fin_cases i
    · simpa [KModel.sat, dubins2dModel] using kclip_within hrate.1 hrate.2
    · simp [KModel.sat, dubins2dModel, kclip, ha]
  obtain ⟨h1, h2, -⟩ := Realises.step_fixed (R := realFmt) [] pi_pos hr (.inl (k1.trans hm)) hu (S := fun _ => True) (D := ⊤) (fun _ _ => trivial)
      ⟨fun _ _ _ => trivial, fun _ _ _ _ => trivial⟩ (y := ![x, y, heading, v]) (by rw [hs, toFl4]; rfl) trivial T
  refine ⟨h1, ?_, by nlinarith⟩
  have hne : e.dynamics.integrationMethod ≠ "Euler" := by rw [k1, hm]; simp
  rw [hsat] at h2
  simp only [flowTab, flowHs, if_neg hne, schedule, List.map_cons, List.map_nil, List.sum_cons, List.sum_nil] at h2
  norm_num at h2
  let D : Submodule ℝ (Fin 4 → ℝ) := LinearMap.ker (LinearMap.proj (R := ℝ) (φ := fun _ : Fin 4 => ℝ) 2)
  let g : ℝ → ℝ := fun w => klimit (some p.vMin) (some p.vMax) none none w a
  let F' : ℝ → (Fin 4 → ℝ) → Fin 4 → ℝ := fun _ w => ![w 3 * cos heading, w 3 * sin heading, 0, g (w 3)]
  have hF : ∀ t (w : Fin 4 → ℝ), w 2 = heading → (dubins2dModel realFmt p).field ![0, a] t w = F' t w := by
    intro t w hw
    funext i
    fin_cases i
    · simp [KModel.field, dubins2dModel, klimit_free, F', hw]; exact Or.inl rfl
    · simp [KModel.field, dubins2dModel, klimit_free, F', hw]; exact Or.inl rfl
    · simp [KModel.field, dubins2dModel, klimit_free, F']
    · simp [KModel.field, dubins2dModel, F', g]
  have hst : Stable ((dubins2dModel realFmt p).field ![0, a]) (fun w => w 2 = heading) D := by
    constructor
    · intro t w hw
      rw [LinearMap.mem_ker, hF t w hw]
      rfl
    · intro y d hy hd
      rw [LinearMap.mem_ker] at hd
      change d 2 = 0 at hd
      simp [hy, hd]
  have hc1 := rkChain_congrOn kdopri hst.field hst.move hF 0 ![x, y, heading, v] [T] rfl
  rw [hc1] at h2
  have g1 : g v = a := by
    simp only [g, klimit, kclip]
    simp [not_le.2 hv]
    intro _; exact ha0.le
  have g2 : ∀ w, p.vMax ≤ w → g w = 0 := by
    intro w hw
    simp [g, klimit, kclip, hw, ha0.le]
  have hax : ∀ (j : Fin 4) (c : ℝ), (∀ t w, F' t w j = c * w 3) →
      rkChain kdopri F' 0 ![x, y, heading, v] [T] j = ![x, y, heading, v] j + T * (c * (v + 35 / 384 * (a * T))) ∧
      rkChain kdopri F' 0 ![x, y, heading, v] [T] 3 = v + 35 / 384 * (a * T) := by
    intro j c hj
    have hmap := rkChain_map kdopri (LinearMap.prod (LinearMap.proj j) (LinearMap.proj 3)) F' (fun _ (q : ℝ × ℝ) => (c * q.2, g q.2)) (by
      intro t w
      refine Prod.ext ?_ rfl
      simpa using hj t w) 0 ![x, y, heading, v] [T]
    have hmap' : (rkChain kdopri F' 0 ![x, y, heading, v] [T] j, rkChain kdopri F' 0 ![x, y, heading, v] [T] 3)
        = rkStep kdopri (fun _ (q : ℝ × ℝ) => (c * q.2, g q.2)) 0 T (![x, y, heading, v] j, v) := hmap
    have := kdopri_overspeed g c a p.vMax (![x, y, heading, v] j) v T g1 g2 haT.le hreach
    rw [this] at hmap'
    exact ⟨congrArg Prod.fst hmap', congrArg Prod.snd hmap'⟩
  obtain ⟨w0, w3⟩ := hax 0 (cos heading) (fun _ _ => mul_comm _ _)
  obtain ⟨w1, -⟩ := hax 1 (sin heading) (fun _ _ => mul_comm _ _)
  obtain ⟨w, hw⟩ : ∃ w, w = rkChain kdopri F' 0 ![x, y, heading, v] [T] := ⟨_, rfl⟩
  rw [← hw] at w0 w1 w3 h2
  have p0 : (dubins2dModel realFmt p).post realFmt.pi w 0 = w 0 := by simp [KModel.post, dubins2dModel, kclip]
  have p1 : (dubins2dModel realFmt p).post realFmt.pi w 1 = w 1 := by simp [KModel.post, dubins2dModel, kclip]
  have p3 : (dubins2dModel realFmt p).post realFmt.pi w 3 = p.vMax := by
    have : p.vMax ≤ w 3 := by rw [w3]; linarith
    simp [KModel.post, dubins2dModel, kclip, this]
  refine ⟨(dubins2dModel realFmt p).post realFmt.pi w 2, ?_⟩
  rw [h2, toFl4, p0, p1, p3, w0, w1]
  simp only [Matrix.cons_val_zero, Matrix.cons_val_one]
  congr 2
  · congr 1; ring
  · congr 2; ring

/-- C104: at its maximum speed an aircraft that is asked to accelerate keeps that speed, and with no heading rate flies exactly `v_max τ` along its
heading: with RK45 and with Euler's method. -/
theorem C104_full_speed_2d (env : Env realFmt) (henv : IsRk dopri env) (args : Dubins2dArgs realFmt) (p : Dubins2dParams ℝ) (hp : p.Of args)
    (hlim : p.vMin ≤ p.vMax) (hrate : p.headingRateMin ≤ 0 ∧ 0 ≤ p.headingRateMax) (hacc : 0 ≤ p.accMax) (e0 : Entity realFmt)
    (h0 : newDubins2d env args = .ok e0) (hm : PlainMethod e0.dynamics) (ops : List (Op realFmt)) (e : Entity realFmt) (he : e = e0.run env ops)
    (x y heading : ℝ) (hs : e.state = [.fin x, .fin y, .fin heading, .fin p.vMax]) (hist : List (ℝ × Action realFmt))
    (hu : ∀ h ∈ hist, ∃ acc : ℝ, 0 ≤ acc ∧ Asks env e h.2 ![0, acc]) :
    ∃ heading' : ℝ, SameAngle π heading heading' ∧
      (e.run env (stepsOf hist)).state
        = [.fin (x + p.vMax * elapsed env e hist * cos heading), .fin (y + p.vMax * elapsed env e hist * sin heading), .fin heading', .fin p.vMax] := by
  have hc := run_sameConfig env ops e0
  have hr := (dubins2d_realised hp h0).congr hc
  have hm' := plain_congr hc hm
  rw [← he] at hr hm'
  obtain ⟨y', g1, g2, g3, g4, g5⟩ := Realises.run_timed henv pi_pos (M := dubins2dModel realFmt p) (d := e.dynamics)
    (fun τ z => z 3 = p.vMax ∧ SameAngle π heading (z 2) ∧ z 0 = x + p.vMax * τ * cos heading ∧ z 1 = y + p.vMax * τ * sin heading)
    (fun _ u => u 0 = 0 ∧ 0 ≤ u 1) (S := fun _ => True) (D := ⊤) (fun _ _ => trivial)
    (fun _ _ _ => ⟨fun _ _ _ => trivial, fun _ _ _ _ => trivial⟩) (fun _ _ _ => trivial)
    (by
      rintro τ T u ⟨u0, u1⟩ tab hs z hrun ⟨q1, q2, q3, q4⟩
      have s0 : (dubins2dModel realFmt p).sat u 0 = 0 := by
        simpa [KModel.sat, dubins2dModel, u0] using kclip_within hrate.1 hrate.2
      have s1 : 0 ≤ (dubins2dModel realFmt p).sat u 1 := by
        simp [KModel.sat, dubins2dModel, kclip, hacc, u1]
      have htrig : cos (z 2) = cos heading ∧ sin (z 2) = sin heading := by
        obtain ⟨k, hk⟩ := q2
        rw [hk, show 2 * π * (k : ℝ) = k * (2 * π) by ring, cos_add_int_mul_two_pi, sin_add_int_mul_two_pi]
        exact ⟨rfl, rfl⟩
      have hF : ∀ (t : ℝ) (s : Fin 2 → ℝ) (z' : Fin 4 → ℝ), s 0 = 0 → 0 ≤ s 1 → z' 3 = p.vMax → z' 2 = z 2 →
          (dubins2dModel realFmt p).field s t z' = ![p.vMax * cos heading, p.vMax * sin heading, 0, 0] := by
        intro t s z' s0 s1 h3 h2
        funext i
        fin_cases i
        · simp [KModel.field, dubins2dModel, klimit_free, h3, h2, ← htrig.1]; exact Or.inl rfl
        · simp [KModel.field, dubins2dModel, klimit_free, h3, h2, ← htrig.2]; exact Or.inl rfl
        · simp [KModel.field, dubins2dModel, klimit_free, s0]
        · simp [KModel.field, dubins2dModel, klimit, kclip, h3, s1]
      have hline : rkChain tab ((dubins2dModel realFmt p).field ((dubins2dModel realFmt p).sat u)) 0 z hs
          = z + hs.sum • ![p.vMax * cos heading, p.vMax * sin heading, 0, 0] :=
        rkChain_line tab hrun.b.1 hrun.b.2 (by
          intro t c
          exact hF t _ _ s0 s1 (by simp [q1]) (by simp)) 0 hs
      rw [hline, hrun.sum]
      obtain ⟨w, hw⟩ : ∃ w, w = z + T • ![p.vMax * cos heading, p.vMax * sin heading, 0, 0] := ⟨_, rfl⟩
      rw [← hw]
      have w0 : w 0 = z 0 + T * (p.vMax * cos heading) := by rw [hw]; simp
      have w1 : w 1 = z 1 + T * (p.vMax * sin heading) := by rw [hw]; simp
      have w2 : w 2 = z 2 := by rw [hw]; simp
      have w3 : w 3 = p.vMax := by rw [hw]; simp [q1]
      have p0 : (dubins2dModel realFmt p).post realFmt.pi w 0 = w 0 := by simp [KModel.post, dubins2dModel, kclip]
      have p1 : (dubins2dModel realFmt p).post realFmt.pi w 1 = w 1 := by simp [KModel.post, dubins2dModel, kclip]
      have p3 : (dubins2dModel realFmt p).post realFmt.pi w 3 = p.vMax := by
        simp [KModel.post, dubins2dModel, kclip, w3, hlim]
      have p2 : SameAngle π (w 2) ((dubins2dModel realFmt p).post realFmt.pi w 2) := by
        have := wrap_angle (w 2)
        simp [KModel.post, dubins2dModel, kclip] at this ⊢
        exact this
      rw [p0, p1, p3]
      refine ⟨rfl, SameAngle.trans (w2 ▸ q2) p2, ?_, ?_⟩
      · rw [w0, q3]; ring
      · rw [w1, q4]; ring)
    hist hr hm' rfl (fun h hh => by
      obtain ⟨acc, h1, h2⟩ := hu h hh
      exact ⟨_, h2, rfl, h1⟩) (τ := 0) (y := ![x, y, heading, p.vMax])
    (by rw [hs, toFl4]; rfl) ⟨rfl, ⟨0, by simp⟩, by simp, by simp⟩
  rw [zero_add] at g4 g5
  exact ⟨y' 2, g3, by rw [g1, toFl4, g2, g4, g5]⟩

/-! ### the hypotheses are met -/

/-- an aircraft integrated with Euler's method that turns and accelerates -/
example : ∃ e0 : Entity realFmt, newDubins2d (rkEnv dopri (fun _ _ _ => []))
      { headingRateMin := -1, headingRateMax := 1, accMin := -96, accMax := 96, integrationMethod := "Euler", trajectorySamples := some 0,
        kwargs := [("name", .str "a"), ("heading", .num 1)] } = .ok e0 ∧
    Dubins2dParams.Of (R := realFmt) ⟨200, 400, -1, 1, -96, 96⟩
      { headingRateMin := -1, headingRateMax := 1, accMin := -96, accMax := 96, integrationMethod := "Euler", trajectorySamples := some 0,
        kwargs := [("name", .str "a"), ("heading", .num 1)] } ∧
    e0.dynamics.integrationMethod = "Euler" ∧ e0.dynamics.trajectorySamples ≤ 0 ∧ e0.state = [.fin 0, .fin 0, .fin 1, .fin 200] ∧
    ∀ h ∈ [((3 : ℝ), (.ndarray .f64 [.fin 1, .fin 50] : Action realFmt)), (1 / 2, .ndarray .f64 [.fin (-7), .fin 5000])],
      0 ≤ h.1 ∧ ∃ u : Fin 2 → ℝ, Asks (rkEnv dopri (fun _ _ _ => [])) e0 h.2 u := by
  refine ⟨_, rfl, ⟨Fl.ofNat_fin 200, Fl.ofNat_fin 400, congrArg Fl.neg Fl.one_fin, Fl.one_fin, congrArg Fl.neg (Fl.ofNat_fin 96), Fl.ofNat_fin 96⟩,
    rfl, le_rfl, ?_, ?_⟩
  · show [(0 : Fl realFmt), 0, 1, 200] = _
    rw [Fl.zero_fin, Fl.one_fin, show (200 : Fl realFmt) = .fin 200 from Fl.ofNat_fin 200]
  · intro h hh
    simp only [List.mem_cons, List.not_mem_nil, or_false] at hh
    rcases hh with rfl | rfl
    · exact ⟨by norm_num, ![1, 50], .f64, .array _ _⟩
    · exact ⟨by norm_num, ![-7, 5000], .f64, .array _ _⟩

/-- a 3d aircraft integrated with Euler's method -/
example : ∃ e0 : Entity realFmt, newDubins3d (rkEnv dopri (fun _ _ _ => []))
      { gammaMin := -1, gammaMax := 1, rollMin := -1, rollMax := 1, gammaRateMin := -1, gammaRateMax := 1, integrationMethod := "Euler",
        trajectorySamples := some 0, rollRateMin := -1, rollRateMax := 1, accMin := -1, accMax := 1, kwargs := [("name", .str "a")] } = .ok e0 ∧
    e0.dynamics.integrationMethod = "Euler" ∧ e0.dynamics.trajectorySamples ≤ 0 ∧
    (e0.run (rkEnv dopri (fun _ _ _ => [])) [.setState [.fin 0, .fin 0, .fin 0, .fin 2, .fin (1 / 2), .fin (-1), .fin 300]]).state
      = [.fin 0, .fin 0, .fin 0, .fin 2, .fin (1 / 2), .fin (-1), .fin 300] ∧
    Asks (rkEnv dopri (fun _ _ _ => [])) e0 (.ndarray .f64 [.fin 1, .fin 2, .fin 3]) ![1, 2, 3] :=
  ⟨_, rfl, rfl, le_rfl, rfl, ⟨.f64, .array _ _⟩⟩

/-- an aircraft one foot per second below its maximum speed, asked to accelerate for a second: RK45 takes it more than 400 feet -/
example : ∃ e0 : Entity realFmt, newDubins2d (rkEnv dopri (fun _ _ _ => []))
      { headingRateMin := -1, headingRateMax := 1, accMin := -96, accMax := 96, kwargs := [("name", .str "a"), ("heading", .num 1)] } = .ok e0 ∧
    e0.dynamics.integrationMethod = "RK45" ∧
    (e0.run (rkEnv dopri (fun _ _ _ => [])) [.setState [.fin 0, .fin 0, .fin 1, .fin 399]]).state = [.fin 0, .fin 0, .fin 1, .fin 399] ∧
    Asks (rkEnv dopri (fun _ _ _ => [])) e0 (.ndarray .f64 [.fin 0, .fin 50]) ![0, 50] ∧ (50 : ℝ) = min (max 50 (-96)) 96 ∧
    (399 : ℝ) < 400 ∧ (400 : ℝ) ≤ 399 + 3 / 40 * (50 * 1) :=
  ⟨_, rfl, rfl, rfl, ⟨.f64, .array _ _⟩, by norm_num, by norm_num, by norm_num⟩

/-- an aircraft at 300 feet per second asked to accelerate by 50 for one second in two calls stays below 400 -/
example : ∃ e0 : Entity realFmt, newDubins2d (rkEnv dopri (fun _ _ _ => [1, 2]))
      { headingRateMin := -1, headingRateMax := 1, accMin := -96, accMax := 96, kwargs := [("name", .str "a"), ("heading", .num 1)] } = .ok e0 ∧
    e0.dynamics.integrationMethod = "RK45" ∧
    (e0.run (rkEnv dopri (fun _ _ _ => [1, 2])) [.setState [.fin 0, .fin 0, .fin 1, .fin 300]]).state = [.fin 0, .fin 0, .fin 1, .fin 300] ∧
    Asks (rkEnv dopri (fun _ _ _ => [1, 2])) e0 (.ndarray .f64 [.fin 0, .fin 50]) ![0, 50] ∧ (50 : ℝ) = min (max 50 (-96)) 96 ∧
    ((200 : ℝ) < 300 ∧ (300 : ℝ) < 400) ∧ (200 : ℝ) < 300 + 50 * 1 ∧ (300 : ℝ) + 50 * 1 < 400 ∧
    elapsed (rkEnv dopri (fun _ _ _ => [1, 2])) (e0.run (rkEnv dopri (fun _ _ _ => [1, 2])) [.setState [.fin 0, .fin 0, .fin 1, .fin 300]])
      [(1, .ndarray .f64 [.fin 0, .fin 50])] = 1 := by
  have hp : Dubins2dParams.Of (R := realFmt) ⟨200, 400, -1, 1, -96, 96⟩
      { headingRateMin := -1, headingRateMax := 1, accMin := -96, accMax := 96, kwargs := [("name", .str "a"), ("heading", .num 1)] } :=
    ⟨Fl.ofNat_fin 200, Fl.ofNat_fin 400, congrArg Fl.neg Fl.one_fin, Fl.one_fin, congrArg Fl.neg (Fl.ofNat_fin 96), Fl.ofNat_fin 96⟩
  refine ⟨_, rfl, rfl, rfl, ⟨.f64, .array _ _⟩, by norm_num, by norm_num, by norm_num, by norm_num, ?_⟩
  exact elapsed_one (Realises.step_fixed (R := realFmt) [1, 2] pi_pos
      ((dubins2d_realised hp (env := rkEnv dopri (fun _ _ _ => [1, 2])) rfl).congr (run_sameConfig _ _ _))
      (.inl rfl) (a := .ndarray .f64 [.fin 0, .fin 50]) (u := ![0, 50]) ⟨.f64, .array _ _⟩ (S := fun _ => True) (D := ⊤) (fun _ _ => trivial)
      ⟨fun _ _ _ => trivial, fun _ _ _ _ => trivial⟩ (y := ![0, 0, 1, 300]) (by rw [toFl4]; rfl) trivial 1).1

/-- an aircraft at its maximum speed asked to accelerate -/
example : ∃ e0 : Entity realFmt, newDubins2d (rkEnv dopri (fun _ _ _ => [1, 2]))
      { headingRateMin := -1, headingRateMax := 1, accMin := -96, accMax := 96, kwargs := [("name", .str "a"), ("heading", .num 1)] } = .ok e0 ∧
    PlainMethod e0.dynamics ∧
    (e0.run (rkEnv dopri (fun _ _ _ => [1, 2])) [.setState [.fin 0, .fin 0, .fin 1, .fin 400]]).state = [.fin 0, .fin 0, .fin 1, .fin 400] ∧
    Asks (rkEnv dopri (fun _ _ _ => [1, 2])) e0 (.ndarray .f64 [.fin 0, .fin 50]) ![0, 50] :=
  ⟨_, rfl, .inl rfl, rfl, ⟨.f64, .array _ _⟩⟩

end SAD
