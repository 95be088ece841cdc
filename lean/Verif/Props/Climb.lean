import Verif.Props.DubinsReach

/-! # C134: how fast an aircraft climbs or sinks, and why it cannot hover -/

set_option linter.unusedSectionVars false

namespace SAD
open Spec Real

/-- C134: a 3d aircraft with Euler's method, whatever the actions, changes its `z` coordinate by at most the greatest speed times the sine of the limit
of the flight path angle per second: upwards (negative `z`) by the upper limit, downwards by the lower one. -/
theorem C134_climb (env : Env realFmt) (args : Dubins3dArgs realFmt) (p : Dubins3dParams ℝ) (hp : p.Of args)
    (hlim : p.vMin ≤ p.vMax) (hpos : 0 < p.vMin) (hlo : -(π / 2) ≤ p.gammaMin ∧ p.gammaMin ≤ 0) (hhi : 0 ≤ p.gammaMax ∧ p.gammaMax ≤ π / 2)
    (e0 : Entity realFmt) (h0 : newDubins3d env args = .ok e0)
    (hm : e0.dynamics.integrationMethod = "Euler") (hts : e0.dynamics.trajectorySamples ≤ 0) (ops : List (Op realFmt)) (e : Entity realFmt)
    (he : e = e0.run env ops) (x y z heading gamma roll v : ℝ)
    (hs : e.state = [.fin x, .fin y, .fin z, .fin heading, .fin gamma, .fin roll, .fin v]) (hv : p.vMin ≤ v ∧ v ≤ p.vMax)
    (hg : p.gammaMin ≤ gamma ∧ gamma ≤ p.gammaMax)
    (hist : List (ℝ × Action realFmt)) (hu : ∀ h ∈ hist, 0 ≤ h.1 ∧ ∃ u : Fin 3 → ℝ, Asks env e h.2 u) :
    ∃ x' y' z' heading' gamma' roll' v' : ℝ,
      (e.run env (stepsOf hist)).state = [.fin x', .fin y', .fin z', .fin heading', .fin gamma', .fin roll', .fin v'] ∧
      z - p.vMax * sin p.gammaMax * (hist.map Prod.fst).sum ≤ z' ∧ z' ≤ z + p.vMax * sin (-p.gammaMin) * (hist.map Prod.fst).sum := by
  have hc := run_sameConfig env ops e0
  have hr := (dubins3d_realised hp h0).congr hc
  obtain ⟨k1, k2⟩ := sameConfig_method hc
  rw [← he] at hr k1 k2
  have hpi := pi_pos
  obtain ⟨y', g1, -, -, g3, g4⟩ := Realises.run_euler (env := env) (M := dubins3dModel realFmt p)
    (fun τ s => (p.vMin ≤ s 6 ∧ s 6 ≤ p.vMax) ∧ (p.gammaMin ≤ s 4 ∧ s 4 ≤ p.gammaMax) ∧
      z - p.vMax * sin p.gammaMax * τ ≤ s 2 ∧ s 2 ≤ z + p.vMax * sin (-p.gammaMin) * τ)
    (fun T => 0 ≤ T) (fun _ s h => (hpos.trans_le h.1.1).ne')
    (by
      rintro τ T u s hT ⟨⟨q1, q2⟩, ⟨q5, q5'⟩, q3, q4⟩
      obtain ⟨w, hw⟩ : ∃ w, w = s + T • (dubins3dModel realFmt p).field ((dubins3dModel realFmt p).sat u) 0 s := ⟨_, rfl⟩
      rw [← hw]
      have p2 : (dubins3dModel realFmt p).post π w 2 = w 2 := by simp [KModel.post, dubins3dModel, kclip]
      have p6 : (dubins3dModel realFmt p).post π w 6 = min (max (w 6) p.vMin) p.vMax := by simp [KModel.post, dubins3dModel, kclip]
      have b1 : p.gammaMin ≤ min (max (w 4) p.gammaMin) p.gammaMax := le_min (le_max_right _ _) (hlo.2.trans hhi.1)
      have b2 : min (max (w 4) p.gammaMin) p.gammaMax ≤ p.gammaMax := min_le_right _ _
      have p4 : (dubins3dModel realFmt p).post π w 4 = min (max (w 4) p.gammaMin) p.gammaMax := by
        have hk : ⌊(min (max (w 4) p.gammaMin) p.gammaMax + π) / (2 * π)⌋ = 0 := by
          rw [Int.floor_eq_zero_iff]
          exact ⟨div_nonneg (by linarith) (by linarith), by rw [div_lt_one (by linarith)]; linarith⟩
        simp [KModel.post, dubins3dModel, kclip, hk]
      have w2 : w 2 = s 2 + T * (-(s 6 * sin (s 4))) := by
        rw [hw]; simp [KModel.field, dubins3dModel, klimit_free]; exact Or.inl (Or.inl rfl)
      rw [p2, p4, p6, w2]
      have s0 : 0 ≤ s 6 := hpos.le.trans q1
      have m1 : sin (s 4) ≤ sin p.gammaMax := sin_le_sin_of_le_of_le_pi_div_two (by linarith) hhi.2 q5'
      have m2 : sin p.gammaMin ≤ sin (s 4) := sin_le_sin_of_le_of_le_pi_div_two hlo.1 (by linarith) q5
      have n1 : 0 ≤ sin p.gammaMax := sin_nonneg_of_nonneg_of_le_pi hhi.1 (by linarith)
      have n2 : 0 ≤ sin (-p.gammaMin) := sin_nonneg_of_nonneg_of_le_pi (by linarith) (by linarith)
      have r1 : s 6 * sin (s 4) ≤ p.vMax * sin p.gammaMax := (mul_le_mul_of_nonneg_left m1 s0).trans (mul_le_mul_of_nonneg_right q2 n1)
      have r2 : -(s 6 * sin (s 4)) ≤ p.vMax * sin (-p.gammaMin) := by
        rw [← mul_neg]
        exact (mul_le_mul_of_nonneg_left (show -sin (s 4) ≤ sin (-p.gammaMin) by rw [sin_neg]; linarith) s0).trans (mul_le_mul_of_nonneg_right q2 n2)
      have t1 := mul_le_mul_of_nonneg_left r1 hT
      have t2 := mul_le_mul_of_nonneg_left r2 hT
      exact ⟨⟨le_min (le_max_right _ _) hlim, min_le_right _ _⟩, ⟨b1, b2⟩, by linarith, by linarith⟩)
    hist hr (k1.trans hm) (k2 ▸ hts) hu (τ := 0) (y := ![x, y, z, heading, gamma, roll, v])
    (by rw [hs, toFl7]; rfl) ⟨hv, hg, by simp, by simp⟩
  refine ⟨y' 0, y' 1, y' 2, y' 3, y' 4, y' 5, y' 6, by rw [g1, toFl7], ?_, ?_⟩
  · simpa using g3
  · simpa using g4

/-- C134: a 2d aircraft with Euler's method cannot hover: whatever the actions, within a time `t` in which it can turn by at most `R t ≤ π/2`, it advances
by at least `v_min cos (R t) t` along its heading at the start. -/
theorem C134_no_hovering (env : Env realFmt) (args : Dubins2dArgs realFmt) (p : Dubins2dParams ℝ) (hp : p.Of args)
    (hlim : p.vMin ≤ p.vMax) (hpos : 0 ≤ p.vMin) (R : ℝ) (hR : -R ≤ p.headingRateMin ∧ p.headingRateMin ≤ p.headingRateMax ∧ p.headingRateMax ≤ R)
    (e0 : Entity realFmt) (h0 : newDubins2d env args = .ok e0)
    (hm : e0.dynamics.integrationMethod = "Euler") (hts : e0.dynamics.trajectorySamples ≤ 0) (ops : List (Op realFmt)) (e : Entity realFmt)
    (he : e = e0.run env ops) (x y heading v : ℝ) (hs : e.state = [.fin x, .fin y, .fin heading, .fin v]) (hv : p.vMin ≤ v ∧ v ≤ p.vMax)
    (hist : List (ℝ × Action realFmt)) (hu : ∀ h ∈ hist, 0 ≤ h.1 ∧ ∃ u : Fin 2 → ℝ, Asks env e h.2 u)
    (t : ℝ) (ht : t = (hist.map Prod.fst).sum) (hquarter : R * t ≤ π / 2) :
    ∃ x' y' heading' v' : ℝ, (e.run env (stepsOf hist)).state = [.fin x', .fin y', .fin heading', .fin v'] ∧
      p.vMin * cos (R * t) * t ≤ (x' - x) * cos heading + (y' - y) * sin heading ∧
      p.vMin * cos (R * t) * t ≤ √((x' - x) ^ 2 + (y' - y) ^ 2) := by
  have hc := run_sameConfig env ops e0
  have hr := (dubins2d_realised hp h0).congr hc
  obtain ⟨k1, k2⟩ := sameConfig_method hc
  rw [← he] at hr k1 k2
  have hpi := pi_pos
  have hR0 : 0 ≤ R := by linarith
  have ht0 : 0 ≤ t := by
    rw [ht]
    refine List.sum_nonneg fun a ha => ?_
    obtain ⟨h, hh, rfl⟩ := List.mem_map.1 ha
    exact (hu h hh).1
  have hc0 : 0 ≤ cos (R * t) := cos_nonneg_of_neg_pi_div_two_le_of_le (by nlinarith [mul_nonneg hR0 ht0]) hquarter
  obtain ⟨y', g1, -, -, g4⟩ := Realises.run_euler (env := env) (M := dubins2dModel realFmt p)
    (fun τ s => (p.vMin ≤ s 3 ∧ s 3 ≤ p.vMax) ∧ (∃ turned, SameAngle π (heading + turned) (s 2) ∧ |turned| ≤ R * τ) ∧
      (τ ≤ t → p.vMin * cos (R * t) * τ ≤ (s 0 - x) * cos heading + (s 1 - y) * sin heading))
    (fun T => 0 ≤ T) (fun _ s h => trivial)
    (by
      rintro τ T u s hT ⟨⟨q1, q2⟩, ⟨turned, ⟨k, q3⟩, q4⟩, q5⟩
      obtain ⟨w, hw⟩ : ∃ w, w = s + T • (dubins2dModel realFmt p).field ((dubins2dModel realFmt p).sat u) 0 s := ⟨_, rfl⟩
      rw [← hw]
      have p0 : (dubins2dModel realFmt p).post π w 0 = w 0 := by simp [KModel.post, dubins2dModel, kclip]
      have p1 : (dubins2dModel realFmt p).post π w 1 = w 1 := by simp [KModel.post, dubins2dModel, kclip]
      have p3 : (dubins2dModel realFmt p).post π w 3 = min (max (w 3) p.vMin) p.vMax := by simp [KModel.post, dubins2dModel, kclip]
      have p2 : SameAngle π (w 2) ((dubins2dModel realFmt p).post π w 2) := by
        have := wrap_angle (w 2)
        simp [KModel.post, dubins2dModel, kclip] at this ⊢
        exact this
      obtain ⟨r, hr⟩ : ∃ r, r = min (max (u 0) p.headingRateMin) p.headingRateMax := ⟨_, rfl⟩
      have r1 : |r| ≤ R := by
        have a1 : p.headingRateMin ≤ r := by rw [hr]; exact le_min (le_max_right _ _) hR.2.1
        have a2 : r ≤ p.headingRateMax := by rw [hr]; exact min_le_right _ _
        exact abs_le.2 ⟨by linarith, by linarith⟩
      have w0 : w 0 = s 0 + T * (s 3 * cos (s 2)) := by
        rw [hw]; simp [KModel.field, dubins2dModel, klimit_free]; exact Or.inl (Or.inl rfl)
      have w1 : w 1 = s 1 + T * (s 3 * sin (s 2)) := by
        rw [hw]; simp [KModel.field, dubins2dModel, klimit_free]; exact Or.inl (Or.inl rfl)
      have w2 : w 2 = s 2 + T * r := by
        rw [hw, hr]; simp [KModel.field, dubins2dModel, klimit_free, KModel.sat, kclip]
      rw [p0, p1, p3]
      refine ⟨⟨le_min (le_max_right _ _) hlim, min_le_right _ _⟩, ⟨turned + T * r, SameAngle.trans ⟨k, ?_⟩ p2, ?_⟩, fun hτ => ?_⟩
      · rw [w2, q3]; ring
      · have a1 := abs_add_le turned (T * r)
        rw [abs_mul, abs_of_nonneg hT] at a1
        linarith [mul_le_mul_of_nonneg_left r1 hT]
      · have a1 := q5 (by linarith)
        have a2 : |turned| ≤ R * t := q4.trans (mul_le_mul_of_nonneg_left (by linarith) hR0)
        have a3 : cos (R * t) ≤ cos turned := by
          rw [← cos_abs turned]
          exact cos_le_cos_of_nonneg_of_le_pi (abs_nonneg _) (by linarith) a2
        have a4 : cos (s 2) * cos heading + sin (s 2) * sin heading = cos turned := by
          rw [← cos_sub, q3, show heading + turned + 2 * π * (k : ℝ) - heading = turned + k * (2 * π) by ring, cos_add_int_mul_two_pi]
        have a5 : p.vMin * cos (R * t) ≤ s 3 * cos turned := mul_le_mul q1 a3 hc0 (hpos.trans q1)
        have a6 := mul_le_mul_of_nonneg_left a5 hT
        rw [w0, w1]
        have a7 : (s 0 + T * (s 3 * cos (s 2)) - x) * cos heading + (s 1 + T * (s 3 * sin (s 2)) - y) * sin heading
            = (s 0 - x) * cos heading + (s 1 - y) * sin heading + T * (s 3 * cos turned) := by rw [← a4]; ring
        rw [a7]
        linarith)
    hist hr (k1.trans hm) (k2 ▸ hts) hu (τ := 0) (y := ![x, y, heading, v])
    (by rw [hs, toFl4]; rfl) ⟨hv, ⟨0, ⟨0, by simp⟩, by simp⟩, by simp⟩
  have g5 : p.vMin * cos (R * t) * t ≤ (y' 0 - x) * cos heading + (y' 1 - y) * sin heading := by
    have := g4 (by rw [ht]; simp)
    rw [zero_add, ← ht] at this
    exact this
  refine ⟨y' 0, y' 1, y' 2, y' 3, by rw [g1, toFl4], g5, g5.trans (le_sqrt_of_sq_le ?_)⟩
  nlinarith [sq_nonneg ((y' 0 - x) * sin heading - (y' 1 - y) * cos heading), sin_sq_add_cos_sq heading]

theorem kdopri_underspeed (g : ℝ → ℝ) (c a m x v T : ℝ) (hv : g v = a) (hg : ∀ w, w ≤ m → g w = 0) (h0 : a * T ≤ 0) (hm : v + 3 / 40 * (a * T) ≤ m) :
    rkStep kdopri (fun _ (q : ℝ × ℝ) => (c * q.2, g q.2)) 0 T (x, v) = (x + T * (c * (v + 35 / 384 * (a * T))), v + 35 / 384 * (a * T)) := by
  have e2 : g (v + T * (1 / 5 * a)) = 0 := hg _ (by linarith)
  have e3 : g (v + T * (3 / 40 * a)) = 0 := hg _ (by linarith)
  have e4 : g (v + T * (44 / 45 * a)) = 0 := hg _ (by linarith)
  have e5 : g (v + T * (19372 / 6561 * a)) = 0 := hg _ (by linarith)
  have e6 : g (v + T * (9017 / 3168 * a)) = 0 := hg _ (by linarith)
  simp only [rkStep, kdopri, rkStages, combo, List.zip_cons_cons, List.foldl_cons, List.zip_nil_right, List.foldl_nil, zero_add,
    List.cons_append, List.nil_append, Prod.smul_mk, Prod.mk_add_mk, smul_eq_mul, hv, e2, mul_zero, add_zero, e3, e4, e5, e6]
  refine Prod.ext ?_ ?_
  · dsimp only; ring
  · dsimp only; ring

/-- C134: with RK45 the last bound fails: an aircraft that brakes to its least speed early in one step of the solver flies less far than `v_min T`, straight
ahead though it flies; and it flies backwards if it brakes for long enough. -/
theorem C134_underspeed (args : Dubins2dArgs realFmt) (p : Dubins2dParams ℝ) (hp : p.Of args) (hlim : p.vMin < p.vMax)
    (hrate : p.headingRateMin ≤ 0 ∧ 0 ≤ p.headingRateMax) (e0 : Entity realFmt)
    (h0 : newDubins2d (rkEnv dopri (fun _ _ _ => [])) args = .ok e0) (hm : e0.dynamics.integrationMethod = "RK45")
    (ops : List (Op realFmt)) (e : Entity realFmt) (he : e = e0.run (rkEnv dopri (fun _ _ _ => [])) ops) (x y heading v acc a T : ℝ)
    (hs : e.state = [.fin x, .fin y, .fin heading, .fin v]) (ha : a = min (max acc p.accMin) p.accMax) (ha0 : a < 0) (hT : 0 < T)
    (hv : p.vMin < v) (hreach : v + 3 / 40 * (a * T) ≤ p.vMin) (act : Action realFmt) (hu : Asks (rkEnv dopri (fun _ _ _ => [])) e act ![0, acc]) :
    (e.step (rkEnv dopri (fun _ _ _ => [])) (.fin T) act).outcome = .ok () ∧
    (∃ heading' : ℝ, (e.step (rkEnv dopri (fun _ _ _ => [])) (.fin T) act).entity.state
      = [.fin (x + T * (v + 35 / 384 * (a * T)) * cos heading), .fin (y + T * (v + 35 / 384 * (a * T)) * sin heading), .fin heading', .fin p.vMin]) ∧
    T * (v + 35 / 384 * (a * T)) < p.vMin * T ∧ (v < 35 / 384 * (-a * T) → T * (v + 35 / 384 * (a * T)) < 0) := by
  have hc := run_sameConfig (rkEnv dopri (fun _ _ _ => [])) ops e0
  have hr := (dubins2d_realised hp h0).congr hc
  obtain ⟨k1, -⟩ := sameConfig_method hc
  rw [← he] at hr k1
  have haT : a * T < 0 := mul_neg_of_neg_of_pos ha0 hT
  have hsat : (dubins2dModel realFmt p).sat ![0, acc] = ![0, a] := by
    funext i
    fin_cases i
    · simpa [KModel.sat, dubins2dModel] using kclip_within hrate.1 hrate.2
    · simp [KModel.sat, dubins2dModel, kclip, ha]
  obtain ⟨h1, h2, -⟩ := Realises.step_fixed (R := realFmt) [] pi_pos hr (.inl (k1.trans hm)) hu (S := fun _ => True) (D := ⊤) (fun _ _ => trivial)
      ⟨fun _ _ _ => trivial, fun _ _ _ _ => trivial⟩ (y := ![x, y, heading, v]) (by rw [hs, toFl4]; rfl) trivial T
  refine ⟨h1, ?_, by nlinarith, fun hb => mul_neg_of_pos_of_neg hT (by linarith)⟩
  have hne : e.dynamics.integrationMethod ≠ "Euler" := by rw [k1, hm]; simp
  rw [hsat] at h2
  simp only [flowTab, flowHs, if_neg hne, schedule, List.map_cons, List.map_nil, List.sum_cons, List.sum_nil] at h2
  norm_num at h2
  let D : Submodule ℝ (Fin 4 → ℝ) := LinearMap.ker (LinearMap.proj (R := ℝ) (φ := fun _ : Fin 4 => ℝ) 2)
  let g : ℝ → ℝ := fun w => klimit (some p.vMin) (some p.vMax) none none w a
  let F' : ℝ → (Fin 4 → ℝ) → Fin 4 → ℝ := fun _ w => ![w 3 * cos heading, w 3 * sin heading, 0, g (w 3)]
  have hF : ∀ t (w : Fin 4 → ℝ), w 2 = heading → (dubins2dModel realFmt p).field ![0, a] t w = F' t w := by
    intro t w hw
    funext i
    fin_cases i
    · simp [KModel.field, dubins2dModel, klimit_free, F', hw]; exact Or.inl rfl
    · simp [KModel.field, dubins2dModel, klimit_free, F', hw]; exact Or.inl rfl
    · simp [KModel.field, dubins2dModel, klimit_free, F']
    · simp [KModel.field, dubins2dModel, F', g]
  have hst : Stable ((dubins2dModel realFmt p).field ![0, a]) (fun w => w 2 = heading) D := by
    constructor
    · intro t w hw
      rw [LinearMap.mem_ker, hF t w hw]
      rfl
    · intro y d hy hd
      rw [LinearMap.mem_ker] at hd
      change d 2 = 0 at hd
      simp [hy, hd]
  have hc1 := rkChain_congrOn kdopri hst.field hst.move hF 0 ![x, y, heading, v] [T] rfl
  rw [hc1] at h2
  have g1 : g v = a := by
    simp only [g, klimit, kclip]
    simp [not_le.2 hv]
    try (intro _; exact ha0.le)
  have g2 : ∀ w, w ≤ p.vMin → g w = 0 := by
    intro w hw
    simp [g, klimit, kclip, hw, ha0.le]
    exact fun h => absurd (hlim.trans_le (h.trans hw)) (lt_irrefl _)
  have hax : ∀ (j : Fin 4) (c : ℝ), (∀ t w, F' t w j = c * w 3) →
      rkChain kdopri F' 0 ![x, y, heading, v] [T] j = ![x, y, heading, v] j + T * (c * (v + 35 / 384 * (a * T))) ∧
      rkChain kdopri F' 0 ![x, y, heading, v] [T] 3 = v + 35 / 384 * (a * T) := by
    intro j c hj
    have hmap := rkChain_map kdopri (LinearMap.prod (LinearMap.proj j) (LinearMap.proj 3)) F' (fun _ (q : ℝ × ℝ) => (c * q.2, g q.2)) (by
      intro t w
      refine Prod.ext ?_ rfl
      simpa using hj t w) 0 ![x, y, heading, v] [T]
    have hmap' : (rkChain kdopri F' 0 ![x, y, heading, v] [T] j, rkChain kdopri F' 0 ![x, y, heading, v] [T] 3)
        = rkStep kdopri (fun _ (q : ℝ × ℝ) => (c * q.2, g q.2)) 0 T (![x, y, heading, v] j, v) := hmap
    have := kdopri_underspeed g c a p.vMin (![x, y, heading, v] j) v T g1 g2 haT.le hreach
    rw [this] at hmap'
    exact ⟨congrArg Prod.fst hmap', congrArg Prod.snd hmap'⟩
  obtain ⟨w0, w3⟩ := hax 0 (cos heading) (fun _ _ => mul_comm _ _)
  obtain ⟨w1, -⟩ := hax 1 (sin heading) (fun _ _ => mul_comm _ _)
  obtain ⟨w, hw⟩ : ∃ w, w = rkChain kdopri F' 0 ![x, y, heading, v] [T] := ⟨_, rfl⟩
  rw [← hw] at w0 w1 w3 h2
  have p0 : (dubins2dModel realFmt p).post realFmt.pi w 0 = w 0 := by simp [KModel.post, dubins2dModel, kclip]
  have p1 : (dubins2dModel realFmt p).post realFmt.pi w 1 = w 1 := by simp [KModel.post, dubins2dModel, kclip]
  have p3 : (dubins2dModel realFmt p).post realFmt.pi w 3 = p.vMin := by
    have : w 3 ≤ p.vMin := by rw [w3]; linarith
    simp [KModel.post, dubins2dModel, kclip, this, hlim.le]
  refine ⟨(dubins2dModel realFmt p).post realFmt.pi w 2, ?_⟩
  rw [h2, toFl4, p0, p1, p3, w0, w1]
  simp only [Matrix.cons_val_zero, Matrix.cons_val_one]
  congr 2
  · congr 1; ring
  · congr 2; ring

/-- A 3d aircraft with Euler's method and flight path angles up to one radian, climbing and told to climb more steeply. -/
example : ∃ e0 : Entity realFmt, newDubins3d (rkEnv dopri (fun _ _ _ => []))
      { gammaMin := -1, gammaMax := 1, rollMin := -1, rollMax := 1, gammaRateMin := -1, gammaRateMax := 1, integrationMethod := "Euler",
        trajectorySamples := some 0, rollRateMin := -1, rollRateMax := 1, accMin := -1, accMax := 1, kwargs := [("name", .str "a")] } = .ok e0 ∧
    e0.dynamics.integrationMethod = "Euler" ∧ e0.dynamics.trajectorySamples ≤ 0 ∧
    (e0.run (rkEnv dopri (fun _ _ _ => [])) [.setState [.fin 0, .fin 0, .fin (-900), .fin 2, .fin (1 / 2), .fin (1 / 2), .fin 300]]).state
      = [.fin 0, .fin 0, .fin (-900), .fin 2, .fin (1 / 2), .fin (1 / 2), .fin 300] ∧ (-(π / 2) ≤ -1 ∧ (1 : ℝ) ≤ π / 2) ∧
    Asks (rkEnv dopri (fun _ _ _ => [])) e0 (.ndarray .f64 [.fin 1, .fin 0, .fin 3]) ![1, 0, 3] :=
  ⟨_, rfl, rfl, le_rfl, rfl, ⟨by linarith [pi_gt_three], by linarith [pi_gt_three]⟩, ⟨.f64, .array _ _⟩⟩

/-- An aircraft at 201 feet per second told to brake for thirty seconds, which RK45 integrates in one step. -/
example : ∃ e0 : Entity realFmt, newDubins2d (rkEnv dopri (fun _ _ _ => []))
      { headingRateMin := -1, headingRateMax := 1, accMin := -96, accMax := 96, kwargs := [("name", .str "a"), ("heading", .num 1)] } = .ok e0 ∧
    e0.dynamics.integrationMethod = "RK45" ∧
    (e0.run (rkEnv dopri (fun _ _ _ => [])) [.setState [.fin 0, .fin 0, .fin 1, .fin 201]]).state = [.fin 0, .fin 0, .fin 1, .fin 201] ∧
    Asks (rkEnv dopri (fun _ _ _ => [])) e0 (.ndarray .f64 [.fin 0, .fin (-90)]) ![0, -90] ∧ (-90 : ℝ) = min (max (-90) (-96)) 96 ∧
    (200 : ℝ) < 201 ∧ (201 : ℝ) + 3 / 40 * (-90 * 30) ≤ 200 ∧ (201 : ℝ) < 35 / 384 * (-(-90) * 30) :=
  ⟨_, rfl, rfl, rfl, ⟨.f64, .array _ _⟩, by norm_num, by norm_num, by norm_num, by norm_num⟩

/-- A 2d aircraft with Euler's method and heading rates up to one radian per second, told to turn one way for half a second and the other way, beyond the
limit, for another half. In this second it advances by at least 200 cos 1 feet. -/
example : ∃ e0 : Entity realFmt, newDubins2d (rkEnv dopri (fun _ _ _ => []))
      { headingRateMin := -1, headingRateMax := 1, accMin := -96, accMax := 96, integrationMethod := "Euler", trajectorySamples := some 0,
        kwargs := [("name", .str "a"), ("heading", .num 1)] } = .ok e0 ∧
    Dubins2dParams.Of (R := realFmt) ⟨200, 400, -1, 1, -96, 96⟩
      { headingRateMin := -1, headingRateMax := 1, accMin := -96, accMax := 96, integrationMethod := "Euler", trajectorySamples := some 0,
        kwargs := [("name", .str "a"), ("heading", .num 1)] } ∧
    e0.dynamics.integrationMethod = "Euler" ∧ e0.dynamics.trajectorySamples ≤ 0 ∧ e0.state = [.fin 0, .fin 0, .fin 1, .fin 200] ∧
    (∀ h ∈ [((1 / 2 : ℝ), (.ndarray .f64 [.fin 1, .fin 50] : Action realFmt)), (1 / 2, .ndarray .f64 [.fin (-7), .fin 5000])],
      0 ≤ h.1 ∧ ∃ u : Fin 2 → ℝ, Asks (rkEnv dopri (fun _ _ _ => [])) e0 h.2 u) ∧
    (1 : ℝ) * ([((1 / 2 : ℝ), (.ndarray .f64 [.fin 1, .fin 50] : Action realFmt)), (1 / 2, .ndarray .f64 [.fin (-7), .fin 5000])].map Prod.fst).sum
      ≤ π / 2 := by
  refine ⟨_, rfl, ⟨Fl.ofNat_fin 200, Fl.ofNat_fin 400, congrArg Fl.neg Fl.one_fin, Fl.one_fin, congrArg Fl.neg (Fl.ofNat_fin 96), Fl.ofNat_fin 96⟩,
    rfl, le_rfl, ?_, ?_, ?_⟩
  · show [(0 : Fl realFmt), 0, 1, 200] = _
    rw [Fl.zero_fin, Fl.one_fin, show (200 : Fl realFmt) = .fin 200 from Fl.ofNat_fin 200]
  · intro h hh
    simp only [List.mem_cons, List.not_mem_nil, or_false] at hh
    rcases hh with rfl | rfl
    · exact ⟨by norm_num, ![1, 50], .f64, .array _ _⟩
    · exact ⟨by norm_num, ![-7, 5000], .f64, .array _ _⟩
  · norm_num
    linarith [pi_gt_three]

end SAD
