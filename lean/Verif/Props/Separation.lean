import Verif.Props.DubinsReach

/-! # C136: how close two aircraft can come -/

set_option linter.unusedSectionVars false

namespace SAD
open Spec Real

/-- Three legs of a way in space. -/
theorem space_legs (a b c d e f g h i : ℝ) : √((a + d + g) ^ 2 + (b + e + h) ^ 2 + (c + f + i) ^ 2)
    ≤ √(a ^ 2 + b ^ 2 + c ^ 2) + √(d ^ 2 + e ^ 2 + f ^ 2) + √(g ^ 2 + h ^ 2 + i ^ 2) :=
  (space_triangle _ _ _ _ _ _).trans (add_le_add_left (space_triangle _ _ _ _ _ _) _)

/-- C136: two 3d aircraft with Euler's method, whatever each of them is told to do, come closer to each other, or get farther apart, by at most the sum of
what their greatest speeds allow. -/
theorem C136_separation_3d (env env' : Env realFmt) (args args' : Dubins3dArgs realFmt) (p p' : Dubins3dParams ℝ) (hp : p.Of args) (hp' : p'.Of args')
    (hlim : 0 < p.vMin ∧ p.vMin ≤ p.vMax) (hlim' : 0 < p'.vMin ∧ p'.vMin ≤ p'.vMax) (e0 e0' : Entity realFmt)
    (h0 : newDubins3d env args = .ok e0) (h0' : newDubins3d env' args' = .ok e0')
    (hm : e0.dynamics.integrationMethod = "Euler" ∧ e0.dynamics.trajectorySamples ≤ 0)
    (hm' : e0'.dynamics.integrationMethod = "Euler" ∧ e0'.dynamics.trajectorySamples ≤ 0) (ops ops' : List (Op realFmt)) (e e' : Entity realFmt)
    (he : e = e0.run env ops) (he' : e' = e0'.run env' ops') (x y z heading gamma roll v x' y' z' heading' gamma' roll' v' : ℝ)
    (hs : e.state = [.fin x, .fin y, .fin z, .fin heading, .fin gamma, .fin roll, .fin v])
    (hs' : e'.state = [.fin x', .fin y', .fin z', .fin heading', .fin gamma', .fin roll', .fin v'])
    (hv : p.vMin ≤ v ∧ v ≤ p.vMax) (hv' : p'.vMin ≤ v' ∧ v' ≤ p'.vMax) (hist hist' : List (ℝ × Action realFmt))
    (hu : ∀ h ∈ hist, 0 ≤ h.1 ∧ ∃ u : Fin 3 → ℝ, Asks env e h.2 u) (hu' : ∀ h ∈ hist', 0 ≤ h.1 ∧ ∃ u : Fin 3 → ℝ, Asks env' e' h.2 u)
    (t t' : ℝ) (ht : t = (hist.map Prod.fst).sum) (ht' : t' = (hist'.map Prod.fst).sum) :
    ∃ x1 y1 z1 a1 b1 c1 v1 x2 y2 z2 a2 b2 c2 v2 : ℝ,
      (e.run env (stepsOf hist)).state = [.fin x1, .fin y1, .fin z1, .fin a1, .fin b1, .fin c1, .fin v1] ∧
      (e'.run env' (stepsOf hist')).state = [.fin x2, .fin y2, .fin z2, .fin a2, .fin b2, .fin c2, .fin v2] ∧
      √((x - x') ^ 2 + (y - y') ^ 2 + (z - z') ^ 2) - (p.vMax * t + p'.vMax * t') ≤ √((x1 - x2) ^ 2 + (y1 - y2) ^ 2 + (z1 - z2) ^ 2) ∧
      √((x1 - x2) ^ 2 + (y1 - y2) ^ 2 + (z1 - z2) ^ 2) ≤ √((x - x') ^ 2 + (y - y') ^ 2 + (z - z') ^ 2) + (p.vMax * t + p'.vMax * t') := by
  obtain ⟨x1, y1, z1, a1, b1, c1, v1, g1, -, -, g2⟩ :=
    C104_euler_3d env args p hp hlim.2 hlim.1 e0 h0 hm.1 hm.2 ops e he x y z heading gamma roll v hs hv hist hu
  obtain ⟨x2, y2, z2, a2, b2, c2, v2, k1, -, -, k2⟩ :=
    C104_euler_3d env' args' p' hp' hlim'.2 hlim'.1 e0' h0' hm'.1 hm'.2 ops' e' he' x' y' z' heading' gamma' roll' v' hs' hv' hist' hu'
  rw [← ht] at g2
  rw [← ht'] at k2
  refine ⟨x1, y1, z1, a1, b1, c1, v1, x2, y2, z2, a2, b2, c2, v2, g1, k1, ?_, ?_⟩
  · have h := space_legs (x1 - x2) (y1 - y2) (z1 - z2) (-(x1 - x)) (-(y1 - y)) (-(z1 - z)) (x2 - x') (y2 - y') (z2 - z')
    rw [show x1 - x2 + -(x1 - x) + (x2 - x') = x - x' by ring, show y1 - y2 + -(y1 - y) + (y2 - y') = y - y' by ring,
      show z1 - z2 + -(z1 - z) + (z2 - z') = z - z' by ring, neg_sq, neg_sq, neg_sq] at h
    linarith
  · have h := space_legs (x - x') (y - y') (z - z') (x1 - x) (y1 - y) (z1 - z) (-(x2 - x')) (-(y2 - y')) (-(z2 - z'))
    rw [show x - x' + (x1 - x) + -(x2 - x') = x1 - x2 by ring, show y - y' + (y1 - y) + -(y2 - y') = y1 - y2 by ring,
      show z - z' + (z1 - z) + -(z2 - z') = z1 - z2 by ring, neg_sq, neg_sq, neg_sq] at h
    linarith

/-- C136: the same for two 2d aircraft. -/
theorem C136_separation_2d (env env' : Env realFmt) (args args' : Dubins2dArgs realFmt) (p p' : Dubins2dParams ℝ) (hp : p.Of args) (hp' : p'.Of args')
    (hlim : 0 ≤ p.vMin ∧ p.vMin ≤ p.vMax) (hlim' : 0 ≤ p'.vMin ∧ p'.vMin ≤ p'.vMax) (e0 e0' : Entity realFmt)
    (h0 : newDubins2d env args = .ok e0) (h0' : newDubins2d env' args' = .ok e0')
    (hm : e0.dynamics.integrationMethod = "Euler" ∧ e0.dynamics.trajectorySamples ≤ 0)
    (hm' : e0'.dynamics.integrationMethod = "Euler" ∧ e0'.dynamics.trajectorySamples ≤ 0) (ops ops' : List (Op realFmt)) (e e' : Entity realFmt)
    (he : e = e0.run env ops) (he' : e' = e0'.run env' ops') (x y heading v x' y' heading' v' : ℝ)
    (hs : e.state = [.fin x, .fin y, .fin heading, .fin v]) (hs' : e'.state = [.fin x', .fin y', .fin heading', .fin v'])
    (hv : p.vMin ≤ v ∧ v ≤ p.vMax) (hv' : p'.vMin ≤ v' ∧ v' ≤ p'.vMax) (hist hist' : List (ℝ × Action realFmt))
    (hu : ∀ h ∈ hist, 0 ≤ h.1 ∧ ∃ u : Fin 2 → ℝ, Asks env e h.2 u) (hu' : ∀ h ∈ hist', 0 ≤ h.1 ∧ ∃ u : Fin 2 → ℝ, Asks env' e' h.2 u)
    (t t' : ℝ) (ht : t = (hist.map Prod.fst).sum) (ht' : t' = (hist'.map Prod.fst).sum) :
    ∃ x1 y1 a1 v1 x2 y2 a2 v2 : ℝ, (e.run env (stepsOf hist)).state = [.fin x1, .fin y1, .fin a1, .fin v1] ∧
      (e'.run env' (stepsOf hist')).state = [.fin x2, .fin y2, .fin a2, .fin v2] ∧
      √((x - x') ^ 2 + (y - y') ^ 2) - (p.vMax * t + p'.vMax * t') ≤ √((x1 - x2) ^ 2 + (y1 - y2) ^ 2) ∧
      √((x1 - x2) ^ 2 + (y1 - y2) ^ 2) ≤ √((x - x') ^ 2 + (y - y') ^ 2) + (p.vMax * t + p'.vMax * t') := by
  have top : ∀ {a b : ℝ}, 0 ≤ a ∧ a ≤ b → max |a| |b| = b := by
    intro a b h
    rw [abs_of_nonneg h.1, abs_of_nonneg (h.1.trans h.2), max_eq_right h.2]
  obtain ⟨x1, y1, a1, v1, g1, -, -, g2⟩ := C104_euler_2d env args p hp hlim.2 e0 h0 hm.1 hm.2 ops e he x y heading v hs hv hist hu
  obtain ⟨x2, y2, a2, v2, k1, -, -, k2⟩ := C104_euler_2d env' args' p' hp' hlim'.2 e0' h0' hm'.1 hm'.2 ops' e' he' x' y' heading' v' hs' hv' hist' hu'
  rw [← ht, top hlim] at g2
  rw [← ht', top hlim'] at k2
  refine ⟨x1, y1, a1, v1, x2, y2, a2, v2, g1, k1, ?_, ?_⟩
  · have h := (plane_triangle _ _ _ _).trans (add_le_add_left (plane_triangle (x1 - x2) (y1 - y2) (-(x1 - x)) (-(y1 - y))) √((x2 - x') ^ 2 + (y2 - y') ^ 2))
    rw [show x1 - x2 + -(x1 - x) + (x2 - x') = x - x' by ring, show y1 - y2 + -(y1 - y) + (y2 - y') = y - y' by ring, neg_sq, neg_sq] at h
    linarith
  · have h := (plane_triangle _ _ _ _).trans
      (add_le_add_left (plane_triangle (x - x') (y - y') (x1 - x) (y1 - y)) √((-(x2 - x')) ^ 2 + (-(y2 - y')) ^ 2))
    rw [show x - x' + (x1 - x) + -(x2 - x') = x1 - x2 by ring, show y - y' + (y1 - y) + -(y2 - y') = y1 - y2 by ring, neg_sq, neg_sq] at h
    linarith

/-- Two aircraft heading for each other, five thousand feet apart: they stay apart for six seconds. -/
example : ∃ e0 : Entity realFmt, newDubins2d (rkEnv dopri (fun _ _ _ => []))
      { headingRateMin := -1, headingRateMax := 1, accMin := -96, accMax := 96, integrationMethod := "Euler", trajectorySamples := some 0,
        kwargs := [("name", .str "a"), ("heading", .num 1)] } = .ok e0 ∧
    Dubins2dParams.Of (R := realFmt) ⟨200, 400, -1, 1, -96, 96⟩
      { headingRateMin := -1, headingRateMax := 1, accMin := -96, accMax := 96, integrationMethod := "Euler", trajectorySamples := some 0,
        kwargs := [("name", .str "a"), ("heading", .num 1)] } ∧
    e0.dynamics.integrationMethod = "Euler" ∧ e0.dynamics.trajectorySamples ≤ 0 ∧
    (e0.run (rkEnv dopri (fun _ _ _ => [])) [.setState [.fin 0, .fin 0, .fin 0, .fin 200]]).state = [.fin 0, .fin 0, .fin 0, .fin 200] ∧
    (e0.run (rkEnv dopri (fun _ _ _ => [])) [.setState [.fin 5000, .fin 0, .fin 3, .fin 400]]).state = [.fin 5000, .fin 0, .fin 3, .fin 400] ∧
    Asks (rkEnv dopri (fun _ _ _ => [])) e0 (.ndarray .f64 [.fin 0, .fin 50]) ![0, 50] ∧
    0 < √((0 - 5000 : ℝ) ^ 2 + (0 - 0) ^ 2) - (400 * 6 + 400 * 6) := by
  refine ⟨_, rfl, ⟨Fl.ofNat_fin 200, Fl.ofNat_fin 400, congrArg Fl.neg Fl.one_fin, Fl.one_fin, congrArg Fl.neg (Fl.ofNat_fin 96), Fl.ofNat_fin 96⟩,
    rfl, le_rfl, rfl, rfl, ⟨.f64, .array _ _⟩, ?_⟩
  rw [show ((0 - 5000 : ℝ) ^ 2 + (0 - 0) ^ 2) = 5000 ^ 2 by norm_num, sqrt_sq (by norm_num)]
  norm_num

end SAD
