import Verif.Lemmas.Symmetry
import Verif.Props.Turn

/-!
# C94: symmetries of Dubins flight
-/

set_option linter.unusedSectionVars false

namespace SAD
open Spec Real

theorem SameAngle.symm {p a b : ℝ} (h : SameAngle p a b) : SameAngle p b a := by
  obtain ⟨k, rfl⟩ := h
  exact ⟨-k, by push_cast; ring⟩

theorem SameAngle.add_right {p a b : ℝ} (h : SameAngle p a b) (c : ℝ) : SameAngle p (a + c) (b + c) := by
  obtain ⟨k, rfl⟩ := h
  exact ⟨k, by ring⟩

theorem SameAngle.neg {p a b : ℝ} (h : SameAngle p a b) : SameAngle p (-a) (-b) := by
  obtain ⟨k, rfl⟩ := h
  exact ⟨-k, by push_cast; ring⟩

theorem cos_turns (x : ℝ) (k : ℤ) : cos (x + 2 * π * k) = cos x := by
  rw [show x + 2 * π * k = x + k * (2 * π) by ring]; exact cos_add_int_mul_two_pi _ _

theorem sin_turns (x : ℝ) (k : ℤ) : sin (x + 2 * π * k) = sin x := by
  rw [show x + 2 * π * k = x + k * (2 * π) by ring]; exact sin_add_int_mul_two_pi _ _

/-! ### 2d -/

/-- the horizontal plane turned by `α` -/
noncomputable def turn2 (α : ℝ) : (Fin 4 → ℝ) →ₗ[ℝ] (Fin 4 → ℝ) where
  toFun y := ![cos α * y 0 - sin α * y 1, sin α * y 0 + cos α * y 1, y 2, y 3]
  map_add' a b := by funext i; fin_cases i <;> simp <;> ring
  map_smul' c a := by funext i; fin_cases i <;> simp <;> ring

/-- the horizontal plane reflected in the x axis -/
def flip2 : (Fin 4 → ℝ) →ₗ[ℝ] (Fin 4 → ℝ) where
  toFun y := ![y 0, -y 1, -y 2, y 3]
  map_add' a b := by funext i; fin_cases i <;> simp <;> ring
  map_smul' c a := by funext i; fin_cases i <;> simp

theorem turn2_field (p : Dubins2dParams ℝ) (u : Fin 2 → ℝ) (α : ℝ) (k : ℤ) (t : ℝ) (y : Fin 4 → ℝ) :
    turn2 α ((dubins2dModel realFmt p).field u t y)
      = (dubins2dModel realFmt p).field u t (turn2 α y + ![0, 0, α + 2 * π * k, 0]) := by
  have e2 : cos (y 2 + (α + 2 * π * k)) = cos (y 2) * cos α - sin (y 2) * sin α := by rw [← add_assoc, cos_turns, cos_add]
  have e3 : sin (y 2 + (α + 2 * π * k)) = sin (y 2) * cos α + cos (y 2) * sin α := by rw [← add_assoc, sin_turns, sin_add]
  funext i
  fin_cases i
  · simp [KModel.field, dubins2dModel, klimit_free, turn2]
    show cos α * (y 3 * cos (y 2)) - sin α * (y 3 * sin (y 2)) = y 3 * cos (y 2 + (α + 2 * π * k))
    rw [e2]; ring
  · simp [KModel.field, dubins2dModel, klimit_free, turn2]
    show sin α * (y 3 * cos (y 2)) + cos α * (y 3 * sin (y 2)) = y 3 * sin (y 2 + (α + 2 * π * k))
    rw [e3]; ring
  · simp [KModel.field, dubins2dModel, klimit_free, turn2]
  · simp [KModel.field, dubins2dModel, turn2]

theorem flip2_field (p : Dubins2dParams ℝ) (u u' : Fin 2 → ℝ) (h0 : u' 0 = -u 0) (h1 : u' 1 = u 1) (k : ℤ) (t : ℝ) (y : Fin 4 → ℝ) :
    flip2 ((dubins2dModel realFmt p).field u t y)
      = (dubins2dModel realFmt p).field u' t (flip2 y + ![0, 0, 2 * π * k, 0]) := by
  funext i
  fin_cases i
  · simp [KModel.field, dubins2dModel, klimit_free, flip2]
    exact .inl (by show cos (y 2) = cos (-y 2 + 2 * π * k); rw [cos_turns, cos_neg])
  · simp [KModel.field, dubins2dModel, klimit_free, flip2]
    show -(y 3 * sin (y 2)) = y 3 * sin (-y 2 + 2 * π * k)
    rw [sin_turns, sin_neg]; ring
  · simp [KModel.field, dubins2dModel, klimit_free, flip2, h0]
  · simp [KModel.field, dubins2dModel, flip2, h1]

theorem post2 (p : Dubins2dParams ℝ) (y : Fin 4 → ℝ) : ∃ k : ℤ,
    (dubins2dModel realFmt p).post realFmt.pi y = ![y 0, y 1, y 2 + 2 * π * k, kclip (some p.vMin) (some p.vMax) (y 3)] := by
  obtain ⟨k, hk⟩ := wrap_angle (y 2)
  refine ⟨k, ?_⟩
  funext i
  fin_cases i
  · simp [KModel.post, dubins2dModel, kclip]
  · simp [KModel.post, dubins2dModel, kclip]
  · refine Eq.trans ?_ hk
    simp [KModel.post, dubins2dModel, kclip]
    rfl
  · simp [KModel.post, dubins2dModel]

/-- C94: turning the plane turns the flight. Two 2d aircraft configured alike, the second placed where a rotation of the plane by `α`
takes the first and heading `α` further left, and given the same actions, steps and integrator schedules, stay related by that
rotation: same speed, positions turned by `α`, headings `α` apart up to whole turns. -/
theorem C94_rotation_2d (env : Env realFmt) (args : Dubins2dArgs realFmt) (p : Dubins2dParams ℝ) (hp : p.Of args)
    (e0 : Entity realFmt) (h0 : newDubins2d env args = .ok e0) (hm : PlainMethod e0.dynamics) (ops ops' : List (Op realFmt))
    (e e' : Entity realFmt) (he : e = e0.run env ops) (he' : e' = e0.run env ops') (α x y heading heading' v : ℝ)
    (hs : e.state = [.fin x, .fin y, .fin heading, .fin v])
    (hs' : e'.state = [.fin (cos α * x - sin α * y), .fin (sin α * x + cos α * y), .fin heading', .fin v])
    (hh : SameAngle π (heading + α) heading') (hist : List (List ℝ × ℝ × Action realFmt))
    (hu : ∀ h ∈ hist, ∃ u : Fin 2 → ℝ, Asks (scheduled h.1) e0 h.2.2 u) :
    ∃ x1 y1 h1 h1' v1 : ℝ, (runScheduled e hist).state = [.fin x1, .fin y1, .fin h1, .fin v1] ∧
      (runScheduled e' hist).state = [.fin (cos α * x1 - sin α * y1), .fin (sin α * x1 + cos α * y1), .fin h1', .fin v1] ∧
      SameAngle π (h1 + α) h1' := by
  have key := Paired.run (R := realFmt) pi_pos (dubins2d_realised hp h0) hm
    (fun y1 y2 => ∃ k : ℤ, y2 = turn2 α y1 + ![0, 0, α + 2 * π * k, 0]) (fun u1 u2 => u1 = u2)
    (fun _ _ _ _ _ _ _ _ _ => .inr ⟨fun _ => True, ⊤, fun _ _ => trivial, ⟨fun _ _ _ => trivial, fun _ _ _ _ => trivial⟩, trivial⟩)
    (by
      rintro u1 _ rfl ws T y1 _ ⟨k, rfl⟩
      rw [rkChain_affine (K := ℝ) _ (turn2 α) _ (turn2_field p ((dubins2dModel realFmt p).sat u1) α k)]
      generalize rkChain (K := ℝ) _ _ _ y1 _ = z
      obtain ⟨a, ha⟩ := post2 p z
      obtain ⟨b, hb⟩ := post2 p (turn2 α z + ![0, 0, α + 2 * π * k, 0])
      refine ⟨k + b - a, ?_⟩
      rw [ha, hb]
      funext i
      fin_cases i <;> simp [turn2]
      ring)
    (hist.map fun h => (h.1, h.2.1, h.2.2, h.2.2)) (e1 := e) (e2 := e')
    ⟨he ▸ run_sameConfig env ops e0, he' ▸ run_sameConfig env ops' e0, ![x, y, heading, v],
      ![cos α * x - sin α * y, sin α * x + cos α * y, heading', v], by rw [hs, toFl4]; rfl, by rw [hs', toFl4]; rfl, by
        obtain ⟨k, hk⟩ := hh
        refine ⟨k, ?_⟩
        funext i
        fin_cases i <;> simp [turn2]
        rw [hk]; ring⟩
    (by
      intro h hh
      obtain ⟨g, hg, rfl⟩ := List.mem_map.1 hh
      obtain ⟨u, hu⟩ := hu g hg
      exact ⟨u, u, hu, hu, rfl⟩)
  obtain ⟨-, -, y1, y2, s1, s2, k, rfl⟩ := key
  simp only [List.map_map, Function.comp_def, Prod.mk.eta, List.map_id'] at s1 s2
  refine ⟨y1 0, y1 1, y1 2, y1 2 + α + 2 * π * k, y1 3, by rw [s1, toFl4], ?_, k, rfl⟩
  rw [s2, toFl4]
  simp [turn2, add_assoc]

/-- C94: the mirror image of a flight is a flight. Two 2d aircraft configured alike, with symmetric heading rate limits, the second the
mirror image of the first in the x axis and given the opposite heading rates and the same accelerations, stay mirror images. -/
theorem C94_mirror_2d (env : Env realFmt) (args : Dubins2dArgs realFmt) (p : Dubins2dParams ℝ) (hp : p.Of args)
    (hsym : p.headingRateMin = -p.headingRateMax) (hpos : 0 ≤ p.headingRateMax)
    (e0 : Entity realFmt) (h0 : newDubins2d env args = .ok e0) (hm : PlainMethod e0.dynamics) (ops ops' : List (Op realFmt))
    (e e' : Entity realFmt) (he : e = e0.run env ops) (he' : e' = e0.run env ops') (x y heading heading' v : ℝ)
    (hs : e.state = [.fin x, .fin y, .fin heading, .fin v])
    (hs' : e'.state = [.fin x, .fin (-y), .fin heading', .fin v])
    (hh : SameAngle π (-heading) heading') (hist : List (List ℝ × ℝ × Action realFmt × Action realFmt))
    (hu : ∀ h ∈ hist, ∃ rate acc : ℝ, Asks (scheduled h.1) e0 h.2.2.1 ![rate, acc] ∧ Asks (scheduled h.1) e0 h.2.2.2 ![-rate, acc]) :
    ∃ x1 y1 h1 h1' v1 : ℝ, (runScheduled e (hist.map fun h => (h.1, h.2.1, h.2.2.1))).state = [.fin x1, .fin y1, .fin h1, .fin v1] ∧
      (runScheduled e' (hist.map fun h => (h.1, h.2.1, h.2.2.2))).state = [.fin x1, .fin (-y1), .fin h1', .fin v1] ∧
      SameAngle π (-h1) h1' := by
  have key := Paired.run (R := realFmt) pi_pos (dubins2d_realised hp h0) hm
    (fun y1 y2 => ∃ k : ℤ, y2 = flip2 y1 + ![0, 0, 2 * π * k, 0]) (fun u1 u2 => u2 0 = -u1 0 ∧ u2 1 = u1 1)
    (fun _ _ _ _ _ _ _ _ _ => .inr ⟨fun _ => True, ⊤, fun _ _ => trivial, ⟨fun _ _ _ => trivial, fun _ _ _ _ => trivial⟩, trivial⟩)
    (by
      rintro u1 u2 ⟨q0, q1⟩ ws T y1 _ ⟨k, rfl⟩
      rw [rkChain_affine (K := ℝ) _ flip2 _ (flip2_field p ((dubins2dModel realFmt p).sat u1) ((dubins2dModel realFmt p).sat u2)
        (by simp only [KModel.sat, dubins2dModel, Matrix.cons_val_zero, q0, hsym]; exact kclip_neg hpos _)
        (by simp [KModel.sat, dubins2dModel, q1]) k)]
      generalize rkChain (K := ℝ) _ _ _ y1 _ = z
      obtain ⟨a, ha⟩ := post2 p z
      obtain ⟨b, hb⟩ := post2 p (flip2 z + ![0, 0, 2 * π * k, 0])
      refine ⟨k + b + a, ?_⟩
      rw [ha, hb]
      funext i
      fin_cases i <;> simp [flip2]
      ring)
    hist (e1 := e) (e2 := e')
    ⟨he ▸ run_sameConfig env ops e0, he' ▸ run_sameConfig env ops' e0, ![x, y, heading, v],
      ![x, -y, heading', v], by rw [hs, toFl4]; rfl, by rw [hs', toFl4]; rfl, by
        obtain ⟨k, hk⟩ := hh
        refine ⟨k, ?_⟩
        funext i
        fin_cases i <;> simp [flip2]
        exact hk⟩
    (by
      intro h hh
      obtain ⟨r, a, g1, g2⟩ := hu h hh
      exact ⟨_, _, g1, g2, rfl, rfl⟩)
  obtain ⟨-, -, y1, y2, s1, s2, k, rfl⟩ := key
  refine ⟨y1 0, y1 1, y1 2, -y1 2 + 2 * π * k, y1 3, by rw [s1, toFl4], ?_, k, rfl⟩
  rw [s2, toFl4]
  simp [flip2]

/-! ### 3d -/

/-- space turned by `α` about the vertical -/
noncomputable def turn3 (α : ℝ) : (Fin 7 → ℝ) →ₗ[ℝ] (Fin 7 → ℝ) where
  toFun y := ![cos α * y 0 - sin α * y 1, sin α * y 0 + cos α * y 1, y 2, y 3, y 4, y 5, y 6]
  map_add' a b := by funext i; fin_cases i <;> simp <;> ring
  map_smul' c a := by funext i; fin_cases i <;> simp <;> ring

/-- space reflected in the vertical plane through the x axis -/
def flip3 : (Fin 7 → ℝ) →ₗ[ℝ] (Fin 7 → ℝ) where
  toFun y := ![y 0, -y 1, y 2, -y 3, y 4, -y 5, y 6]
  map_add' a b := by funext i; fin_cases i <;> simp <;> ring
  map_smul' c a := by funext i; fin_cases i <;> simp

theorem turn3_field (p : Dubins3dParams ℝ) (u : Fin 3 → ℝ) (α : ℝ) (k : ℤ) (t : ℝ) (y : Fin 7 → ℝ) :
    turn3 α ((dubins3dModel realFmt p).field u t y)
      = (dubins3dModel realFmt p).field u t (turn3 α y + ![0, 0, 0, α + 2 * π * k, 0, 0, 0]) := by
  have e2 : cos (y 3 + (α + 2 * π * k)) = cos (y 3) * cos α - sin (y 3) * sin α := by rw [← add_assoc, cos_turns, cos_add]
  have e3 : sin (y 3 + (α + 2 * π * k)) = sin (y 3) * cos α + cos (y 3) * sin α := by rw [← add_assoc, sin_turns, sin_add]
  funext i
  fin_cases i
  · simp [KModel.field, dubins3dModel, klimit_free, turn3]
    show cos α * (y 6 * cos (y 3) * cos (y 4)) - sin α * (y 6 * sin (y 3) * cos (y 4)) = y 6 * cos (y 3 + (α + 2 * π * k)) * cos (y 4)
    rw [e2]; ring
  · simp [KModel.field, dubins3dModel, klimit_free, turn3]
    show sin α * (y 6 * cos (y 3) * cos (y 4)) + cos α * (y 6 * sin (y 3) * cos (y 4)) = y 6 * sin (y 3 + (α + 2 * π * k)) * cos (y 4)
    rw [e3]; ring
  · simp [KModel.field, dubins3dModel, klimit_free, turn3]
  · simp [KModel.field, dubins3dModel, klimit_free, turn3]
  · simp [KModel.field, dubins3dModel, turn3]
  · simp [KModel.field, dubins3dModel, turn3]
  · simp [KModel.field, dubins3dModel, turn3]

theorem flip3_field (p : Dubins3dParams ℝ) (hsym : p.rollMin = -p.rollMax) (hpos : 0 < p.rollMax) (u u' : Fin 3 → ℝ)
    (h0 : u' 0 = u 0) (h1 : u' 1 = -u 1) (h2 : u' 2 = u 2) (k : ℤ) (t : ℝ) (y : Fin 7 → ℝ) :
    flip3 ((dubins3dModel realFmt p).field u t y)
      = (dubins3dModel realFmt p).field u' t (flip3 y + ![0, 0, 0, 2 * π * k, 0, 0, 0]) := by
  funext i
  fin_cases i
  · simp [KModel.field, dubins3dModel, klimit_free, flip3]
    refine .inl (.inl ?_)
    show cos (y 3) = cos (-y 3 + 2 * π * k)
    rw [cos_turns, cos_neg]
  · simp [KModel.field, dubins3dModel, klimit_free, flip3]
    show -(y 6 * sin (y 3) * cos (y 4)) = y 6 * sin (-y 3 + 2 * π * k) * cos (y 4)
    rw [sin_turns, sin_neg]; ring
  · simp [KModel.field, dubins3dModel, klimit_free, flip3]
  · simp [KModel.field, dubins3dModel, klimit_free, flip3]
    show -(3217 / 100 / y 6 * tan (y 5)) = 3217 / 100 / y 6 * tan (-y 5)
    rw [tan_neg]; ring
  · simp [KModel.field, dubins3dModel, flip3, h0]
  · simp [KModel.field, dubins3dModel, flip3, h1, hsym, klimit_neg hpos]
  · simp [KModel.field, dubins3dModel, flip3, h2]

/-- what wrapping about zero does to an angle -/
noncomputable def wrap0 (x : ℝ) : ℝ := x + 0 - 2 * π * ⌊(x + π) / (2 * π)⌋

theorem post3 (p : Dubins3dParams ℝ) (y : Fin 7 → ℝ) : ∃ k : ℤ,
    (dubins3dModel realFmt p).post realFmt.pi y = ![y 0, y 1, y 2, y 3 + 2 * π * k, wrap0 (kclip (some p.gammaMin) (some p.gammaMax) (y 4)),
      wrap0 (kclip (some p.rollMin) (some p.rollMax) (y 5)), kclip (some p.vMin) (some p.vMax) (y 6)] := by
  obtain ⟨k, hk⟩ := wrap_angle (y 3)
  refine ⟨k, ?_⟩
  funext i
  fin_cases i
  · simp [KModel.post, dubins3dModel, kclip]
  · simp [KModel.post, dubins3dModel, kclip]
  · simp [KModel.post, dubins3dModel, kclip]
  · refine Eq.trans ?_ hk
    simp [KModel.post, dubins3dModel, kclip]
    rfl
  · simp [KModel.post, dubins3dModel, wrap0]; rfl
  · simp [KModel.post, dubins3dModel, wrap0]; rfl
  · simp [KModel.post, dubins3dModel]

theorem kclip_bounds {l h : ℝ} (hlh : l ≤ h) (x : ℝ) : l ≤ kclip (some l) (some h) x ∧ kclip (some l) (some h) x ≤ h := by
  simp only [kclip]
  exact ⟨le_min (le_max_right _ _) hlh, min_le_right _ _⟩

/-- The 3d aircraft integrates with Euler's method, or is not asked to accelerate: then its rates are finite throughout every step. -/
theorem dubins3d_defined {method : String} (p : Dubins3dParams ℝ) (hv : 0 < p.vMin) {y : Fin 7 → ℝ}
    (hy : p.vMin ≤ y 6 ∧ y 6 ≤ p.vMax) {u : Fin 3 → ℝ} (h : method = "Euler" ∨ (p.accMin ≤ 0 ∧ 0 ≤ p.accMax ∧ u 2 = 0)) :
    (method = "Euler" ∧ (dubins3dModel realFmt p).dom y) ∨
      ∃ (S : (Fin 7 → ℝ) → Prop) (D : Submodule ℝ (Fin 7 → ℝ)), (∀ y, S y → (dubins3dModel realFmt p).dom y) ∧
        Stable ((dubins3dModel realFmt p).field ((dubins3dModel realFmt p).sat u)) S D ∧ S y := by
  have h6 : y 6 ≠ 0 := ne_of_gt (lt_of_lt_of_le hv hy.1)
  rcases h with h | ⟨h1, h2, h3⟩
  · exact .inl ⟨h, h6⟩
  · refine .inr ⟨fun w => w 6 = y 6, LinearMap.ker (LinearMap.proj (R := ℝ) (φ := fun _ : Fin 7 => ℝ) 6),
      fun w hw => (by show w 6 ≠ 0; rw [hw]; exact h6), ⟨?_, ?_⟩, rfl⟩
    · intro t w hw
      show (dubins3dModel realFmt p).field _ t w 6 = 0
      simp [KModel.field, dubins3dModel, KModel.sat, h3, kclip_within h1 h2, klimit_zero]
    · intro w d hw hd
      change d 6 = 0 at hd
      simp [hw, hd]

/-- C94: the same for the 3d aircraft and rotations about the vertical: altitude, flight path angle, roll and speed are the same. The
aircraft integrates with Euler's method, or with RK45 and is not asked to accelerate. -/
theorem C94_rotation_3d (env : Env realFmt) (args : Dubins3dArgs realFmt) (p : Dubins3dParams ℝ) (hp : p.Of args) (hvm : 0 < p.vMin)
    (e0 : Entity realFmt) (h0 : newDubins3d env args = .ok e0) (hm : PlainMethod e0.dynamics) (ops ops' : List (Op realFmt))
    (e e' : Entity realFmt) (he : e = e0.run env ops) (he' : e' = e0.run env ops') (α x y z heading heading' gamma roll v : ℝ)
    (hv : p.vMin ≤ v ∧ v ≤ p.vMax)
    (hs : e.state = [.fin x, .fin y, .fin z, .fin heading, .fin gamma, .fin roll, .fin v])
    (hs' : e'.state = [.fin (cos α * x - sin α * y), .fin (sin α * x + cos α * y), .fin z, .fin heading', .fin gamma, .fin roll, .fin v])
    (hh : SameAngle π (heading + α) heading') (hist : List (List ℝ × ℝ × Action realFmt))
    (hu : ∀ h ∈ hist, ∃ gammaRate rollRate acc : ℝ, Asks (scheduled h.1) e0 h.2.2 ![gammaRate, rollRate, acc] ∧
      (e0.dynamics.integrationMethod = "Euler" ∨ (p.accMin ≤ 0 ∧ 0 ≤ p.accMax ∧ acc = 0))) :
    ∃ x1 y1 z1 h1 h1' g1 r1 v1 : ℝ,
      (runScheduled e hist).state = [.fin x1, .fin y1, .fin z1, .fin h1, .fin g1, .fin r1, .fin v1] ∧
      (runScheduled e' hist).state
        = [.fin (cos α * x1 - sin α * y1), .fin (sin α * x1 + cos α * y1), .fin z1, .fin h1', .fin g1, .fin r1, .fin v1] ∧
      SameAngle π (h1 + α) h1' := by
  have key := Paired.run (R := realFmt) pi_pos (dubins3d_realised hp h0) hm
    (fun y1 y2 => (p.vMin ≤ y1 6 ∧ y1 6 ≤ p.vMax) ∧ ∃ k : ℤ, y2 = turn3 α y1 + ![0, 0, 0, α + 2 * π * k, 0, 0, 0])
    (fun u1 u2 => u1 = u2 ∧ (e0.dynamics.integrationMethod = "Euler" ∨ (p.accMin ≤ 0 ∧ 0 ≤ p.accMax ∧ u1 2 = 0)))
    (by
      rintro u1 _ ⟨rfl, q⟩ y1 _ ⟨hb, k, rfl⟩ u y (⟨rfl, rfl⟩ | ⟨rfl, rfl⟩)
      · exact dubins3d_defined p hvm hb q
      · exact dubins3d_defined p hvm (by simpa [turn3] using hb) q)
    (by
      rintro u1 _ ⟨rfl, q⟩ ws T y1 _ ⟨hb, k, rfl⟩
      rw [rkChain_affine (K := ℝ) _ (turn3 α) _ (turn3_field p ((dubins3dModel realFmt p).sat u1) α k)]
      generalize rkChain (K := ℝ) _ _ _ y1 _ = z
      obtain ⟨a, ha⟩ := post3 p z
      obtain ⟨b, hb'⟩ := post3 p (turn3 α z + ![0, 0, 0, α + 2 * π * k, 0, 0, 0])
      rw [ha, hb']
      refine ⟨kclip_bounds (hb.1.trans hb.2) _, k + b - a, ?_⟩
      funext i
      fin_cases i <;> simp [turn3]
      ring)
    (hist.map fun h => (h.1, h.2.1, h.2.2, h.2.2)) (e1 := e) (e2 := e')
    ⟨he ▸ run_sameConfig env ops e0, he' ▸ run_sameConfig env ops' e0, ![x, y, z, heading, gamma, roll, v],
      ![cos α * x - sin α * y, sin α * x + cos α * y, z, heading', gamma, roll, v], by rw [hs, toFl7]; rfl, by rw [hs', toFl7]; rfl, hv, by
        obtain ⟨k, hk⟩ := hh
        refine ⟨k, ?_⟩
        funext i
        fin_cases i <;> simp [turn3]
        rw [hk]; ring⟩
    (by
      intro h hh
      obtain ⟨g, hg, rfl⟩ := List.mem_map.1 hh
      obtain ⟨a, b, c, h1, h2⟩ := hu g hg
      exact ⟨_, _, h1, h1, rfl, h2⟩)
  obtain ⟨-, -, y1, y2, s1, s2, -, k, rfl⟩ := key
  simp only [List.map_map, Function.comp_def, Prod.mk.eta, List.map_id'] at s1 s2
  refine ⟨y1 0, y1 1, y1 2, y1 3, y1 3 + α + 2 * π * k, y1 4, y1 5, y1 6, by rw [s1, toFl7], ?_, k, rfl⟩
  rw [s2, toFl7]
  simp [turn3, add_assoc]

/-- C94: the same for the 3d aircraft and the mirror image in the vertical plane through the x axis, with roll limits symmetric and below
half a turn and roll rate limits symmetric: heading and roll change sign, everything else is the same. -/
theorem C94_mirror_3d (env : Env realFmt) (args : Dubins3dArgs realFmt) (p : Dubins3dParams ℝ) (hp : p.Of args) (hvm : 0 < p.vMin)
    (hroll : p.rollMin = -p.rollMax) (hpos : 0 < p.rollMax) (hlt : p.rollMax < π) (hrate : p.rollRateMin = -p.rollRateMax)
    (hrpos : 0 ≤ p.rollRateMax)
    (e0 : Entity realFmt) (h0 : newDubins3d env args = .ok e0) (hm : PlainMethod e0.dynamics) (ops ops' : List (Op realFmt))
    (e e' : Entity realFmt) (he : e = e0.run env ops) (he' : e' = e0.run env ops') (x y z heading heading' gamma roll v : ℝ)
    (hv : p.vMin ≤ v ∧ v ≤ p.vMax)
    (hs : e.state = [.fin x, .fin y, .fin z, .fin heading, .fin gamma, .fin roll, .fin v])
    (hs' : e'.state = [.fin x, .fin (-y), .fin z, .fin heading', .fin gamma, .fin (-roll), .fin v])
    (hh : SameAngle π (-heading) heading') (hist : List (List ℝ × ℝ × Action realFmt × Action realFmt))
    (hu : ∀ h ∈ hist, ∃ gammaRate rollRate acc : ℝ, Asks (scheduled h.1) e0 h.2.2.1 ![gammaRate, rollRate, acc] ∧
      Asks (scheduled h.1) e0 h.2.2.2 ![gammaRate, -rollRate, acc] ∧
      (e0.dynamics.integrationMethod = "Euler" ∨ (p.accMin ≤ 0 ∧ 0 ≤ p.accMax ∧ acc = 0))) :
    ∃ x1 y1 z1 h1 h1' g1 r1 v1 : ℝ,
      (runScheduled e (hist.map fun h => (h.1, h.2.1, h.2.2.1))).state
        = [.fin x1, .fin y1, .fin z1, .fin h1, .fin g1, .fin r1, .fin v1] ∧
      (runScheduled e' (hist.map fun h => (h.1, h.2.1, h.2.2.2))).state
        = [.fin x1, .fin (-y1), .fin z1, .fin h1', .fin g1, .fin (-r1), .fin v1] ∧
      SameAngle π (-h1) h1' := by
  have hwrap : ∀ x, wrap0 (kclip (some p.rollMin) (some p.rollMax) x) = kclip (some p.rollMin) (some p.rollMax) x := by
    intro x
    obtain ⟨b1, b2⟩ := kclip_bounds (l := p.rollMin) (h := p.rollMax) (by rw [hroll]; linarith) x
    exact wrap_zero_id (R := realFmt) pi_pos (by show -π ≤ _; linarith) (by show _ < π; linarith)
  have key := Paired.run (R := realFmt) pi_pos (dubins3d_realised hp h0) hm
    (fun y1 y2 => (p.vMin ≤ y1 6 ∧ y1 6 ≤ p.vMax) ∧ ∃ k : ℤ, y2 = flip3 y1 + ![0, 0, 0, 2 * π * k, 0, 0, 0])
    (fun u1 u2 => u2 0 = u1 0 ∧ u2 1 = -u1 1 ∧ u2 2 = u1 2 ∧
      (e0.dynamics.integrationMethod = "Euler" ∨ (p.accMin ≤ 0 ∧ 0 ≤ p.accMax ∧ u1 2 = 0)))
    (by
      rintro u1 u2 ⟨-, -, q2, q⟩ y1 _ ⟨hb, k, rfl⟩ u y (⟨rfl, rfl⟩ | ⟨rfl, rfl⟩)
      · exact dubins3d_defined p hvm hb q
      · exact dubins3d_defined p hvm (by simpa [flip3] using hb) (by rw [q2]; exact q))
    (by
      rintro u1 u2 ⟨q0, q1, q2, q⟩ ws T y1 _ ⟨hb, k, rfl⟩
      rw [rkChain_affine (K := ℝ) _ flip3 _ (flip3_field p hroll hpos ((dubins3dModel realFmt p).sat u1) ((dubins3dModel realFmt p).sat u2)
        (by simp [KModel.sat, dubins3dModel, q0])
        (by simp only [KModel.sat, dubins3dModel, Matrix.cons_val_one, Matrix.cons_val_zero, q1, hrate]; exact kclip_neg hrpos _)
        (by simp [KModel.sat, dubins3dModel, q2]) k)]
      generalize rkChain (K := ℝ) _ _ _ y1 _ = z
      obtain ⟨a, ha⟩ := post3 p z
      obtain ⟨b, hb'⟩ := post3 p (flip3 z + ![0, 0, 0, 2 * π * k, 0, 0, 0])
      rw [ha, hb']
      refine ⟨kclip_bounds (hb.1.trans hb.2) _, k + b + a, ?_⟩
      funext i
      fin_cases i <;> simp [flip3, hwrap]
      · ring
      · rw [hroll]; exact kclip_neg hpos.le _)
    hist (e1 := e) (e2 := e')
    ⟨he ▸ run_sameConfig env ops e0, he' ▸ run_sameConfig env ops' e0, ![x, y, z, heading, gamma, roll, v],
      ![x, -y, z, heading', gamma, -roll, v], by rw [hs, toFl7]; rfl, by rw [hs', toFl7]; rfl, hv, by
        obtain ⟨k, hk⟩ := hh
        refine ⟨k, ?_⟩
        funext i
        fin_cases i <;> simp [flip3]
        exact hk⟩
    (by
      intro h hh
      obtain ⟨a, b, c, h1, h2, h3⟩ := hu h hh
      exact ⟨_, _, h1, h2, rfl, rfl, rfl, h3⟩)
  obtain ⟨-, -, y1, y2, s1, s2, -, k, rfl⟩ := key
  refine ⟨y1 0, y1 1, y1 2, y1 3, -y1 3 + 2 * π * k, y1 4, y1 5, y1 6, by rw [s1, toFl7], ?_, k, rfl⟩
  rw [s2, toFl7]
  simp [flip3]

/-- two aircraft, one turned by a radian, and the mirror image of the first, flown with saturated and unsaturated actions -/
example : ∃ e0 : Entity realFmt, newDubins2d (rkEnv dopri (fun _ _ _ => [1, 2]))
      { headingRateMin := -1, headingRateMax := 1, accMin := -96, accMax := 96, kwargs := [("name", .str "a")] } = .ok e0 ∧
    Dubins2dParams.Of (R := realFmt) ⟨200, 400, -1, 1, -96, 96⟩
      { headingRateMin := -1, headingRateMax := 1, accMin := -96, accMax := 96, kwargs := [("name", .str "a")] } ∧
    PlainMethod e0.dynamics ∧
    (e0.run (rkEnv dopri (fun _ _ _ => [1, 2])) [.setState [.fin 3, .fin 4, .fin 2, .fin 300]]).state = [.fin 3, .fin 4, .fin 2, .fin 300] ∧
    (e0.run (rkEnv dopri (fun _ _ _ => [1, 2])) [.setState [.fin (cos 1 * 3 - sin 1 * 4), .fin (sin 1 * 3 + cos 1 * 4), .fin (3 - 2 * π), .fin 300]]).state
      = [.fin (cos 1 * 3 - sin 1 * 4), .fin (sin 1 * 3 + cos 1 * 4), .fin (3 - 2 * π), .fin 300] ∧
    SameAngle π (2 + 1) (3 - 2 * π) ∧
    (e0.run (rkEnv dopri (fun _ _ _ => [1, 2])) [.setState [.fin 3, .fin (-4), .fin (-2), .fin 300]]).state = [.fin 3, .fin (-4), .fin (-2), .fin 300] ∧
    ∀ ws, Asks (scheduled ws) e0 (.ndarray .f64 [.fin 7, .fin (-5)]) ![7, -5] ∧
      Asks (scheduled ws) e0 (.ndarray .f64 [.fin (-7), .fin (-5)]) ![-7, -5] := by
  refine ⟨_, rfl, ⟨Fl.ofNat_fin 200, Fl.ofNat_fin 400, congrArg Fl.neg Fl.one_fin, Fl.one_fin, congrArg Fl.neg (Fl.ofNat_fin 96),
    Fl.ofNat_fin 96⟩, .inl rfl, rfl, rfl, ⟨-1, by push_cast; ring⟩, rfl, fun ws => ⟨⟨.f64, .array _ _⟩, ⟨.f64, .array _ _⟩⟩⟩

/-- a banked, climbing aircraft that accelerates under Euler's method, and its mirror image -/
example : ∃ e0 : Entity realFmt, newDubins3d (rkEnv dopri (fun _ _ _ => [1, 2]))
      { gammaMin := -1, gammaMax := 1, rollMin := -1, rollMax := 1, gammaRateMin := -1, gammaRateMax := 1, integrationMethod := "Euler"
        rollRateMin := -1, rollRateMax := 1, accMin := -1, accMax := 1, kwargs := [("name", .str "a")] } = .ok e0 ∧
    PlainMethod e0.dynamics ∧ e0.dynamics.integrationMethod = "Euler" ∧
    (e0.run (rkEnv dopri (fun _ _ _ => [1, 2])) [.setState [.fin 0, .fin 5, .fin 0, .fin 2, .fin (1 / 2), .fin (-1), .fin 300]]).state
      = [.fin 0, .fin 5, .fin 0, .fin 2, .fin (1 / 2), .fin (-1), .fin 300] ∧
    (e0.run (rkEnv dopri (fun _ _ _ => [1, 2])) [.setState [.fin 0, .fin (-5), .fin 0, .fin (-2), .fin (1 / 2), .fin (-(-1)), .fin 300]]).state
      = [.fin 0, .fin (-5), .fin 0, .fin (-2), .fin (1 / 2), .fin (-(-1)), .fin 300] ∧
    (1 : ℝ) < π ∧ ∀ ws, Asks (scheduled ws) e0 (.ndarray .f64 [.fin 1, .fin 2, .fin 3]) ![1, 2, 3] ∧
      Asks (scheduled ws) e0 (.ndarray .f64 [.fin 1, .fin (-2), .fin 3]) ![1, -2, 3] := by
  have h3 := pi_gt_three
  exact ⟨_, rfl, .inr ⟨rfl, le_rfl⟩, rfl, rfl, rfl, by linarith, fun ws => ⟨⟨.f64, .array _ _⟩, ⟨.f64, .array _ _⟩⟩⟩

end SAD
