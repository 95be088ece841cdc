import Verif.Props.Cwh
import Verif.Props.Dubins
import Verif.Props.Inside
import Verif.Props.Integrators
import Verif.Props.Rotational
import Verif.Props.SixDof
import Verif.Props.Sun
import Verif.Lemmas.Binary

/-! # C111: vehicles built without parameters -/

set_option linter.unusedSectionVars false

namespace SAD
open Spec

section
variable {K : Type} {R : Fmt K} [Field K] [LinearOrder K] [IsStrictOrderedRing K] [FloorRing K]

/-- The controls of `e` are limited to exactly `[lo, hi]`, element by element: whatever the action, a control that is applied lies within
unless it is NaN, and a double precision array within the limits is applied as it is. -/
def Spec.ControlBand (env : Env R) (e : Entity R) (lo hi : List (Fl R)) : Prop :=
  (∀ a v, Applied env e a v → ∀ (i : Nat) (x l h : Fl R), v[i]? = some x → lo[i]? = some l → hi[i]? = some h → x = .nan ∨ Within l h x) ∧
  ∀ u : Vec R, u.length = lo.length →
    (∀ (i : Nat) (x l h : Fl R), u[i]? = some x → lo[i]? = some l → hi[i]? = some h → Within l h x) → Applied env e (.ndarray .f64 u) u

/-- `x` is NaN or between `lo` and `hi` -/
def Spec.Band (lo hi x : Fl R) : Prop := x = .nan ∨ Within lo hi x

theorem controlBand_of {env : Env R} {e : Entity R} {lo hi : List (Fl R)} (hlen : hi.length = lo.length)
    (hlo : ∀ ty (i : Nat) l, lo[i]? = some l → (limitAs ty e.controlMin).at i = some l)
    (hhi : ∀ ty (i : Nat) l, hi[i]? = some l → (limitAs ty e.controlMax).at i = some l)
    (hfl : Fits e.controlMin lo.length) (hfh : Fits e.controlMax lo.length)
    (hord : ∀ (i : Nat) l h, lo[i]? = some l → hi[i]? = some h → l ≤ h) : ControlBand env e lo hi := by
  constructor
  · rintro a v ⟨ty, u, -, -, -, -, -, hc⟩ i x l h hx hl hh
    obtain ⟨l', h', r, g1, g2, -, g4⟩ := hc i x hx
    rw [hlo ty i l hl, Option.some.injEq] at g1
    rw [hhi ty i h hh, Option.some.injEq] at g2
    subst g1 g2
    by_cases hr : r = .nan
    · exact .inl (g4.1 (.inl hr))
    · rw [clipsTo_unique g4]
      exact .inr (Fl.clip_mem_range hr (hord i l h hl hh))
  · intro u hu hin
    rw [← hu] at hfl hfh
    obtain ⟨cu, hcu, hcul⟩ := npClip_fits hfl hfh
    refine applied_of (ty := .f64) (u := u) rfl ?_
    rw [forDType_f64, forDType_f64, hcu]
    congr 1
    apply List.ext_getElem?
    intro i
    by_cases hi' : i < u.length
    · have hu' := List.getElem?_eq_getElem hi'
      have e1 := List.getElem?_eq_getElem (show i < lo.length by omega)
      have e2 := List.getElem?_eq_getElem (show i < hi.length by omega)
      have g1 := hlo .f64 i _ e1
      have g2 := hhi .f64 i _ e2
      rw [limitAs_eq, forDType_f64] at g1 g2
      rw [npClip_elem hcu hcul hu' g1 g2, hu', Fl.clip_mem (hin i _ _ _ hu' e1 e2).1 (hin i _ _ _ hu' e1 e2).2]
    · rw [List.getElem?_eq_none (by omega), List.getElem?_eq_none (by omega)]

theorem controlBand_vec {env : Env R} {e : Entity R} {lo hi : List (Fl R)} (hlo : e.controlMin = .vec lo) (hhi : e.controlMax = .vec hi)
    (hlen : hi.length = lo.length) (hord : ∀ (i : Nat) l h, lo[i]? = some l → hi[i]? = some h → l ≤ h) :
    ControlBand env e lo hi := by
  refine controlBand_of hlen ?_ ?_ (.inr ?_) (.inr ?_) hord
  · intro ty i l hl
    rw [hlo]
    have : limitAs ty (.vec lo) = .vec lo := rfl
    rw [this, Arr.at_eq]
    exact bget_of_get hl
  · intro ty i l hl
    rw [hhi]
    have : limitAs ty (.vec hi) = .vec hi := rfl
    rw [this, Arr.at_eq]
    exact bget_of_get hl
  · rw [hlo]; rfl
  · rw [hhi]; exact hlen

end

/-! ### Numbers in double precision -/

section
variable {libm : Fmt ℚ}

theorem lit64 {m e : ℕ} {q : ℚ} (h : rndBin 53 (-1022) 1023 ((m : ℚ) / 10 ^ e) = .val q) :
    (OfScientific.ofScientific m true e : Fl (b64Of libm)) = .fin q := by
  show Fl.ofExt (rndBin 53 (-1022) 1023 ((m : ℚ) / 10 ^ e)) = _
  rw [h]; rfl

theorem cast64 {x q : ℚ} (h : rndBin 24 (-126) 127 x = .val q) : (.fin x : Fl (b64Of libm)).cast32 = .fin q := by
  show Fl.ofExt (rndBin 24 (-126) 127 x) = _
  rw [h]; rfl

theorem mul64 {x y q : ℚ} (h : rndBin 53 (-1022) 1023 (x * y) = .val q) : (.fin x * .fin y : Fl (b64Of libm)) = .fin q := by
  show Fl.ofExt (rndBin 53 (-1022) 1023 (x * y)) = _
  rw [h]; rfl

theorem div64 {x y q : ℚ} (hy : y ≠ 0) (h : rndBin 53 (-1022) 1023 (x / y) = .val q) : (.fin x / .fin y : Fl (b64Of libm)) = .fin q := by
  show Fl.div (.fin x) (.fin y) = _
  simp only [Fl.div, if_neg hy]
  show Fl.ofExt (rndBin 53 (-1022) 1023 (x / y)) = _
  rw [h]; rfl

theorem nat64 (n : ℕ) [n.AtLeastTwo] : (OfNat.ofNat n : Fl (b64Of libm)) = .fin (n : ℚ) := rfl

theorem wrap64 {x s : ℚ} (h1 : rndBin 53 (-1022) 1023 (x + 884279719003555 / 281474976710656) = .val s)
    (h2 : rndBin 53 (-1022) 1023 (2 * (884279719003555 / 281474976710656)) = .val (2 * (884279719003555 / 281474976710656)))
    (h3 : Fl.fmod s (2 * (884279719003555 / 281474976710656)) = s) (hs : 0 < s)
    (h4 : rndBin 53 (-1022) 1023 (s + -(884279719003555 / 281474976710656)) = .val x) (h5 : rndBin 53 (-1022) 1023 (x + ((0 : ℕ) : ℚ)) = .val x) :
    wrapElem (.fin x : Fl (b64Of libm)) 0 = .fin x := by
  have e1 : (.fin x + Fl.pi : Fl (b64Of libm)) = .fin s := by
    show Fl.ofExt (rndBin 53 (-1022) 1023 _) = _
    exact (congrArg Fl.ofExt h1)
  have e2 : (2 * Fl.pi : Fl (b64Of libm)) = .fin (2 * (884279719003555 / 281474976710656)) := by
    rw [nat64]
    exact mul64 h2
  have e3 : Fl.pyMod (.fin s : Fl (b64Of libm)) (.fin (2 * (884279719003555 / 281474976710656))) = .fin s := by
    simp only [Fl.pyMod, h3]
    rw [if_neg (by norm_num), if_neg hs.ne', if_pos]
    constructor
    · intro h; norm_num at h
    · intro h; exact absurd h (not_lt.2 hs.le)
  have e4 : (.fin s - Fl.pi : Fl (b64Of libm)) = .fin x := by
    show Fl.ofExt (rndBin 53 (-1022) 1023 _) = _
    exact (congrArg Fl.ofExt h4)
  have e5 : (.fin x + 0 : Fl (b64Of libm)) = .fin x := by
    show Fl.ofExt (rndBin 53 (-1022) 1023 _) = _
    exact (congrArg Fl.ofExt h5)
  unfold wrapElem
  rw [e1, e2, e3, e4, e5]

theorem neg64 (x : ℚ) : (-.fin x : Fl (b64Of libm)) = .fin (-x) := rfl

theorem n174533 : (0.174533 : Fl (b64Of libm)) = .fin (3144107015055419/18014398509481984) := lit64 (by decide +kernel)
theorem n96_5 : (96.5 : Fl (b64Of libm)) = .fin (193 / 2) := lit64 (by decide +kernel)
theorem n349066 : (0.349066 : Fl (b64Of libm)) = .fin (3144107015055419/9007199254740992) := lit64 (by decide +kernel)
theorem n1_047198 : (1.047198 : Fl (b64Of libm)) = .fin (4716160522583129/4503599627370496) := lit64 (by decide +kernel)
theorem n087266 : (0.087266 : Fl (b64Of libm)) = .fin (6288178001313819/72057594037927936) := lit64 (by decide +kernel)
theorem n017453 : (0.017453 : Fl (b64Of libm)) = .fin (5030484754975825/288230376151711744) := lit64 (by decide +kernel)
theorem n034907 : (0.034907 : Fl (b64Of libm)) = .fin (5030628870163901/144115188075855872) := lit64 (by decide +kernel)
theorem n4_1e5 : (4.1e-5 : Fl (b64Of libm)) = .fin (6050532056176733/147573952589676412928) := lit64 (by decide +kernel)
theorem n181_3 : (181.3 : Fl (b64Of libm)) = .fin (3189463329852621/17592186044416) := lit64 (by decide +kernel)
theorem n0573 : (0.0573 : Fl (b64Of libm)) = .fin (8257800276746541/144115188075855872) := lit64 (by decide +kernel)

/-- the acceleration that the default reaction wheel allows -/
theorem wheelAcc64 : (4.1e-5 * 181.3 / 0.0573 : Fl (b64Of libm)) = .fin (1168467961959271/9007199254740992) := by
  rw [n4_1e5, n181_3, n0573, mul64 (q := 2142502855048519/288230376151711744) (by decide +kernel)]
  exact div64 (by norm_num) (by decide +kernel)

/-- the velocity that it allows -/
theorem wheelVel64 : (4.1e-5 * 576 / 0.0573 : Fl (b64Of libm)) = .fin (7424573040138335/18014398509481984) := by
  rw [n4_1e5, n0573, nat64, mul64 (q := 6806848563198825/288230376151711744) (by decide +kernel)]
  exact div64 (by norm_num) (by decide +kernel)

/-- the default spacecraft is limited by itself, not by its wheel -/
theorem minAcc64 : Fl.pyMin (0.017453 : Fl (b64Of libm)) (4.1e-5 * 181.3 / 0.0573) = 0.017453 := by
  rw [wheelAcc64, n017453]
  unfold Fl.pyMin
  rw [if_neg]
  rw [Fl.fin_lt_fin]; norm_num

theorem minVel64 : Fl.pyMin (0.034907 : Fl (b64Of libm)) (4.1e-5 * 576 / 0.0573) = 0.034907 := by
  rw [wheelVel64, n034907]
  unfold Fl.pyMin
  rw [if_neg]
  rw [Fl.fin_lt_fin]; norm_num

end

/-! ### Envelopes, in double precision -/

/-- C111: a 2d aircraft built without parameters, in double precision: after any history that ends in a successful step its speed is between 200 and
400 feet per second and its heading is between `-π` and `π`, and the controls applied are limited to 0.174533 radians per second and 96.5 feet per
second squared. -/
theorem C111_envelope_2d (libm : Fmt ℚ) (env : Env (b64Of libm)) (kwargs : List (String × CfgVal (b64Of libm))) (e0 : Entity (b64Of libm))
    (h0 : newDubins2d env { kwargs := kwargs } = .ok e0) (ops : List (Op (b64Of libm))) :
    ControlBand env (e0.run env ops) [-0.174533, -96.5] [0.174533, 96.5] ∧
    ∀ (dt : Fl (b64Of libm)) (a : Action (b64Of libm)), ((e0.run env ops).step env dt a).outcome = .ok () →
      (∀ v, ((e0.run env ops).step env dt a).entity.state[3]? = some v → Band 200 400 v) ∧
      ∀ h, ((e0.run env ops).step env dt a).entity.state[2]? = some h → Band (.fin (-(b64Of libm).pi)) (.fin (b64Of libm).pi) h := by
  obtain ⟨-, -, -, -, -, -, -, -, -, -, -, h12, h13, -⟩ := dubins2d_config h0
  have hc := run_sameConfig env ops e0
  refine ⟨controlBand_vec (hc.2.2.1.trans h12) (hc.2.2.2.1.trans h13) rfl ?_, fun dt a hok => ⟨fun v hv => ?_, fun h hh => ?_⟩⟩
  · intro i l h
    match i with
    | 0 => rintro ⟨⟩ ⟨⟩; rw [n174533, neg64]; simp; norm_num
    | 1 => rintro ⟨⟩ ⟨⟩; rw [n96_5, neg64]; simp; norm_num
    | _ + 2 => simp
  · have e1 : (200 : Fl (b64Of libm)).cast32 = 200 := cast64 (by decide +kernel)
    have e2 : (400 : Fl (b64Of libm)).cast32 = 400 := cast64 (by decide +kernel)
    have := C48_speed_2d env _ e0 h0 (by
      show (200 : Fl (b64Of libm)).cast32 ≤ (400 : Fl (b64Of libm)).cast32
      rw [e1, e2]
      rw [nat64, nat64]; simp; norm_num) ops dt a hok v hv
    change v = .nan ∨ Within (200 : Fl (b64Of libm)).cast32 (400 : Fl (b64Of libm)).cast32 v at this
    rwa [e1, e2] at this
  · rcases C48_heading_rounded (b64Of_sound libm) env e0 2 (.inl ⟨rfl, _, h0⟩) ops dt a hok h hh with h | ⟨x, rfl, h1, h2⟩
    · exact .inl h
    · exact .inr ⟨by simpa using h1, by simpa using h2⟩


/-- C111: a 3d aircraft built without parameters, in double precision: after any history that ends in a successful step its speed is between 200 and
400 feet per second, its flight path angle and its roll within 0.349066 and 1.047198 radians (rounded to single precision) and its heading between
`-π` and `π`, and the controls applied are limited to 0.174533 and 0.087266 radians per second and 96.5 feet per second squared. -/
theorem C111_envelope_3d (libm : Fmt ℚ) (env : Env (b64Of libm)) (kwargs : List (String × CfgVal (b64Of libm))) (e0 : Entity (b64Of libm))
    (h0 : newDubins3d env { kwargs := kwargs } = .ok e0) (ops : List (Op (b64Of libm))) :
    ControlBand env (e0.run env ops) [-0.174533, -0.087266, -96.5] [0.174533, 0.087266, 96.5] ∧
    ∀ (dt : Fl (b64Of libm)) (a : Action (b64Of libm)), ((e0.run env ops).step env dt a).outcome = .ok () →
      (∀ v, ((e0.run env ops).step env dt a).entity.state[6]? = some v → Band 200 400 v) ∧
      (∀ r, ((e0.run env ops).step env dt a).entity.state[5]? = some r → Band (Fl.cast32 (-1.047198)) (Fl.cast32 1.047198) r) ∧
      (∀ g, ((e0.run env ops).step env dt a).entity.state[4]? = some g → Band (Fl.cast32 (-0.349066)) (Fl.cast32 0.349066) g) ∧
      ∀ h, ((e0.run env ops).step env dt a).entity.state[3]? = some h → Band (.fin (-(b64Of libm).pi)) (.fin (b64Of libm).pi) h := by
  obtain ⟨-, -, -, -, -, -, -, -, -, -, -, h12, h13, -⟩ := dubins3d_config h0
  have hc := run_sameConfig env ops e0
  have g1 : (0.349066 : Fl (b64Of libm)).cast32 = .fin (11712711 / 33554432) := by rw [n349066]; exact cast64 (by decide +kernel)
  have g2 : (-0.349066 : Fl (b64Of libm)).cast32 = .fin (-11712711 / 33554432) := by rw [n349066, neg64]; exact cast64 (by decide +kernel)
  have r1 : (1.047198 : Fl (b64Of libm)).cast32 = .fin (4392267 / 4194304) := by rw [n1_047198]; exact cast64 (by decide +kernel)
  have r2 : (-1.047198 : Fl (b64Of libm)).cast32 = .fin (-4392267 / 4194304) := by rw [n1_047198, neg64]; exact cast64 (by decide +kernel)
  have e1 : (200 : Fl (b64Of libm)).cast32 = 200 := cast64 (by decide +kernel)
  have e2 : (400 : Fl (b64Of libm)).cast32 = 400 := cast64 (by decide +kernel)
  have pi' : (b64Of libm).pi = 884279719003555 / 281474976710656 := rfl
  refine ⟨controlBand_vec (hc.2.2.1.trans h12) (hc.2.2.2.1.trans h13) rfl ?_, fun dt a hok => ⟨fun v hv => ?_, fun r hr => ?_, fun g hg => ?_, fun h hh => ?_⟩⟩
  · intro i l h
    match i with
    | 0 => rintro ⟨⟩ ⟨⟩; rw [n174533, neg64]; simp; norm_num
    | 1 => rintro ⟨⟩ ⟨⟩; rw [n087266, neg64]; simp; norm_num
    | 2 => rintro ⟨⟩ ⟨⟩; rw [n96_5, neg64]; simp; norm_num
    | _ + 3 => simp
  · have := C48_speed_3d env _ e0 h0 (by
      show (200 : Fl (b64Of libm)).cast32 ≤ (400 : Fl (b64Of libm)).cast32
      rw [e1, e2, nat64, nat64]; simp; norm_num) (by
      show (-0.349066 : Fl (b64Of libm)).cast32 ≤ (0.349066 : Fl (b64Of libm)).cast32
      rw [g1, g2]; simp; norm_num) (by
      show (-1.047198 : Fl (b64Of libm)).cast32 ≤ (1.047198 : Fl (b64Of libm)).cast32
      rw [r1, r2]; simp; norm_num) ops dt a hok v hv
    change v = .nan ∨ Within (200 : Fl (b64Of libm)).cast32 (400 : Fl (b64Of libm)).cast32 v at this
    rwa [e1, e2] at this
  · rcases C48_gamma_roll_rounded (b64Of_sound libm) env _ e0 h0 5 _ _ (.inr ⟨rfl, r2.symm, r1.symm⟩) (by norm_num) (by rw [pi']; norm_num)
      (by rw [pi']; norm_num) 
      (wrap64 (s := 589519670248867 / 281474976710656) (by decide +kernel) (by decide +kernel) (by decide +kernel) (by norm_num) (by decide +kernel) (by decide +kernel))
      (wrap64 (s := 1179039767758243 / 281474976710656) (by decide +kernel) (by decide +kernel) (by decide +kernel) (by norm_num) (by decide +kernel) (by decide +kernel)) ops dt a hok r hr with h | ⟨x, rfl, h1, h2⟩
    · exact .inl h
    · rw [r1, r2]; exact .inr ⟨by simpa using h1, by simpa using h2⟩
  · rcases C48_gamma_roll_rounded (b64Of_sound libm) env _ e0 h0 4 _ _ (.inl ⟨rfl, g2.symm, g1.symm⟩) (by norm_num) (by rw [pi']; norm_num)
      (by rw [pi']; norm_num) 
      (wrap64 (s := 786026377807267 / 281474976710656) (by decide +kernel) (by decide +kernel) (by decide +kernel) (by norm_num) (by decide +kernel) (by decide +kernel))
      (wrap64 (s := 982533060199843 / 281474976710656) (by decide +kernel) (by decide +kernel) (by decide +kernel) (by norm_num) (by decide +kernel) (by decide +kernel)) ops dt a hok g hg with h | ⟨x, rfl, h1, h2⟩
    · exact .inl h
    · rw [g1, g2]; exact .inr ⟨by simpa using h1, by simpa using h2⟩
  · rcases C48_heading_rounded (b64Of_sound libm) env e0 3 (.inr ⟨rfl, _, h0⟩) ops dt a hok h hh with h | ⟨x, rfl, h1, h2⟩
    · exact .inl h
    · exact .inr ⟨by simpa using h1, by simpa using h2⟩

/-- C111: a rotating planar spacecraft built without parameters, in double precision: the thrusts applied are limited to 1, the moment to
0.017453 · 0.0573; its angular acceleration never exceeds 0.017453, and after any history that ends in a successful step its angular velocity does not
exceed 0.034907 and its orientation is between `-π` and `π`. -/
theorem C111_envelope_rot2d (libm : Fmt ℚ) (env : Env (b64Of libm)) (kwargs : List (String × CfgVal (b64Of libm))) (e0 : Entity (b64Of libm))
    (h0 : newRot2d env { kwargs := kwargs } = .ok e0) (ops : List (Op (b64Of libm))) :
    ControlBand env (e0.run env ops) [-1, -1, -0.017453 * 0.0573] [1, 1, 0.017453 * 0.0573] ∧
    (∀ (t : Fl (b64Of libm)) (s u v : Vec (b64Of libm)), (e0.run env ops).dynamics.computeStateDot t s u = .ok v →
      ∀ w, v[5]? = some w → Band (-0.017453) 0.017453 w) ∧
    ∀ (dt : Fl (b64Of libm)) (a : Action (b64Of libm)), ((e0.run env ops).step env dt a).outcome = .ok () →
      (∀ w, ((e0.run env ops).step env dt a).entity.state[5]? = some w → Band (-0.034907) 0.034907 w) ∧
      ∀ h, ((e0.run env ops).step env dt a).entity.state[2]? = some h → Band (.fin (-(b64Of libm).pi)) (.fin (b64Of libm).pi) h := by
  obtain ⟨-, acc, vel, ha, -, -, -, -, -, -, h12, h13⟩ := rot2d_config h0
  change acc = Fl.pyMin 0.017453 (4.1e-5 * 181.3 / 0.0573) at ha
  rw [minAcc64] at ha
  subst ha
  have hc := run_sameConfig env ops e0
  have p1 : (0 : Fl (b64Of libm)) ≤ 0.017453 := by rw [n017453]; exact (Fl.fin_le_fin _ _).2 (by norm_num)
  have p2 : (0 : Fl (b64Of libm)) ≤ 4.1e-5 * 181.3 / 0.0573 := by rw [wheelAcc64]; exact (Fl.fin_le_fin _ _).2 (by norm_num)
  have p3 : (0 : Fl (b64Of libm)) ≤ 0.034907 := by rw [n034907]; exact (Fl.fin_le_fin _ _).2 (by norm_num)
  have p4 : (0 : Fl (b64Of libm)) ≤ 4.1e-5 * 576 / 0.0573 := by rw [wheelVel64]; exact (Fl.fin_le_fin _ _).2 (by norm_num)
  have m1 : (0.017453 * 0.0573 : Fl (b64Of libm)) = .fin (1152987105840459/1152921504606846976) := by
    rw [n017453, n0573]; exact mul64 (by decide +kernel)
  have m2 : (-0.017453 * 0.0573 : Fl (b64Of libm)) = .fin (-1152987105840459/1152921504606846976) := by
    rw [n017453, n0573, neg64]; exact mul64 (by decide +kernel)
  refine ⟨controlBand_vec (hc.2.2.1.trans h12) (hc.2.2.2.1.trans h13) rfl ?_, fun t s u v hv w hw => ?_, fun dt a hok => ⟨fun w hw => ?_, fun h hh => ?_⟩⟩
  · intro i l h
    match i with
    | 0 => rintro ⟨⟩ ⟨⟩; exact (Fl.fin_le_fin _ _).2 (by norm_num)
    | 1 => rintro ⟨⟩ ⟨⟩; exact (Fl.fin_le_fin _ _).2 (by norm_num)
    | 2 => rintro ⟨⟩ ⟨⟩; rw [m1, m2]; exact (Fl.fin_le_fin _ _).2 (by norm_num)
    | _ + 3 => simp
  · exact (C36_angular_acceleration env _ e0 h0 p1 p2 ops t s u v w hv hw).imp_right And.left
  · exact (C36_angular_velocity env _ e0 h0 p3 p4 ops dt a hok w hw).imp_right And.left
  · rcases C36_theta_range_rounded (b64Of_sound libm) env _ e0 h0 ops dt a hok h hh with h | ⟨x, rfl, h1, h2⟩
    · exact .inl h
    · exact .inr ⟨by simpa using h1, by simpa using h2⟩

/-- C111: a six-degrees-of-freedom spacecraft built without parameters, in double precision: the thrusts applied are limited to 1, the moments to
0.017453 · 0.0573, and after any history that ends in a successful step no angular velocity exceeds 0.034907. -/
theorem C111_envelope_sixdof (libm : Fmt ℚ) (env : Env (b64Of libm)) (uninit : List Nat → Vec (b64Of libm))
    (kwargs : List (String × CfgVal (b64Of libm))) (e0 : Entity (b64Of libm)) (h0 : newSixDof env uninit { kwargs := kwargs } = .ok e0)
    (ops : List (Op (b64Of libm))) :
    ControlBand env (e0.run env ops) [-1, -1, -1, -(0.017453 * 0.0573), -(0.017453 * 0.0573), -(0.017453 * 0.0573)]
      [1, 1, 1, 0.017453 * 0.0573, 0.017453 * 0.0573, 0.017453 * 0.0573] ∧
    ∀ (dt : Fl (b64Of libm)) (a : Action (b64Of libm)), ((e0.run env ops).step env dt a).outcome = .ok () →
      ∀ (i : Fin 3) w, ((e0.run env ops).step env dt a).entity.state[10 + i.val]? = some w → Band (-0.034907) 0.034907 w := by
  have ha : AxisLimits (.num (0.017453 : Fl (b64Of libm))) (fun _ => 0.017453) := .inl ⟨_, rfl, fun _ => rfl⟩
  have hv : AxisLimits (.num (0.034907 : Fl (b64Of libm))) (fun _ => 0.034907) := .inl ⟨_, rfl, fun _ => rfl⟩
  have hc := run_sameConfig env ops e0
  have p3 : (0 : Fl (b64Of libm)) ≤ 0.034907 := by rw [n034907]; exact (Fl.fin_le_fin _ _).2 (by norm_num)
  have p4 : (0 : Fl (b64Of libm)) ≤ 4.1e-5 * 576 / 0.0573 := by rw [wheelVel64]; exact (Fl.fin_le_fin _ _).2 (by norm_num)
  have m1 : (0.017453 * 0.0573 : Fl (b64Of libm)) = .fin (1152987105840459/1152921504606846976) := by
    rw [n017453, n0573]; exact mul64 (by decide +kernel)
  have m2 : (-1 * (0.017453 * 0.0573) : Fl (b64Of libm)) = -(0.017453 * 0.0573) := by
    rw [m1]; exact mul64 (by decide +kernel)
  have m3 : (-1 * 1 : Fl (b64Of libm)) = -1 := mul64 (by decide +kernel)
  obtain ⟨acc, vel, a1, -, -, -, -, h13, h12⟩ := sixDof_config ha hv h0
  have hacc : ∀ i, acc i = 0.017453 := by
    intro i
    rw [a1 i]
    refine Eq.trans ?_ minAcc64
    fin_cases i <;> rfl
  have hI : ∀ i : Fin 3, (inertiaMatrixDefault i i : Fl (b64Of libm)) = 0.0573 := by
    intro i; simp [inertiaMatrixDefault]
  simp only [hacc, hI, m2, m3] at h12 h13
  refine ⟨controlBand_vec (hc.2.2.1.trans h12) (hc.2.2.2.1.trans h13) rfl ?_, fun dt a hok i w hw => ?_⟩
  · intro i l h
    match i with
    | 0 => rintro ⟨⟩ ⟨⟩; exact (Fl.fin_le_fin _ _).2 (by norm_num)
    | 1 => rintro ⟨⟩ ⟨⟩; exact (Fl.fin_le_fin _ _).2 (by norm_num)
    | 2 => rintro ⟨⟩ ⟨⟩; exact (Fl.fin_le_fin _ _).2 (by norm_num)
    | 3 => rintro ⟨⟩ ⟨⟩; rw [m1]; exact (Fl.fin_le_fin _ _).2 (by norm_num)
    | 4 => rintro ⟨⟩ ⟨⟩; rw [m1]; exact (Fl.fin_le_fin _ _).2 (by norm_num)
    | 5 => rintro ⟨⟩ ⟨⟩; rw [m1]; exact (Fl.fin_le_fin _ _).2 (by norm_num)
    | _ + 6 => simp
  · exact (C43_angular_velocity env uninit _ _ _ ha hv e0 h0 (fun _ => p3) (fun i => by fin_cases i <;> exact p4) ops dt a hok i w hw).imp_right And.left


/-! ### Equations of motion and idle motion, in exact arithmetic -/

section

theorem lit_real (m e : ℕ) : (OfScientific.ofScientific m true e : Fl realFmt) = .fin ((m : ℝ) / 10 ^ e) := rfl

theorem nat_real (n : ℕ) [n.AtLeastTwo] : (OfNat.ofNat n : Fl realFmt) = .fin (OfNat.ofNat n : ℝ) := rfl

theorem neg_real (x : ℝ) : (-.fin x : Fl realFmt) = .fin (-x) := rfl

/-- the parameters of the default vehicles -/
noncomputable def stock2d : Dubins2dParams ℝ := ⟨200, 400, -0.174533, 0.174533, -96.5, 96.5⟩
noncomputable def stock3d : Dubins3dParams ℝ :=
  ⟨200, 400, -0.349066, 0.349066, -1.047198, 1.047198, -0.174533, 0.174533, -0.087266, 0.087266, -96.5, 96.5⟩
noncomputable def stockRot2d : Rot2dParams ℝ := ⟨12, 0.0573, 0.017453, 0.034907, 4.1e-5, 181.3, 576, 0.001027⟩
noncomputable def stockSixDof : SixDofParams ℝ :=
  ⟨12, fun i j => if i = j then 0.0573 else 0, fun _ => 0.017453, fun _ => 0.034907, 4.1e-5, 181.3, 576, 1, 0.001027⟩

theorem stock2d_of (kwargs : List (String × CfgVal realFmt)) : stock2d.Of { kwargs := kwargs } := by
  constructor <;> simp only [stock2d, lit_real, nat_real, neg_real, Fl.fin.injEq] <;> norm_num

theorem stock3d_of (kwargs : List (String × CfgVal realFmt)) : stock3d.Of { kwargs := kwargs } := by
  constructor <;> simp only [stock3d, lit_real, nat_real, neg_real, Fl.fin.injEq] <;> norm_num

theorem stockRot2d_of (kwargs : List (String × CfgVal realFmt)) : stockRot2d.Of { kwargs := kwargs } := by
  constructor <;> simp only [stockRot2d, lit_real, nat_real, Fl.fin.injEq] <;> norm_num

theorem stockSixDof_of (kwargs : List (String × CfgVal realFmt)) : stockSixDof.Of { kwargs := kwargs } := by
  refine ⟨?_, ?_, .inl ⟨_, rfl, fun _ => ?_⟩, .inl ⟨_, rfl, fun _ => ?_⟩, ?_, ?_, ?_, ?_, ?_⟩
  · simp only [stockSixDof, nat_real]
  · intro i j
    show inertiaMatrixDefault i j = _
    simp only [inertiaMatrixDefault, stockSixDof]
    split_ifs
    · rw [lit_real]; norm_num
    · exact Fl.zero_fin
  all_goals simp only [stockSixDof, lit_real, nat_real, Fl.one_fin, Fl.fin.injEq]
  all_goals norm_num

/-- C111: the equations of motion of a spacecraft built without parameters: a mass of 12 kg and a mean motion of 0.001027 per second. -/
theorem C111_equations_cwh (env : Env realFmt) (kwargs : List (String × CfgVal realFmt)) (e0 : Entity realFmt)
    (h0 : newCwhSpacecraft env { kwargs := kwargs } = .ok e0) (ops : List (Op realFmt)) (t x y z vx vy vz fx fy fz : ℝ) :
    (e0.run env ops).dynamics.computeStateDot (.fin t) [.fin x, .fin y, .fin z, .fin vx, .fin vy, .fin vz] [.fin fx, .fin fy, .fin fz]
      = .ok [.fin vx, .fin vy, .fin vz, .fin (3 * 0.001027 ^ 2 * x + 2 * 0.001027 * vy + fx / 12), .fin (-2 * 0.001027 * vx + fy / 12),
          .fin (-0.001027 ^ 2 * z + fz / 12)] := by
  have := C29_equations env _ 12 0.001027 (nat_real 12) (by show (0.001027 : Fl realFmt) = _; rw [lit_real]; norm_num) e0 h0 ops t ![x, y, z, vx, vy, vz] ![fx, fy, fz]
  simp only [toFl6, toFl3, cw] at this
  simpa using this

theorem stockRot2d_acc : stockRot2d.accLimit = 0.017453 := by
  simp only [Rot2dParams.accLimit, stockRot2d]
  exact min_eq_left (by norm_num)

theorem stockRot2d_vel : stockRot2d.velLimit = 0.034907 := by
  simp only [Rot2dParams.velLimit, stockRot2d]
  exact min_eq_left (by norm_num)

theorem stockSixDof_acc (i : Fin 3) : stockSixDof.accLimit i = 0.017453 := by
  simp only [SixDofParams.accLimit, stockSixDof, if_true]
  exact min_eq_left (by norm_num)

theorem stockSixDof_vel (i : Fin 3) : stockSixDof.velLimit i = 0.034907 := by
  simp only [SixDofParams.velLimit, stockSixDof, if_true]
  exact min_eq_left (by norm_num)

theorem klimit_rate {a y r : ℝ} (h1 : -a ≤ r) (h2 : r ≤ a) : klimit none none (some (-a)) (some a) y r = r := by
  simp [klimit, kclip, max_eq_left h1, min_eq_left h2]

theorem klimit_both {v a y r : ℝ} (h1 : -v < y) (h2 : y < v) (h3 : -a ≤ r) (h4 : r ≤ a) : klimit (some (-v)) (some v) (some (-a)) (some a) y r = r := by
  simp [klimit, kclip, not_le.2 h1, not_le.2 h2, max_eq_left h3, min_eq_left h4]

/-- C111: of a planar rotating one: the same for the thrust turned by its orientation, and a moment of inertia of 0.0573 kg m², while the angular
velocity and the moment are within the limits. -/
theorem C111_equations_rot2d (env : Env realFmt) (kwargs : List (String × CfgVal realFmt)) (e0 : Entity realFmt)
    (h0 : newRot2d env { kwargs := kwargs } = .ok e0) (ops : List (Op realFmt)) (t x y θ vx vy w fx fy m : ℝ) (hw : |w| < 0.034907)
    (hm : |m| ≤ 0.017453 * 0.0573) :
    (e0.run env ops).dynamics.computeStateDot (.fin t) [.fin x, .fin y, .fin θ, .fin vx, .fin vy, .fin w] [.fin fx, .fin fy, .fin m]
      = .ok [.fin vx, .fin vy, .fin w,
          .fin (3 * 0.001027 ^ 2 * x + 2 * 0.001027 * vy + (Real.cos θ * fx - Real.sin θ * fy) / 12),
          .fin (-2 * 0.001027 * vx + (Real.sin θ * fx + Real.cos θ * fy) / 12), .fin (m / 0.0573)] := by
  have hr := (rot2d_realised (stockRot2d_of kwargs) h0).1.congr (run_sameConfig env ops e0)
  have := computeStateDot_lift hr.dyn.lo hr.dyn.hi hr.dyn.dlo hr.dyn.dhi (hr.dyn.rhs t ![x, y, θ, vx, vy, w] ![fx, fy, m] trivial)
  rw [toFl6, toFl3, toFl6] at this
  refine (show _ = _ from this).trans ?_
  obtain ⟨w1, w2⟩ := abs_lt.1 hw
  obtain ⟨m1, m2⟩ := abs_le.1 hm
  have k1 : -0.017453 ≤ m / 0.0573 := by rw [le_div_iff₀ (by norm_num)]; linarith
  have k2 : m / 0.0573 ≤ 0.017453 := by rw [div_le_iff₀ (by norm_num)]; linarith
  simp only [Except.ok.injEq, List.cons.injEq, Fl.fin.injEq, and_true]
  refine ⟨klimit_free _ _, klimit_free _ _, klimit_rate (a := stockRot2d.velLimit) ?_ ?_, (klimit_free _ _).trans ?_, (klimit_free _ _).trans ?_,
    klimit_both (v := stockRot2d.velLimit) (a := stockRot2d.accLimit) ?_ ?_ ?_ ?_⟩
  · rw [stockRot2d_vel]; exact w1.le
  · rw [stockRot2d_vel]; exact w2.le
  · simp [rot2dModel, stockRot2d, realFmt]
  · simp [rot2dModel, stockRot2d, realFmt]
  · rw [stockRot2d_vel]; exact w1
  · rw [stockRot2d_vel]; exact w2
  · rw [stockRot2d_acc]; exact k1
  · rw [stockRot2d_acc]; exact k2

/-- C111: of one in six degrees of freedom, whose thrust is given in the body frame. -/
theorem C111_equations_sixdof (env : Env realFmt) (uninit : List Nat → Vec realFmt) (kwargs : List (String × CfgVal realFmt))
    (e0 : Entity realFmt) (h0 : newSixDof env uninit { kwargs := kwargs } = .ok e0) (ops : List (Op realFmt)) (t : ℝ) (y : Fin 13 → ℝ) (u : Fin 6 → ℝ)
    (hw : |y 10| < 0.034907 ∧ |y 11| < 0.034907 ∧ |y 12| < 0.034907) :
    (e0.run env ops).dynamics.computeStateDot (.fin t) (toFl y) (toFl u) = .ok (toFl (rigidBody 12 0.001027 (fun _ => 0.0573) true u y)) := by
  have hr := (sixDof_realised (stockSixDof_of kwargs) (fun i => by norm_num [stockSixDof]) h0).1.congr (run_sameConfig env ops e0)
  obtain ⟨h1, h2, h3⟩ := hw
  rw [sixDof_field hr t y u, sixDofModel_field_rates _ _ _ _ _ (by
    intro i
    rw [stockSixDof_vel]
    fin_cases i
    · exact abs_lt.1 h1
    · exact abs_lt.1 h2
    · exact abs_lt.1 h3)]
  simp [sixDofRate, rigidBody, hillThrust, krot, turnedThrust, stockSixDof]

/-- a history of calls without an action -/
abbrev Spec.leftAlone (ts : List ℝ) : List (ℝ × Action realFmt) := ts.map (fun t => (t, .none))

theorem asks_alone {m : Nat} {env : Env realFmt} {e : Entity realFmt} {u : Fin m → ℝ} (h : e.controlDefault = toFl u) (ts : List ℝ) :
    ∀ h ∈ leftAlone ts, Asks env e h.2 u := by
  intro h hh
  obtain ⟨t, -, rfl⟩ := List.mem_map.1 hh
  exact asks_iff.2 ⟨.f64, by simp [Entity.resolve, ‹e.controlDefault = _›]⟩

/-- C111: a 2d aircraft of which only the name is given starts at the origin, heading along x at 200 feet per second, and left alone goes on so for
ever. -/
theorem C111_alone_2d (env : Env realFmt) (henv : IsRk dopri env) (name : String) :
    ∃ e, newDubins2d env { kwargs := [("name", .str name)] } = .ok e ∧ e.state = [0, 0, 0, 200] ∧ ∀ ts : List ℝ,
      (e.run env (stepsOf (leftAlone ts))).state = [.fin (200 * elapsed env e (leftAlone ts)), 0, 0, 200] := by
  obtain ⟨e, h0⟩ : ∃ e, newDubins2d env { kwargs := [("name", .str name)] } = .ok e := ⟨_, rfl⟩
  have hs : e.state = [0, 0, 0, 200] := by
    have : newDubins2d env { kwargs := [("name", .str name)] } = .ok _ := rfl
    rw [this] at h0
    cases h0
    simp
  refine ⟨e, h0, hs, fun ts => ?_⟩
  obtain ⟨-, -, -, -, -, -, -, -, hm, -, hcd, -, -, -⟩ := dubins2d_config h0
  have hs' : e.state = [.fin (0 : ℝ), .fin 0, .fin 0, .fin 200] := by rw [hs, Fl.zero_fin, nat_real]
  obtain ⟨vx, vy, g1, g2⟩ := C49_straight_2d (R := realFmt) Real.pi_pos trigZero_real env henv _ stock2d (stock2d_of _) (by norm_num [stock2d])
    (by norm_num [stock2d]) e h0 (.inl hm) [] e rfl 0 0 0 200 hs' ⟨by simpa [realFmt] using Real.pi_pos.le, Real.pi_pos⟩ (by norm_num [stock2d])
    (leftAlone ts) (asks_alone (by rw [hcd]; simp [toFl, List.ofFn_succ]) ts)
  have : dubins2dVelocity e = .ok [.fin 200, .fin 0, .fin 0] := by
    simp [dubins2dVelocity, hs', getIdx, dubinsVelocity, bind, Except.bind, pure, Except.pure, Fl.sin, Fl.cos, trigZero_real.sin, trigZero_real.cos]
  rw [g1] at this
  simp only [Except.ok.injEq, List.cons.injEq, Fl.fin.injEq, and_true] at this
  rw [g2, this.1, this.2, Fl.zero_fin, nat_real, zero_add, mul_comm, zero_add, mul_zero]

/-- C111: a 3d aircraft likewise. -/
theorem C111_alone_3d (env : Env realFmt) (henv : IsRk dopri env) (name : String) :
    ∃ e, newDubins3d env { kwargs := [("name", .str name)] } = .ok e ∧ e.state = [0, 0, 0, 0, 0, 0, 200] ∧ ∀ ts : List ℝ,
      (e.run env (stepsOf (leftAlone ts))).state = [.fin (200 * elapsed env e (leftAlone ts)), 0, 0, 0, 0, 0, 200] := by
  obtain ⟨e, h0⟩ : ∃ e, newDubins3d env { kwargs := [("name", .str name)] } = .ok e := ⟨_, rfl⟩
  have hs : e.state = [0, 0, 0, 0, 0, 0, 200] := by
    have : newDubins3d env { kwargs := [("name", .str name)] } = .ok _ := rfl
    rw [this] at h0
    cases h0
    simp
  refine ⟨e, h0, hs, fun ts => ?_⟩
  obtain ⟨-, -, -, -, -, -, -, -, hm, -, hcd, -, -, -⟩ := dubins3d_config h0
  have hs' : e.state = [.fin (0 : ℝ), .fin 0, .fin 0, .fin 0, .fin 0, .fin 0, .fin 200] := by rw [hs, Fl.zero_fin, nat_real]
  obtain ⟨vx, vy, vz, g1, g2⟩ := C49_straight_3d (R := realFmt) Real.pi_pos trigZero_real env henv _ stock3d (stock3d_of _) (by norm_num [stock3d])
    (by norm_num [stock3d]) (by norm_num [stock3d]) e h0 (.inl hm) [] e rfl 0 0 0 0 0 200 hs' ⟨by simpa [realFmt] using Real.pi_pos.le, Real.pi_pos⟩
    ⟨by simpa [realFmt] using Real.pi_pos.le, Real.pi_pos⟩ (by norm_num [stock3d]) (by norm_num [stock3d]) (by norm_num [stock3d]) (by norm_num)
    (leftAlone ts) (asks_alone (by rw [hcd]; simp [toFl, List.ofFn_succ]) ts)
  have : dubins3dVelocity e = .ok [.fin 200, .fin 0, .fin 0] := by
    simp [dubins3dVelocity, hs', getIdx, dubinsVelocity, bind, Except.bind, pure, Except.pure, Fl.sin, Fl.cos, trigZero_real.sin, trigZero_real.cos]
  rw [g1] at this
  simp only [Except.ok.injEq, List.cons.injEq, Fl.fin.injEq, and_true] at this
  rw [g2, this.1, this.2.1, this.2.2, Fl.zero_fin, nat_real, zero_add, mul_comm, zero_add, mul_zero]

theorem min_max_zero {a : ℝ} (h : 0 ≤ a) : min (max 0 (-a)) a = 0 := by
  rw [max_eq_left (by linarith), min_eq_left h]

theorem rest_run {n m : Nat} {env : Env realFmt} (henv : IsRk dopri env) {M : KModel ℝ n m} {e : Entity realFmt} (hr : Realises e M)
    (hm : PlainMethod e.dynamics) (hdom : M.dom 0) (hpost : M.post Real.pi 0 = 0) (hf : ∀ t, M.field (M.sat 0) t 0 = 0) (hs : e.state = toFl (0 : Fin n → ℝ))
    (hc : e.controlDefault = toFl (0 : Fin m → ℝ)) (ts : List ℝ) : (e.run env (stepsOf (leftAlone ts))).state = toFl (0 : Fin n → ℝ) := by
  have := hr.run_line henv Real.pi_pos (y0 := 0) (w := 0) (fun c => by simpa using hdom) (fun c => by simpa [realFmt] using hpost) (leftAlone ts) hm
    (fun h hh => ⟨0, asks_alone hc ts h hh, fun t c => by simpa using hf t⟩) 0 (by simpa using hs)
  simpa using this

/-- C111: a spacecraft of which only the name is given is at the origin, at rest, and left alone stays there. -/
theorem C111_alone_cwh (env : Env realFmt) (henv : IsRk dopri env) (name : String) :
    ∃ e, newCwhSpacecraft env { kwargs := [("name", .str name)] } = .ok e ∧ ∀ ts : List ℝ,
      (e.run env (stepsOf (leftAlone ts))).state = [0, 0, 0, 0, 0, 0] := by
  obtain ⟨e, h0, hs, hc⟩ : ∃ e, newCwhSpacecraft env { kwargs := [("name", .str name)] } = .ok e ∧ e.state = [0, 0, 0, 0, 0, 0] ∧
      e.controlDefault = [0, 0, 0] := by
    have hd : pyDiv (1 : Fl realFmt) (12 : Fl realFmt) = .ok (1 / 12) := by rw [nat_real 12]; simp [pyDiv, Fl.eqb]
    simp only [newCwhSpacecraft, initCwhSpacecraft, mkCwhDynamics, generateCwhMatrices, show ("3d" = "2d") = False from by simp,
      if_true, if_false, hd, bind, Except.bind, pure, Except.pure]
    exact ⟨_, rfl, by simp, by simp⟩
  obtain ⟨hr, -, hm, -⟩ := cwhSpacecraft_realised (m := 12) (n := 0.001027) (nat_real 12) (by show (0.001027 : Fl realFmt) = _; rw [lit_real]; norm_num) h0
  refine ⟨e, h0, fun ts => ?_⟩
  rw [rest_run henv hr (.inl hm) trivial ?_ ?_ ?_ ?_ ts, toFl6]
  · simp
  · funext i; simp [cwModel_post]
  · intro t; rw [cwModel_field, cwModel_sat]; funext i; fin_cases i <;> simp
  · rw [hs, toFl6]; simp
  · rw [hc, toFl3]; simp

/-- C111: a planar rotating spacecraft likewise. -/
theorem C111_alone_rot2d (env : Env realFmt) (henv : IsRk dopri env) (name : String) :
    ∃ e, newRot2d env { kwargs := [("name", .str name)] } = .ok e ∧ ∀ ts : List ℝ,
      (e.run env (stepsOf (leftAlone ts))).state = [0, 0, 0, 0, 0, 0] := by
  obtain ⟨e, h0, hs, hc⟩ : ∃ e, newRot2d env { kwargs := [("name", .str name)] } = .ok e ∧ e.state = [0, 0, 0, 0, 0, 0] ∧
      e.controlDefault = [0, 0, 0] := by
    have hd : pyDiv (1 : Fl realFmt) (12 : Fl realFmt) = .ok (1 / 12) := by rw [nat_real 12]; simp [pyDiv, Fl.eqb]
    have hi : ∀ x : Fl realFmt, pyDiv x (0.0573 : Fl realFmt) = .ok (x / 0.0573) := by intro x; rw [lit_real]; norm_num [pyDiv, Fl.eqb]
    simp only [newRot2d, instantiate, initRot2d, rot2dLimits, mkRot2dDynamics, mkOdeDyn, generateCwhMatrices, hd, hi, if_true, bind, Except.bind, pure, Except.pure]
    exact ⟨_, rfl, by simp, by simp⟩
  obtain ⟨hr, -, -, hm, -⟩ := rot2d_realised (stockRot2d_of _) h0
  refine ⟨e, h0, fun ts => ?_⟩
  rw [rest_run henv hr (.inl hm) trivial ?_ ?_ ?_ ?_ ts, toFl6]
  · simp
  · funext i
    fin_cases i <;> simp [rot2dModel, KModel.post, kclip, stockRot2d_vel]
    · rw [mul_comm, ← div_div, div_self Real.pi_ne_zero]; norm_num
    · exact min_max_zero (by norm_num)
  · intro t; funext i; fin_cases i <;> simp [KModel.field, rot2dModel, KModel.sat, klimit, kclip, stockRot2d_vel, stockRot2d_acc]
    · exact min_max_zero (by norm_num)
    · have : stockRot2d.inertia = 0.0573 := rfl
      rw [this, min_max_zero (by norm_num), zero_div, min_max_zero (by norm_num)]
      norm_num
  · rw [hs, toFl6]; simp
  · rw [hc, toFl3]; simp

/-- C111: one in six degrees of freedom likewise; its quaternion is 0. -/
theorem C111_alone_sixdof (env : Env realFmt) (henv : IsRk dopri env) (uninit : List Nat → Vec realFmt) (name : String) :
    ∃ e, newSixDof env uninit { kwargs := [("name", .str name)] } = .ok e ∧ ∀ ts : List ℝ,
      (e.run env (stepsOf (leftAlone ts))).state = List.replicate 13 0 := by
  obtain ⟨e, h0, hs, hc⟩ : ∃ e, newSixDof env uninit { kwargs := [("name", .str name)] } = .ok e ∧ e.state = List.replicate 13 0 ∧
      e.controlDefault = [0, 0, 0, 0, 0, 0] := by
    have hd : pyDiv (1 : Fl realFmt) (12 : Fl realFmt) = .ok (1 / 12) := by rw [nat_real 12]; simp [pyDiv, Fl.eqb]
    simp only [newSixDof, instantiate, initSixDof, mkSixDofDynamics, generateCwhMatrices, numberListToNp, if_true, hd, bind, Except.bind, pure,
      Except.pure]
    exact ⟨_, rfl, by simp, by simp⟩
  have hI : ∀ i, stockSixDof.inertia i i ≠ 0 := fun i => by norm_num [stockSixDof]
  obtain ⟨hr, -, hm, -⟩ := sixDof_realised (stockSixDof_of _) hI h0
  refine ⟨e, h0, fun ts => ?_⟩
  rw [rest_run henv hr (.inl hm) trivial ?_ ?_ ?_ ?_ ts]
  · simp [toFl, List.ofFn_succ]
  · funext i
    fin_cases i <;> simp [sixDofModel, KModel.post, kclip, stockSixDof_vel]
    all_goals exact min_max_zero (by norm_num)
  · intro t
    rw [show (sixDofModel stockSixDof true).sat 0 = 0 from ?_, sixDofModel_field_rates]
    · funext i; fin_cases i <;> simp [sixDofRate, hillThrust, krot]
    · intro i; rw [stockSixDof_vel]; fin_cases i <;> norm_num [rateOf]
    · have ha : ∀ i, 0 ≤ stockSixDof.accLimit i * stockSixDof.inertia i i := fun i => by rw [stockSixDof_acc]; norm_num [stockSixDof]
      have ht : 0 ≤ stockSixDof.thrust := by norm_num [stockSixDof]
      funext i
      fin_cases i
      · exact min_max_zero ht
      · exact min_max_zero ht
      · exact min_max_zero ht
      · exact min_max_zero (ha 0)
      · exact min_max_zero (ha 1)
      · exact min_max_zero (ha 2)
  · rw [hs]; simp [toFl, List.ofFn_succ]
  · rw [hc]; simp [toFl, List.ofFn_succ]

/-- C111: a sun starts at angle 0 and, left alone, is at 0.001027 radians for every second that has passed. -/
theorem C111_alone_sun (env : Env realFmt) (henv : IsRk dopri env) (name : String) :
    ∃ e, newSun env { kwargs := [("name", .str name)] } = .ok e ∧ e.state = [0] ∧ ∀ ts : List ℝ,
      (e.run env (stepsOf (leftAlone ts))).state = [.fin (0.001027 * elapsed env e (leftAlone ts))] := by
  obtain ⟨e, h0⟩ : ∃ e, newSun env { kwargs := [("name", .str name)] } = .ok e := ⟨_, rfl⟩
  have hs : e.state = [0] := by
    have : newSun env { kwargs := [("name", .str name)] } = .ok _ := rfl
    rw [this] at h0
    cases h0
    simp
  refine ⟨e, h0, hs, fun ts => ?_⟩
  rw [C45_motion (R := realFmt) Real.pi_pos env henv _ 0.001027 (by show (0.001027 : Fl realFmt) = _; rw [lit_real]; norm_num) (.inl rfl) e h0 [] 0 _ e rfl
    (by rw [hs, Fl.zero_fin]), zero_add]

/-- C111: a concrete subclass of one of the integrators, of which only the name is given, starts at rest at the origin. Every thrust is limited to 1 and
accelerates the unit mass without damping, so left alone it stays there. -/
theorem C111_integrator (env : Env realFmt) (henv : IsRk dopri env) (name : String) (k : Nat) (hk : k = 1 ∨ k = 2 ∨ k = 3) :
    ∃ e, initIntegrator env { kwargs := [("name", .str name)] } k = .ok e ∧ e.state = toFl (0 : Fin (k + k) → ℝ) ∧
      (∀ ts : List ℝ, (e.run env (stepsOf (leftAlone ts))).state = toFl (0 : Fin (k + k) → ℝ)) ∧
      ∀ (ops : List (Op realFmt)) (T : ℝ) (a : Action realFmt) (x v u : Fin k → ℝ), (e.run env ops).state = toFl (Fin.append x v) →
        Asks env (e.run env ops) a u → ((e.run env ops).step env (.fin T) a).outcome = .ok () →
        ((e.run env ops).step env (.fin T) a).entity.state
          = toFl (Fin.append (fun i => x i + v i * T + min (max (u i) (-1)) 1 * T ^ 2 / 2) (fun i => v i + min (max (u i) (-1)) 1 * T)) := by
  obtain ⟨e, h0, hs, hc⟩ : ∃ e, initIntegrator env { kwargs := [("name", .str name)] } k = .ok e ∧ e.state = toFl (0 : Fin (k + k) → ℝ) ∧
      e.controlDefault = toFl (0 : Fin k → ℝ) := by
    have hd : pyDiv (1 : Fl realFmt) (1 : Fl realFmt) = .ok (1 / 1) := by simp [pyDiv, Fl.eqb]
    rcases hk with rfl | rfl | rfl <;>
      simp only [initIntegrator, initIntegrator1d, initIntegrator2d, initIntegrator3d, mkIntegratorDynamics, generateDynamicsMatrices, hd,
        show ("2d" = "1d") = False from by simp, show ("3d" = "1d") = False from by simp, show ("3d" = "2d") = False from by simp,
        if_true, if_false, bind, Except.bind, pure, Except.pure] <;>
      exact ⟨_, rfl, by simp [toFl, List.ofFn_succ], by simp [toFl, List.ofFn_succ]⟩
  obtain ⟨hr, hm, -⟩ := integratorEntity_realised (m := (1 : ℝ)) (c := 0) (by exact Fl.one_fin) (by exact Fl.zero_fin) h0
  refine ⟨e, h0, hs, fun ts => rest_run henv hr (.inl hm) trivial ?_ ?_ hs hc ts, fun ops T a x v u h1 h2 h3 => ?_⟩
  · exact pointModel_post ..
  · intro t
    rw [pointModel_sat, pointModel_field]
    funext i
    refine Fin.addCases (fun j => ?_) (fun j => ?_) i
    · rw [Fin.append_left]; rfl
    · rw [Fin.append_right]; simp
  · rw [C25_entity (R := realFmt) Real.pi_pos env henv k _ 1 (by exact Fl.one_fin) rfl rfl e h0 ops T a x v u h1 h2 h3, uniform]
    congr 1
    funext i
    refine Fin.addCases (fun j => ?_) (fun j => ?_) i <;> simp

end

/-! ### The limits are met -/

/-- `C111_envelope_2d`: 30 seconds of acceleration 1000 are cut to 96.5 and end at exactly 400; ten of braking end at 200 -/
example : ∃ e, newDubins2d (R := b64) Demo.env { kwargs := [("name", .str "a")] } = .ok e ∧
    (decide ((e.step Demo.env 30 (.dict [("acceleration", .fin 1000)])).outcome = .ok ()) &&
     decide ((e.step Demo.env 30 (.dict [("acceleration", .fin 1000)])).entity.state[3]? = some 400) &&
     decide ((e.step Demo.env 1 (.dict [("acceleration", .fin (-1000))])).outcome = .ok ()) &&
     decide ((e.step Demo.env 1 (.dict [("acceleration", .fin (-1000))])).entity.state[3]? = some 200)) = true := Demo.of_okAnd (by decide +kernel)

/-- `C111_envelope_3d`: pulling up and rolling for half a minute ends at the limits of gamma and roll -/
example : ∃ e, newDubins3d (R := b64) Demo.env { kwargs := [("name", .str "a")] } = .ok e ∧
    (decide ((e.step Demo.env 30 (.ndarray .f64 [1, 1, 0])).outcome = .ok ()) &&
     decide ((e.step Demo.env 30 (.ndarray .f64 [1, 1, 0])).entity.state[4]? = some (Fl.cast32 0.349066)) &&
     decide ((e.step Demo.env 30 (.ndarray .f64 [1, 1, 0])).entity.state[5]? = some (Fl.cast32 1.047198))) = true := Demo.of_okAnd (by decide +kernel)

/-- `C111_envelope_rot2d`: ten seconds of full moment end at the angular velocity 0.034907 -/
example : ∃ e, newRot2d (R := b64) Demo.env { kwargs := [("name", .str "a")] } = .ok e ∧
    (decide ((e.step Demo.env 10 (.dict [("moment_z", .fin 1)])).outcome = .ok ()) &&
     decide ((e.step Demo.env 10 (.dict [("moment_z", .fin 1)])).entity.state[5]? = some (0.034907 : Fl b64))) = true := Demo.of_okAnd (by decide +kernel)

/-- `C111_envelope_sixdof`: likewise about y -/
example : ∃ e, newSixDof (R := b64) Demo.env (fun _ => []) { kwargs := [("name", .str "a")] } = .ok e ∧
    (decide ((e.step Demo.env 10 (.dict [("moment_y", .fin 1)])).outcome = .ok ()) &&
     decide ((e.step Demo.env 10 (.dict [("moment_y", .fin 1)])).entity.state[11]? = some (0.034907 : Fl b64))) = true := Demo.of_okAnd (by decide +kernel)

end SAD
