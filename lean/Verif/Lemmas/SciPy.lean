import Verif.Model.SciPy
import Verif.Lemmas.Flow
import Verif.Lemmas.Translate
import Mathlib.Data.List.TakeWhile

/-! # SciPy's RK45 in exact arithmetic: what it accepts are Dormand-Prince steps -/

set_option linter.unusedSectionVars false

namespace SAD
open Spec

section fin
variable {K : Type} {R : Fmt K} [Field K] [LinearOrder K]

namespace Fl
theorem isFin_iff (a : Fl R) : a.isFin = true ↔ ∃ x, a = fin x := by cases a <;> simp [isFin]

theorem isFin_of_add {a b : Fl R} (h : (a + b).isFin = true) : a.isFin = true ∧ b.isFin = true := by
  cases a <;> cases b <;> simp_all [HAdd.hAdd, Add.add, add, isFin]

theorem infSign_not_fin (a : K) : (infSign a : Fl R).isFin = false := by
  unfold infSign; split <;> (try split) <;> rfl

theorem neg_not_fin {a : Fl R} (h : a.isFin = false) : (neg a).isFin = false := by
  cases a <;> simp_all [neg, isFin]

theorem isFin_of_mul {a b : Fl R} (h : (a * b).isFin = true) : a.isFin = true ∧ b.isFin = true := by
  have h1 := infSign_not_fin (R := R) (K := K)
  have h2 := fun a : K => neg_not_fin (h1 a)
  cases a <;> cases b <;> simp_all [HMul.hMul, Mul.mul, mul, isFin]

theorem isFin_of_div {a b : Fl R} (h : (a / b).isFin = true) : a.isFin = true := by
  have h1 : ∀ (p : Prop) [Decidable p], (if p then pinf else ninf : Fl R).isFin = false := by intro p _; split <;> rfl
  have h2 : ∀ (p : Prop) [Decidable p], (if p then ninf else pinf : Fl R).isFin = false := by intro p _; split <;> rfl
  cases a with
  | fin a => rfl
  | nan => cases b <;> simp [HDiv.hDiv, Div.div, div, isFin] at h
  | pinf =>
    cases b with
    | fin b => exact absurd ((h2 (b < 0)).symm.trans h) (by simp)
    | _ => simp [HDiv.hDiv, Div.div, div, isFin] at h
  | ninf =>
    cases b with
    | fin b => exact absurd ((h1 (b < 0)).symm.trans h) (by simp)
    | _ => simp [HDiv.hDiv, Div.div, div, isFin] at h

end Fl

theorem foldl_sq_fin (x : Vec R) (acc : Fl R) (h : (x.foldl (fun acc a => acc + a * a) acc).isFin = true) :
    acc.isFin = true ∧ ∀ a ∈ x, a.isFin = true := by
  induction x generalizing acc with
  | nil => exact ⟨h, by simp⟩
  | cons a x ih =>
    obtain ⟨h1, h2⟩ := ih _ h
    obtain ⟨h3, h4⟩ := Fl.isFin_of_add h1
    refine ⟨h3, ?_⟩
    intro b hb
    rcases List.mem_cons.1 hb with rfl | hb
    · exact (Fl.isFin_of_mul h4).1
    · exact h2 b hb

/-- the powers computed by the format are not negative -/
def PowNonneg (R : Fmt K) : Prop := ∀ a b, 0 < a → 0 ≤ R.pow a b

variable [IsStrictOrderedRing K]

/-- a norm below one is the norm of finite numbers -/
theorem rmsNorm_fin (hp : PowNonneg R) {x : Vec R} (h : rmsNorm x < 1) : ∀ a ∈ x, a.isFin = true := by
  apply (foldl_sq_fin x 0 _).2
  unfold rmsNorm at h
  generalize x.foldl (fun acc a => acc + a * a) 0 = S at *
  have hpow : ∃ q : Fl R, powSci (.fin (x.length : K)) (1 / 2) = q ∧ (q = .nan ∨ q = .pinf ∨ ∃ c, 0 ≤ c ∧ q = .fin c) := by
    refine ⟨_, rfl, ?_⟩
    generalize (1 / 2 : Fl R) = e
    cases e with
    | fin b =>
      simp only [powSci]
      split
      · exact .inl rfl
      · split
        · split
          · exact .inr (.inl rfl)
          · exact .inr (.inr ⟨0, le_rfl, rfl⟩)
        · rename_i h1 h2
          exact .inr (.inr ⟨_, hp _ _ (lt_of_le_of_ne (not_lt.1 h1) (Ne.symm h2)), rfl⟩)
    | nan => exact .inl rfl
    | ninf => exact .inl rfl
    | pinf => exact .inl rfl
  obtain ⟨q, hq, hq'⟩ := hpow
  rw [hq] at h
  cases S with
  | fin a => rfl
  | nan => exfalso; rcases hq' with rfl | rfl | ⟨c, -, rfl⟩ <;> exact Fl.nan_lt _ h
  | ninf => exfalso; rcases hq' with rfl | rfl | ⟨c, -, rfl⟩ <;> exact Fl.nan_lt _ h
  | pinf =>
    exfalso
    rcases hq' with rfl | rfl | ⟨c, hc, rfl⟩
    · exact Fl.nan_lt _ h
    · exact Fl.nan_lt _ h
    · have : (Fl.sqrt .pinf / .fin c : Fl R) = .pinf := by
        simp [Fl.sqrt, HDiv.hDiv, Div.div, Fl.div, not_lt.2 hc]
      rw [this] at h
      exact Fl.not_pinf_lt _ h

theorem mem_zipWith_of {α β γ : Type} (g : α → β → γ) (P : γ → Prop) (Q : α → Prop) (hg : ∀ a b, P (g a b) → Q a) :
    ∀ (xs : List α) (ys : List β), xs.length = ys.length → (∀ z ∈ List.zipWith g xs ys, P z) → ∀ a ∈ xs, Q a
  | [], _, _, _ => by simp
  | _ :: _, [], h, _ => by simp at h
  | x :: xs, y :: ys, h, hz => by
    intro a ha
    rcases List.mem_cons.1 ha with rfl | ha
    · exact hg _ y (hz _ (by simp))
    · exact mem_zipWith_of g P Q hg xs ys (by simpa using h) (fun z hz' => hz z (by simp [hz'])) a ha

/-- a finite combination combines finite rows -/
theorem comboFl_fin {n : Nat} (row : Vec R) (ks : List (Vec R)) (hl : row.length = ks.length) (hk : ∀ k ∈ ks, k.length = n)
    (h : ∀ x ∈ comboFl n row ks, x.isFin = true) : ∀ k ∈ ks, ∀ x ∈ k, x.isFin = true := by
  unfold comboFl at h
  have key : ∀ (row : Vec R) (ks : List (Vec R)) (acc : Vec R), row.length = ks.length → (∀ k ∈ ks, k.length = n) → acc.length = n →
      (∀ x ∈ (List.zip row ks).foldl (fun acc p => List.zipWith (· + ·) acc (p.2.map (· * p.1))) acc, x.isFin = true) →
      (∀ x ∈ acc, x.isFin = true) ∧ ∀ k ∈ ks, ∀ x ∈ k, x.isFin = true := by
    intro row
    induction row with
    | nil =>
      intro ks acc hl hk ha h
      cases ks with
      | nil => exact ⟨h, by simp⟩
      | cons k ks => simp at hl
    | cons r row ih =>
      intro ks acc hl hk ha h
      cases ks with
      | nil => simp at hl
      | cons k ks =>
        have hkl := hk k (by simp)
        obtain ⟨h1, h2⟩ := ih ks _ (by simpa using hl) (fun k' hk' => hk k' (by simp [hk'])) (by simp [ha, hkl]) h
        have h3 := mem_zipWith_of (· + ·) (fun z : Fl R => z.isFin = true) (fun z => z.isFin = true)
          (fun a b hab => (Fl.isFin_of_add hab).1) acc (k.map (· * r)) (by simp [ha, hkl]) h1
        have h4 : ∀ z ∈ k.map (· * r), z.isFin = true := by
          apply mem_zipWith_of (fun b a => a + b) (fun z : Fl R => z.isFin = true) (fun z => z.isFin = true)
            (fun a b hab => (Fl.isFin_of_add hab).2) (k.map (· * r)) acc (by simp [ha, hkl])
          intro z hz
          apply h1
          rwa [List.zipWith_comm] at hz
        refine ⟨h3, ?_⟩
        intro k' hk' x hx
        rcases List.mem_cons.1 hk' with rfl | hk'
        · exact (Fl.isFin_of_mul (h4 _ (List.mem_map_of_mem hx))).1
        · exact h2 k' hk' x hx
  exact (key row ks _ hl hk (by simp) h).2

theorem toFl_of_fin {n : Nat} {v : Vec R} (hl : v.length = n) (h : ∀ x ∈ v, x.isFin = true) : ∃ w : Fin n → K, v = toFl w := by
  subst hl
  refine ⟨fun i => match v[i] with | .fin x => x | _ => 0, ?_⟩
  apply List.ext_getElem (by simp [toFl])
  intro i h1 h2
  have := h _ (List.getElem_mem h1)
  obtain ⟨x, hx⟩ := (Fl.isFin_iff _).1 this
  simp [toFl, hx]

theorem map_toFl_of_fin {n : Nat} : ∀ {ks : List (Vec R)}, (∀ k ∈ ks, k.length = n) → (∀ k ∈ ks, ∀ x ∈ k, x.isFin = true) →
    ∃ ws : List (Fin n → K), ks = ws.map toFl
  | [], _, _ => ⟨[], rfl⟩
  | k :: ks, hl, hf => by
    obtain ⟨w, hw⟩ := toFl_of_fin (hl k (by simp)) (hf k (by simp))
    obtain ⟨ws, hws⟩ := map_toFl_of_fin (ks := ks) (fun k' hk' => hl k' (by simp [hk'])) (fun k' hk' => hf k' (by simp [hk']))
    exact ⟨w :: ws, by rw [hw, hws]; rfl⟩

theorem fitRow_len {m : Nat} {k k' : Vec R} (h : fitRow m k = .ok k') : k'.length = m := by
  unfold fitRow at h
  split at h
  · cases h; assumption
  · split at h
    · cases h; simp
    · cases h

theorem rkStagesFl_lengths {f : Rhs R} {t h : Fl R} {y : Vec R} : ∀ (st : List (Fl R × Vec R)) (ks ks' : List (Vec R)),
    (∀ k ∈ ks, k.length = y.length) → rkStagesFl f t h y st ks = .ok ks' →
    ks'.length = ks.length + st.length ∧ ∀ k ∈ ks', k.length = y.length
  | [], ks, ks', hk, he => by cases he; exact ⟨rfl, hk⟩
  | (c, row) :: st, ks, ks', hk, he => by
    simp only [rkStagesFl] at he
    obtain ⟨k, h1, he⟩ := Except.bind_ok.1 he
    obtain ⟨k', h2, he⟩ := Except.bind_ok.1 he
    obtain ⟨g1, g2⟩ := rkStagesFl_lengths st (ks ++ [k']) ks' (by
      intro z hz
      rcases List.mem_append.1 hz with hz | hz
      · exact hk z hz
      · simp at hz; subst hz; exact fitRow_len h2) he
    exact ⟨by rw [g1]; simp; omega, g2⟩

end fin

section exact
variable {K : Type} {R : Fmt K} [Field K] [LinearOrder K] [IsStrictOrderedRing K] [Exact R] {n : Nat}

/-- an accepted step in exact arithmetic: a finite step of size `h` from `(t, y)` with finite stages, of estimated error below one -/
structure Accepts (f : Rhs R) (t : K) (y : Fin n → K) (f0 : Vec R) (h : K) (y' : Fin n → K) (ks : List (Fin n → K)) (a : RkAccepted R) : Prop where
  tOld : a.tOld = .fin t
  yOld : a.yOld = toFl y
  size : a.h = .fin h
  len : ks.length = 7
  stages : a.ks = ks.map toFl
  time : a.next.t = .fin (t + h)
  next : a.next.y = toFl y'
  step : rkStepK f (.fin t) (.fin h) (toFl y) f0 = .ok (toFl y', ks.map toFl, a.next.f)
  err : errorNorm (toFl y) (toFl y') (ks.map toFl) (.fin h : Fl R) < 1

theorem dopriE_length : (dopriE : Vec R).length = 7 := rfl

/-- what is accepted has finite stages, and the new state is the Dormand-Prince combination of them -/
theorem rkStepK_fin (hp : PowNonneg R) (hn : 0 < n) {f : Rhs R} {t h : Fl R} {y : Fin n → K} {f0 yNew fNew : Vec R} {ks : List (Vec R)}
    (hf0 : f0.length = n) (hs : rkStepK f t h (toFl y) f0 = .ok (yNew, ks, fNew)) (he : errorNorm (toFl y) yNew ks h < 1) :
    ∃ (h' : K) (ws : List (Fin n → K)), h = .fin h' ∧ ws.length = 7 ∧ ks = ws.map toFl ∧
      yNew = toFl (y + h' • combo (kdopri : KTab K).b ws) ∧ fNew.length = n := by
  unfold rkStepK at hs
  obtain ⟨k6, h1, hs⟩ := Except.bind_ok.1 hs
  obtain ⟨fn', h2, hs⟩ := Except.bind_ok.1 hs
  obtain ⟨fn, h3, hs⟩ := Except.bind_ok.1 hs
  cases hs
  simp only [toFl_length] at *
  obtain ⟨l1, l2⟩ := rkStagesFl_lengths dopri.stages [f0] k6 (by simp [hf0]) h1
  have hfn := fitRow_length h3
  simp only [toFl_length] at l2
  have hk : ∀ k ∈ k6 ++ [fNew], k.length = n := by
    intro k hk
    rcases List.mem_append.1 hk with hk | hk
    · exact l2 k hk
    · simp at hk; subst hk; exact hfn
  have l1' : k6.length = 6 := by rw [l1]; rfl
  have lc := comboFl_length (n := n) (dopriE : Vec R) (k6 ++ [fNew]) hk
  have lb := comboFl_length (n := n) (dopri.b : Vec R) k6 l2
  have e1 := rmsNorm_fin hp he
  simp only [toFl_length] at e1
  have e2 := mem_zipWith_of (· / ·) (fun z : Fl R => z.isFin = true) (fun z => z.isFin = true) (fun a b hab => Fl.isFin_of_div hab) _ _
    (by simp [errorScale, lc, lb]) e1
  have e3 : ∀ z ∈ comboFl n dopriE (k6 ++ [fNew]), z.isFin = true ∧ h.isFin = true := by
    intro z hz
    exact Fl.isFin_of_mul (e2 _ (List.mem_map_of_mem hz))
  have e4 := comboFl_fin (n := n) dopriE (k6 ++ [fNew]) (by simp [dopriE_length, l1']) hk (fun z hz => (e3 z hz).1)
  obtain ⟨ws, hws⟩ := map_toFl_of_fin hk e4
  obtain ⟨z, hz⟩ : ∃ z, z ∈ comboFl n (dopriE : Vec R) (k6 ++ [fNew]) := List.exists_mem_of_length_pos (by rw [lc]; exact hn)
  obtain ⟨h', rfl⟩ := (Fl.isFin_iff h).1 (e3 z hz).2
  have hwl : ws.length = 7 := by
    have := congrArg List.length hws
    simp [l1'] at this; omega
  refine ⟨h', ws, rfl, hwl, hws, ?_, hfn⟩
  have hk6 : k6 = (ws.take 6).map toFl := by
    have := congrArg (List.take 6) hws
    rw [List.take_append_of_le_length (by omega), List.take_of_length_le (by omega)] at this
    rw [this, List.map_take]
  have hb : (dopri.b : Vec R) = (kdopri : KTab K).b.map .fin := congrArg Tableau.b dopri_lift
  rw [hb, hk6, comboFl_lift, toFl_mul_left, toFl_add]
  congr 3
  match ws, hwl with
  | [_, _, _, _, _, _, _], _ => rfl

theorem nan_mul (a : Fl R) : (Fl.nan * a : Fl R) = .nan := by cases a <;> rfl
theorem nan_add (a : Fl R) : (Fl.nan + a : Fl R) = .nan := by cases a <;> rfl
theorem add_nan (a : Fl R) : (a + Fl.nan : Fl R) = .nan := by cases a <;> rfl
theorem mul_nan (a : Fl R) : (a * Fl.nan : Fl R) = .nan := by cases a <;> rfl
theorem nan_sub (a : Fl R) : (Fl.nan - a : Fl R) = .nan := by cases a <;> rfl

/-- where a trial step may end: nowhere, or between `t` and the end of the time span -/
theorem trial_time {δ T t : K} (hδ : δ = 1 ∨ δ = -1) (hT : 0 < δ * (T - t)) {hAbs : Fl R} (hh : ¬ hAbs < .fin 0) :
    (if 0 < Fl.fin δ * ((.fin t + hAbs * .fin δ) - .fin T) then .fin T else .fin t + hAbs * .fin δ : Fl R) = .nan ∨
    ∃ x, (if 0 < Fl.fin δ * ((.fin t + hAbs * .fin δ) - .fin T) then .fin T else .fin t + hAbs * .fin δ : Fl R) = .fin x ∧
      0 ≤ δ * (x - t) ∧ 0 ≤ δ * (T - x) := by
  have hδδ : δ * δ = 1 := by rcases hδ with rfl | rfl <;> norm_num
  cases hAbs with
  | nan =>
    left
    rw [nan_mul, add_nan]
    simp [nan_sub, mul_nan]
  | ninf => exact absurd (Fl.ninf_lt_fin 0) hh
  | pinf =>
    right
    have : (0 : Fl R) < Fl.fin δ * ((.fin t + Fl.pinf * .fin δ) - .fin T) := by
      rcases hδ with rfl | rfl
      · have e : (Fl.pinf * .fin (1 : K) : Fl R) = .pinf := by simp [HMul.hMul, Mul.mul, Fl.mul, Fl.infSign]
        rw [e, show (Fl.fin t + Fl.pinf : Fl R) = .pinf from rfl, show (Fl.pinf - .fin T : Fl R) = .pinf from rfl,
          show (Fl.fin (1 : K) * Fl.pinf : Fl R) = .pinf by simp [HMul.hMul, Mul.mul, Fl.mul, Fl.infSign], Fl.zero_fin]
        exact Fl.fin_lt_pinf 0
      · have h1 : ¬ (0 : K) < -1 := by norm_num
        have e : (Fl.pinf * .fin (-1 : K) : Fl R) = .ninf := by simp [HMul.hMul, Mul.mul, Fl.mul, Fl.infSign, h1]
        rw [e, show (Fl.fin t + Fl.ninf : Fl R) = .ninf from rfl, show (Fl.ninf - .fin T : Fl R) = .ninf from rfl,
          show (Fl.fin (-1 : K) * Fl.ninf : Fl R) = .pinf by simp [HMul.hMul, Mul.mul, Fl.mul, Fl.infSign, h1, Fl.neg], Fl.zero_fin]
        exact Fl.fin_lt_pinf 0
    refine ⟨T, by rw [if_pos this], hT.le, by simp⟩
  | fin x =>
    right
    rw [Fl.fin_lt_fin, not_lt] at hh
    rw [Fl.fin_mul_fin, Fl.fin_add_fin, Fl.fin_sub_fin, Fl.fin_mul_fin, Fl.zero_fin]
    simp only [Fl.fin_lt_fin]
    split
    · exact ⟨T, rfl, hT.le, by simp⟩
    · rename_i h0
      refine ⟨t + x * δ, rfl, ?_, by linarith⟩
      have : δ * (t + x * δ - t) = x * (δ * δ) := by ring
      rw [this, hδδ]; linarith

theorem trial_shrinks {h : Fl R} (hh : h = .nan ∨ ∃ x, h = .fin x) (z : Fl R) : ¬ (h.abs * Fl.pyMax (1 / 5) z : Fl R) < .fin 0 := by
  have e5 : (1 / 5 : Fl R) = .fin (1 / 5) := by
    rw [Fl.one_fin, show (5 : Fl R) = .fin 5 from Fl.ofNat_fin 5, Fl.fin_div_fin _ _ (by norm_num)]
  have hz : Fl.pyMax (1 / 5) z = (.pinf : Fl R) ∨ ∃ c, 0 < c ∧ Fl.pyMax (1 / 5) z = (.fin c : Fl R) := by
    unfold Fl.pyMax
    rw [e5]
    split
    · rename_i h0
      cases z with
      | fin c => rw [Fl.fin_lt_fin] at h0; exact .inr ⟨c, by linarith [show (0 : K) < 1 / 5 by norm_num], rfl⟩
      | pinf => exact .inl rfl
      | ninf => simp at h0
      | nan => simp at h0
    · exact .inr ⟨1 / 5, by norm_num, rfl⟩
  rcases hh with rfl | ⟨x, rfl⟩
  · rw [show (Fl.nan.abs : Fl R) = .nan from rfl, nan_mul]; simp
  · have hx : (0 : K) ≤ if x < 0 then -x else x := by split <;> linarith
    rw [show ((Fl.fin x).abs : Fl R) = .fin (if x < 0 then -x else x) from rfl]
    generalize (if x < 0 then -x else x) = w at hx
    rcases hz with h1 | ⟨c, hc, h1⟩
    · rw [h1]
      have : (Fl.fin w * Fl.pinf : Fl R) = .nan ∨ (Fl.fin w * Fl.pinf : Fl R) = .pinf := by
        show (Fl.infSign w : Fl R) = .nan ∨ (Fl.infSign w : Fl R) = .pinf
        unfold Fl.infSign
        split
        · exact .inl rfl
        · rename_i h0
          rw [if_pos (lt_of_le_of_ne hx (Ne.symm h0))]; exact .inr rfl
      rcases this with h | h <;> rw [h] <;> simp
    · rw [h1, Fl.fin_mul_fin, Fl.fin_lt_fin, not_lt]
      positivity

/-- what the solver's inner loop returns in exact arithmetic is an accepted step that stays within the time span -/
theorem rkTry_accepts (hp : PowNonneg R) (hn : 0 < n) {f : Rhs R} {δ T t : K} (hδ : δ = 1 ∨ δ = -1) (hT : 0 < δ * (T - t))
    {s : RkState R} {y : Fin n → K} (hst : s.t = .fin t) (hsy : s.y = toFl y) (hsf : s.f.length = n) :
    ∀ (fuel : Nat) (hAbs : Fl R) (rejected : Bool) (r : Option (RkAccepted R)), ¬ hAbs < .fin 0 →
      rkTry f (.fin T) (.fin δ) (.fin 0) s fuel hAbs rejected = .ok r →
      ∃ a h ks, r = some a ∧ Accepts f t y s.f h (y + h • combo (kdopri : KTab K).b ks) ks a ∧ 0 ≤ δ * h ∧ 0 ≤ δ * (T - (t + h)) ∧
        a.next.f.length = n
  | 0, _, _, _, _, he => by simp [rkTry] at he
  | fuel + 1, hAbs, rejected, r, hh, he => by
    unfold rkTry at he
    rw [if_neg hh] at he
    simp only at he
    rw [hst] at he
    have htr := trial_time (R := R) hδ hT hh
    generalize (if 0 < (Fl.fin δ : Fl R) * ((Fl.fin t + hAbs * Fl.fin δ) - Fl.fin T) then (Fl.fin T : Fl R) else Fl.fin t + hAbs * Fl.fin δ) = tn
      at htr he
    have hh' : tn - .fin t = (.nan : Fl R) ∨ ∃ x, tn - .fin t = (.fin x : Fl R) := by
      rcases htr with h | ⟨x, h, -⟩
      · left; rw [h, nan_sub]
      · right; exact ⟨x - t, by rw [h, Fl.fin_sub_fin]⟩
    obtain ⟨⟨yNew, ks, fNew⟩, h1, he⟩ := Except.bind_ok.1 he
    simp only at he
    split at he
    · rename_i hen
      cases he
      rw [hsy] at h1 hen
      obtain ⟨h', ws, g1, g2, g3, g4, g5⟩ := rkStepK_fin hp hn hsf h1 hen
      rcases htr with h | ⟨x, hx, hx1, hx2⟩
      · rw [h, nan_sub] at g1; cases g1
      · rw [hx, Fl.fin_sub_fin] at g1
        cases g1
        refine ⟨_, x - t, ws, rfl, ⟨rfl, hsy, by rw [hx, Fl.fin_sub_fin], g2, g3, by simp [hx], g4, ?_, ?_⟩, hx1, by simpa using hx2, g5⟩
        · rw [hx, Fl.fin_sub_fin, g3, g4] at h1; exact h1
        · rw [hx, Fl.fin_sub_fin, g3, g4] at hen; exact hen
    · exact rkTry_accepts hp hn hδ hT hst hsy hsf fuel _ _ r (trial_shrinks hh' _) he

/-- the value of the right-hand side as the solver stores it -/
def Slope (f : Rhs R) (t : K) (y : Fin n → K) (f0 : Vec R) : Prop := ∃ k, f (.fin t) (toFl y) = .ok k ∧ fitRow n k = .ok f0

/-- a sequence of accepted steps from time `t` and state `y` to the end `T` of the time span, where the state is `yf` -/
inductive Steps (f : Rhs R) (δ T : K) : K → (Fin n → K) → List K → List (RkAccepted R) → (Fin n → K) → Prop
  | last {t : K} {y : Fin n → K} {f0 : Vec R} {h : K} {ks : List (Fin n → K)} {a : RkAccepted R} :
      Slope f t y f0 → Accepts f t y f0 h (y + h • combo (kdopri : KTab K).b ks) ks a → t + h = T → 0 < δ * h →
      Steps f δ T t y [h] [a] (y + h • combo (kdopri : KTab K).b ks)
  | cons {t : K} {y yf : Fin n → K} {f0 : Vec R} {h : K} {ks : List (Fin n → K)} {a : RkAccepted R} {hs : List K} {as : List (RkAccepted R)} :
      Slope f t y f0 → Accepts f t y f0 h (y + h • combo (kdopri : KTab K).b ks) ks a → 0 ≤ δ * h → 0 < δ * (T - (t + h)) →
      Steps f δ T (t + h) (y + h • combo (kdopri : KTab K).b ks) hs as yf → Steps f δ T t y (h :: hs) (a :: as) yf

theorem Steps.sum {f : Rhs R} {δ T t : K} {y yf : Fin n → K} {hs : List K} {as : List (RkAccepted R)} (h : Steps f δ T t y hs as yf) :
    hs.sum = T - t := by
  induction h with
  | last _ _ h _ => simp [← h]
  | cons _ _ _ _ _ ih => rw [List.sum_cons, ih]; ring

theorem Steps.sign {f : Rhs R} {δ T t : K} {y yf : Fin n → K} {hs : List K} {as : List (RkAccepted R)} (h : Steps f δ T t y hs as yf) :
    ∀ x ∈ hs, 0 ≤ δ * x := by
  induction h with
  | last _ _ _ h => simpa using h.le
  | cons _ _ h _ _ ih =>
    intro x hx
    rcases List.mem_cons.1 hx with rfl | hx
    · exact h
    · exact ih x hx

/-- an accepted step is a step of the method -/
theorem Accepts.rkStep {f : Rhs R} {t : K} {y y' : Fin n → K} {f0 : Vec R} {h : K} {ks : List (Fin n → K)} {a : RkAccepted R}
    (hf : Slope f t y f0) (ha : Accepts f t y f0 h y' ks a) :
    rkStepFl dopri f (.fin t) (.fin h) (toFl y) = .ok (toFl y' : Vec R) ∧ Slope f (t + h) y' a.next.f := by
  obtain ⟨k, h1, h2⟩ := hf
  have hs := ha.step
  unfold rkStepK at hs
  obtain ⟨k6, g1, hs⟩ := Except.bind_ok.1 hs
  obtain ⟨fn', g2, hs⟩ := Except.bind_ok.1 hs
  obtain ⟨fn, g3, hs⟩ := Except.bind_ok.1 hs
  simp only [pure, Except.pure, Except.ok.injEq, Prod.mk.injEq] at hs
  obtain ⟨e1, e2, e3⟩ := hs
  subst e3
  rw [e1] at g2
  simp only [toFl_length] at g3 e1
  refine ⟨?_, fn', by rw [← Fl.fin_add_fin]; exact g2, g3⟩
  unfold rkStepFl
  rw [h1]
  simp only [bind, Except.bind, toFl_length, h2, g1, pure, Except.pure, e1]

theorem Steps.chain {f : Rhs R} {δ T t : K} {y yf : Fin n → K} {hs : List K} {as : List (RkAccepted R)} (h : Steps f δ T t y hs as yf) :
    rkChainFl dopri f (.fin t) (toFl y) (hs.map .fin) = .ok (toFl yf : Vec R) := by
  induction h with
  | last hf ha _ _ =>
    simp only [List.map_cons, List.map_nil, rkChainFl]
    rw [(ha.rkStep hf).1]
    rfl
  | cons hf ha _ _ _ ih =>
    simp only [List.map_cons, rkChainFl]
    rw [(ha.rkStep hf).1]
    simp only [bind, Except.bind, Fl.fin_add_fin]
    exact ih

theorem rkDrive_steps (hp : PowNonneg R) (hn : 0 < n) {gap : Fl R → Fl R → Fl R} (hg : ∀ t d, gap t d = 0) {f : Rhs R} {δ T : K}
    (hδ : δ = 1 ∨ δ = -1) (fuel : Nat) :
    ∀ (m : Nat) (t : K) (y : Fin n → K) (s : RkState R), 0 < δ * (T - t) → s.t = .fin t → s.y = toFl y → Slope f t y s.f →
      ∀ as ok, rkDrive gap fuel f (.fin T) (.fin δ) m s = .ok (as, ok) → ok = true ∧ ∃ hs yf, Steps f δ T t y hs as yf
  | 0, _, _, _, _, _, _, _, _, _, he => by simp [rkDrive] at he
  | m + 1, t, y, s, hT, hst, hsy, hsf, as, ok, he => by
    have hmin : (10 * gap s.t (.fin δ) : Fl R) = .fin 0 := by
      rw [hg, Fl.zero_fin, show (10 : Fl R) = .fin 10 from Fl.ofNat_fin 10, Fl.fin_mul_fin, mul_zero]
    have hfl : s.f.length = n := by obtain ⟨k, -, h⟩ := hsf; exact fitRow_len h
    unfold rkDrive at he
    obtain ⟨r, h1, he⟩ := Except.bind_ok.1 he
    unfold rkStepImpl at h1
    simp only [hmin] at h1
    obtain ⟨a, h, ks, rfl, ha, g1, g2, g3⟩ := rkTry_accepts hp hn hδ hT hst hsy hfl fuel _ _ r (by
      split
      · simp
      · assumption) h1
    simp only at he
    have hnext := (ha.rkStep hsf).2
    rw [ha.time] at he
    simp only [Fl.fin_sub_fin, Fl.fin_mul_fin, Fl.zero_fin, Fl.fin_le_fin] at he
    split at he
    · rename_i h0
      cases he
      have e : T - (t + h) = 0 := by
        have e0 : δ * (T - (t + h)) = 0 := le_antisymm (by linarith) g2
        rcases hδ with rfl | rfl <;> linarith
      have e' : t + h = T := by linarith
      exact ⟨rfl, _, _, .last hsf ha e' (by rw [show h = T - t by linarith]; exact hT)⟩
    · rename_i h0
      obtain ⟨⟨rest, ok'⟩, h2, he⟩ := Except.bind_ok.1 he
      cases he
      have hT' : 0 < δ * (T - (t + h)) := by
        have : δ * (T - (t + h)) = -(δ * (t + h - T)) := by ring
        rw [this]; linarith [not_le.1 h0]
      obtain ⟨g4, hs, yf, g5⟩ := rkDrive_steps hp hn hg hδ fuel m (t + h) _ a.next hT' ha.time ha.next hnext rest ok' h2
      exact ⟨g4, _, _, .cons hsf ha g1 hT' g5⟩

/-- the columns of `RK45.P` over a field -/
def kdopriP : List (List K) := [
  [1, 0, 0, 0, 0, 0, 0],
  [-8048581381/2820520608, 0, 131558114200/32700410799, -1754552775/470086768, 127303824393/49829197408, -282668133/205662961, 40617522/29380423],
  [8663915743/2820520608, 0, -68118460800/10900136933, 14199869525/1410260304, -318862633887/49829197408, 2019193451/616988883, -110615467/29380423],
  [-12715105075/11282082432, 0, 87487479700/32700410799, -10690763975/1880347072, 701980252875/199316789632, -1453857185/822651844, 69997945/29380423]]

theorem dopriP_lift : (dopriP : List (Vec R)) = (kdopriP : List (List K)).map (·.map .fin) := by
  have e : ∀ a b : ℕ, b ≠ 0 → ∀ x : K, x = (a : K) / b → (Fl.fin (a : K) / Fl.fin (b : K) : Fl R) = .fin x := by
    intro a b hb x hx; rw [div_lit a b hb, hx]
  have e' : ∀ a b : ℕ, b ≠ 0 → ∀ x : K, x = -(a : K) / b → (-(Fl.fin (a : K)) / Fl.fin (b : K) : Fl R) = .fin x := by
    intro a b hb x hx; rw [Fl.neg_fin, Fl.fin_div_fin _ _ (by exact_mod_cast hb), hx]
  unfold dopriP kdopriP
  simp only [List.map_cons, List.map_nil, List.cons.injEq, and_true]
  refine ⟨⟨?_, ?_, ?_, ?_, ?_, ?_, ?_⟩, ⟨?_, ?_, ?_, ?_, ?_, ?_, ?_⟩, ⟨?_, ?_, ?_, ?_, ?_, ?_, ?_⟩, ⟨?_, ?_, ?_, ?_, ?_, ?_, ?_⟩⟩ <;>
  first
    | exact Fl.one_fin
    | exact Fl.zero_fin
    | exact e _ _ (by norm_num) _ (by norm_num)
    | exact e' _ _ (by norm_num) _ (by norm_num)

/-- the interpolant of a step at the fraction `x` of the step -/
def kdense (y : Fin n → K) (h : K) (ks : List (Fin n → K)) (x : K) : Fin n → K :=
  y + h • combo [x, x * x, x * x * x, x * x * x * x] ((kdopriP : List (List K)).map fun col => combo col ks)

theorem denseAt_lift {f : Rhs R} {t : K} {y y' : Fin n → K} {f0 : Vec R} {h : K} {ks : List (Fin n → K)} {a : RkAccepted R} (hh : h ≠ 0)
    (ha : Accepts f t y f0 h y' ks a) (u : K) : denseAt a (.fin u) = (toFl (kdense y h ks ((u - t) / h)) : Vec R) := by
  have e : ∀ x : K, [Fl.fin x, .fin (x * x), .fin (x * x * x), .fin (x * x * x * x)] =
      ([x, x * x, x * x * x, x * x * x * x].map Fl.fin : Vec R) := fun x => rfl
  have e2 : ((kdopriP : List (List K)).map (·.map .fin)).map (fun col => comboFl n col (ks.map toFl : List (Vec R))) =
      ((kdopriP : List (List K)).map fun col => combo col ks).map toFl := by
    rw [List.map_map, List.map_map]
    exact List.map_congr_left fun col _ => comboFl_lift col ks
  unfold denseAt kdense
  simp only [ha.tOld, ha.yOld, ha.size, ha.stages, toFl_length, Fl.fin_sub_fin, Fl.fin_div_fin _ _ hh, Fl.fin_mul_fin]
  rw [dopriP_lift, e2, e, comboFl_lift, toFl_mul_left, toFl_add, add_comm]

theorem kdense_one (y : Fin n → K) (h : K) {ks : List (Fin n → K)} (hk : ks.length = 7) :
    kdense y h ks 1 = y + h • combo (kdopri : KTab K).b ks := by
  obtain ⟨k0, k1, k2, k3, k4, k5, k6, rfl⟩ : ∃ k0 k1 k2 k3 k4 k5 k6, ks = [k0, k1, k2, k3, k4, k5, k6] := by
    match ks, hk with
    | [k0, k1, k2, k3, k4, k5, k6], _ => exact ⟨k0, k1, k2, k3, k4, k5, k6, rfl⟩
  funext i
  simp [kdense, combo, kdopriP, kdopri]
  ring

/-- dense output at the end of a step is the new state -/
theorem dense_end {f : Rhs R} {t : K} {y : Fin n → K} {f0 : Vec R} {h : K} {ks : List (Fin n → K)} {a : RkAccepted R} (hh : h ≠ 0)
    (ha : Accepts f t y f0 h (y + h • combo (kdopri : KTab K).b ks) ks a) :
    denseAt a (.fin (t + h)) = (toFl (y + h • combo (kdopri : KTab K).b ks) : Vec R) := by
  have hk : ks.length = 7 := ha.len
  rw [denseAt_lift hh ha, show (t + h - t) / h = 1 by rw [add_sub_cancel_left, div_self hh], kdense_one y h hk]

/-- among finite sample times that end with the end of the time span, the last one is that of the last step -/
theorem Steps.dense_last {f : Rhs R} {δ T t : K} {y yf : Fin n → K} {hs : List K} {as : List (RkAccepted R)} (hδ : δ = 1 ∨ δ = -1)
    (h : Steps f δ T t y hs as yf) : ∀ te : Vec R, te.getLast? = some (.fin T) → (∀ x ∈ te, ∃ u, x = .fin u ∧ 0 ≤ δ * (T - u)) →
      (denseRows (.fin δ) as te).getLast? = some (.fin T, toFl yf) := by
  have hpos : ((0 : Fl R) < .fin δ) ↔ δ = 1 := by
    rw [Fl.zero_fin, Fl.fin_lt_fin]
    rcases hδ with rfl | rfl
    · simp
    · constructor <;> intro h <;> linarith
  have hreach : ∀ u v : K, (if (0 : Fl R) < .fin δ then decide ((.fin u : Fl R) ≤ .fin v) else decide ((.fin v : Fl R) ≤ .fin u)) =
      decide (0 ≤ δ * (v - u)) := by
    intro u v
    rcases hδ with rfl | rfl
    · rw [if_pos (hpos.2 rfl)]; simp
    · rw [if_neg (fun h => by have := hpos.1 h; linarith)]; simp
  induction h with
  | @last t y f0 h ks a hf ha e hh =>
    intro te hl hx
    have hh0 : h ≠ 0 := by rintro rfl; simp at hh
    have hall : ∀ x ∈ te, (if (0 : Fl R) < .fin δ then decide (x ≤ a.next.t) else decide (a.next.t ≤ x)) = true := by
      intro x hx'
      obtain ⟨u, rfl, hu⟩ := hx x hx'
      rw [ha.time, hreach, e]
      simpa using hu
    simp only [denseRows, List.append_nil]
    rw [List.takeWhile_eq_self_iff.2 hall, List.getLast?_map, hl, ← e]
    simp only [Option.map_some, dense_end hh0 ha]
  | @cons t y yf f0 h ks a hs as hf ha h0 hT hst ih =>
    intro te hl hx
    simp only [denseRows]
    generalize hr : (fun x : Fl R => if (0 : Fl R) < .fin δ then decide (x ≤ a.next.t) else decide (a.next.t ≤ x)) = reached
    have hnot : reached (.fin T) = false := by
      rw [← hr]
      simp only
      rw [ha.time, hreach]
      rw [decide_eq_false_iff_not, not_le]
      have : δ * (t + h - T) = -(δ * (T - (t + h))) := by ring
      linarith
    have hd : (te.dropWhile reached).getLast? = some (.fin T) := by
      have e1 := List.takeWhile_append_dropWhile (p := reached) (l := te)
      cases hdw : te.dropWhile reached with
      | nil =>
        rw [hdw, List.append_nil, List.takeWhile_eq_self_iff] at e1
        have := e1 _ (List.mem_of_getLast? hl)
        rw [hnot] at this
        cases this
      | cons z zs =>
        rw [← e1, hdw, List.getLast?_append] at hl
        rw [List.getLast?_cons] at hl ⊢
        simpa using hl
    have := ih (te.dropWhile reached) hd (fun x hx' => hx x ((List.dropWhile_sublist reached).mem hx'))
    rw [List.getLast?_append, this]
    rfl

theorem Steps.last_state {f : Rhs R} {δ T t : K} {y yf : Fin n → K} {hs : List K} {as : List (RkAccepted R)}
    (h : Steps f δ T t y hs as yf) : ∀ z : Vec R, (z :: as.map (·.next.y)).getLast? = some (toFl yf) := by
  induction h with
  | last _ ha _ _ => intro z; simp [ha.next]
  | cons _ ha _ _ _ ih => intro z; rw [List.map_cons, List.getLast?_cons_cons]; exact ih _

theorem tEvalOk_mem {T : K} {te : Vec R} (hok : tEvalOk (.fin T) te = true) (hf : ∀ x ∈ te, x.isFin = true) :
    ∀ x ∈ te, ∃ u, x = .fin u ∧ min 0 T ≤ u ∧ u ≤ max 0 T := by
  intro x hx
  obtain ⟨u, rfl⟩ := (Fl.isFin_iff x).1 (hf x hx)
  unfold tEvalOk at hok
  rw [Bool.and_eq_true] at hok
  have := List.all_eq_true.1 hok.1 _ hx
  rw [Bool.and_eq_true] at this
  obtain ⟨h1, h2⟩ := this
  have e1 : (Fl.pyMin 0 (.fin T) : Fl R) = .fin (min 0 T) := by
    unfold Fl.pyMin
    simp only [Fl.zero_fin, Fl.fin_lt_fin]
    split
    · rename_i h; rw [min_eq_right h.le]
    · rename_i h; rw [min_eq_left (not_lt.1 h)]
  have e2 : (Fl.pyMax 0 (.fin T) : Fl R) = .fin (max 0 T) := by
    unfold Fl.pyMax
    simp only [Fl.zero_fin, Fl.fin_lt_fin]
    split
    · rename_i h; rw [max_eq_right h.le]
    · rename_i h; rw [max_eq_left (not_lt.1 h)]
  rw [e1] at h1
  rw [e2] at h2
  refine ⟨u, rfl, ?_, ?_⟩
  · simpa using h1
  · simpa using h2

/-- every answer of the solver for a finite end of the time span other than 0 is a sequence of accepted steps -/
theorem scipySolve_steps (hp : PowNonneg R) {gap : Fl R → Fl R → Fl R} (hg : ∀ t d, gap t d = 0) {fuel : Nat} {f : Rhs R} {T : K} (hT : T ≠ 0)
    {y0 : Vec R} {te : Option (Vec R)} {sol : Sol R} (h : scipySolve gap fuel f (.fin T) y0 te = .ok sol) :
    ∃ (n : Nat) (y yf : Fin n → K) (δ : K) (hs : List K) (as : List (RkAccepted R)), y0 = toFl y ∧ (δ = 1 ∨ δ = -1) ∧ 0 < δ * T ∧
      Steps f δ T 0 y hs as yf ∧ sol.success = true ∧
      (∀ ts, te = some ts → tEvalOk (.fin T) ts = true ∧ sol.y = (denseRows (.fin δ) as ts).map Prod.snd ∧
        sol.t = (denseRows (.fin δ) as ts).map Prod.fst) ∧
      (te = none → sol.y = y0 :: as.map (·.next.y)) := by
  unfold scipySolve at h
  split at h
  · cases h
  rename_i hte
  split at h
  · cases h
  rename_i hfin
  split at h
  · cases h
  rename_i hne
  obtain ⟨k, h1, h⟩ := Except.bind_ok.1 h
  obtain ⟨f0, h2, h⟩ := Except.bind_ok.1 h
  have hn : 0 < y0.length := List.length_pos_iff.2 hne
  obtain ⟨y, hy⟩ := toFl_of_fin (n := y0.length) rfl (fun x hx => by
    have : y0.all Fl.isFin = true := by simpa using hfin
    exact List.all_eq_true.1 this x hx)
  have htb : Fl.eqb (.fin T : Fl R) 0 = false := by
    rw [Fl.zero_fin]; simp [Fl.eqb, hT]
  rw [if_neg (by rw [htb]; simp)] at h
  obtain ⟨δ, hδ, hdir, hpos⟩ : ∃ δ : K, (δ = 1 ∨ δ = -1) ∧ npSign (.fin T : Fl R) = .fin δ ∧ 0 < δ * T := by
    unfold npSign
    simp only [Fl.isNan, Bool.false_eq_true, if_false, Fl.zero_fin, Fl.fin_lt_fin]
    rcases lt_or_gt_of_ne hT with hT' | hT'
    · refine ⟨-1, .inr rfl, ?_, by linarith⟩
      rw [if_neg (not_lt.2 hT'.le), if_pos hT', Fl.one_fin, Fl.neg_fin]
    · exact ⟨1, .inl rfl, by rw [if_pos hT', Fl.one_fin], by linarith⟩
  rw [hdir] at h
  obtain ⟨hAbs, -, h⟩ := Except.bind_ok.1 h
  obtain ⟨⟨as, ok⟩, h4, h⟩ := Except.bind_ok.1 h
  have hslope : Slope f 0 y f0 := ⟨k, by rw [← Fl.zero_fin, ← hy]; exact h1, h2⟩
  obtain ⟨hok, hs, yf, hst⟩ := rkDrive_steps hp hn hg hδ fuel fuel 0 y ⟨0, y0, f0, hAbs⟩ (by simpa using hpos) Fl.zero_fin hy hslope as ok h4
  refine ⟨y0.length, y, yf, δ, hs, as, hy, hδ, hpos, hst, ?_⟩
  subst hok
  cases te with
  | none => cases h; exact ⟨rfl, by simp, fun _ => rfl⟩
  | some ts =>
    have hok : tEvalOk (.fin T) ts = true := by simpa using hte
    simp only at h
    cases hrows : denseRows (.fin δ) as ts with
    | nil => rw [hrows] at h; cases h
    | cons r rows =>
      rw [hrows] at h
      cases h
      refine ⟨rfl, ?_, by simp⟩
      intro ts' e
      cases e
      exact ⟨hok, by rw [hrows], by rw [hrows]⟩

/-- **SciPy's RK45 with its error control is a Dormand-Prince method**: whatever it answers ends in the end point of a chain of steps in
the direction of integration that add up to the time span. -/
theorem scipy_isRk (hp : PowNonneg R) {gap : Fl R → Fl R → Fl R} (hg : ∀ t d, gap t d = 0) (fuel : Nat) :
    IsRk dopri (scipyEnv gap fuel : Env R) := by
  intro f T y0 te sol hte h
  simp only [scipyEnv] at h
  by_cases hT : T = 0
  · subst hT
    unfold scipySolve at h
    split at h
    · cases h
    split at h
    · cases h
    split at h
    · cases h
    obtain ⟨k, h1, h⟩ := Except.bind_ok.1 h
    obtain ⟨f0, h2, h⟩ := Except.bind_ok.1 h
    rw [if_pos (by rw [Fl.zero_fin]; simp [Fl.eqb])] at h
    cases te with
    | some ts => cases h
    | none => cases h; exact ⟨[], y0, by simp, by simp, by simp, rfl, rfl⟩
  · obtain ⟨n, y, yf, δ, hs, as, rfl, hδ, hpos, hst, -, h1, h2⟩ := scipySolve_steps hp hg hT h
    refine ⟨hs, toFl yf, by rw [hst.sum, sub_zero], ?_, ?_, by rw [Fl.zero_fin]; exact hst.chain, ?_⟩
    · intro h0 x hx
      have := hst.sign x hx
      rcases hδ with rfl | rfl
      · linarith
      · exfalso; linarith
    · intro h0 x hx
      have := hst.sign x hx
      rcases hδ with rfl | rfl
      · exfalso; linarith
      · linarith
    · cases te with
      | none => rw [h2 rfl]; exact hst.last_state _
      | some ts =>
        obtain ⟨hok, hy, -⟩ := h1 ts rfl
        obtain ⟨hl, hfin⟩ := hte ts rfl
        rw [hy, List.getLast?_map, hst.dense_last hδ ts hl ?_]
        · rfl
        · intro x hx
          obtain ⟨u, rfl, g1, g2⟩ := tEvalOk_mem hok hfin x hx
          refine ⟨u, rfl, ?_⟩
          rcases hδ with rfl | rfl
          · rw [max_eq_right (by linarith)] at g2; linarith
          · rw [min_eq_right (by linarith)] at g1; linarith

end exact
end SAD
