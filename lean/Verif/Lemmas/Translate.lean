import Verif.Lemmas.Flow

/-! # Translating the state

In exact arithmetic a right hand side that does not see the translated components commutes with the translation, on all
data including infinities and NaN.
-/

set_option linter.unusedSectionVars false

namespace SAD
open Spec

variable {K : Type} {R : Fmt K} [Field K] [LinearOrder K] [IsStrictOrderedRing K] [Exact R] {n : Nat}

theorem Fl.add_right_comm_fin (x d : Fl R) (c : K) : x + .fin c + d = x + d + .fin c := by
  cases x <;> cases d <;> first | rfl | (simp [add_right_comm]; done) | (simp; rfl)

theorem Fl.add_zero' (x : Fl R) : x + .fin 0 = x := by
  cases x <;> first | simp; done | rfl

/-- `y + c` -/
def translate (c : Fin n → K) (y : Vec R) : Vec R := List.zipWith (· + ·) y (toFl c)

theorem translate_length (c : Fin n → K) {y : Vec R} (h : y.length = n) : (translate c y).length = n := by
  simp [translate, h]

theorem zipWith_right_comm : ∀ (y d : Vec R) (c : List K),
    List.zipWith (· + ·) (List.zipWith (· + ·) y (c.map .fin)) d = List.zipWith (· + ·) (List.zipWith (· + ·) y d) (c.map .fin)
  | [], _, _ => by simp
  | _ :: _, [], [] => by simp
  | _ :: _, [], _ :: _ => by simp
  | _ :: _, _ :: _, [] => by simp
  | x :: y, a :: d, c :: cs => by
    simp only [List.map_cons, List.zipWith_cons_cons, Fl.add_right_comm_fin]
    rw [zipWith_right_comm y d cs]

theorem toFl_map (c : Fin n → K) : (toFl c : Vec R) = (List.ofFn c).map .fin := by simp [toFl, List.map_ofFn, Function.comp_def]

theorem translate_add (c : Fin n → K) (y d : Vec R) :
    List.zipWith (· + ·) (translate c y) d = translate c (List.zipWith (· + ·) y d) := by
  unfold translate
  rw [toFl_map, zipWith_right_comm]

theorem comboFl_length (row : Vec R) (ks : List (Vec R)) (h : ∀ k ∈ ks, k.length = n) : (comboFl n row ks).length = n := by
  unfold comboFl
  have : ∀ (l : List (Fl R × Vec R)) (acc : Vec R), acc.length = n → (∀ p ∈ l, p.2.length = n) →
      (l.foldl (fun acc p => List.zipWith (· + ·) acc (p.2.map (· * p.1))) acc).length = n := by
    intro l
    induction l with
    | nil => intro acc h _; exact h
    | cons p l ih =>
      intro acc ha hp
      exact ih _ (by simp [ha, hp p (by simp)]) (fun q hq => hp q (by simp [hq]))
  exact this _ _ (by simp) (fun p hp => h _ (List.of_mem_zip hp).2)

theorem fitRow_length {m : Nat} {k k' : Vec R} (h : fitRow m k = .ok k') : k'.length = m := by
  unfold fitRow at h
  split at h
  · cases h; assumption
  · split at h
    · cases h; simp
    · cases h

section
variable {f : Rhs R} {c : Fin n → K}

theorem rkStagesFl_translate (hf : ∀ t y, y.length = n → f t (translate c y) = f t y) (t h : Fl R) {y : Vec R} (hy : y.length = n)
    (st : List (Fl R × Vec R)) (ks : List (Vec R)) (hk : ∀ k ∈ ks, k.length = n) :
    rkStagesFl f t h (translate c y) st ks = rkStagesFl f t h y st ks ∧
    ∀ ks', rkStagesFl f t h y st ks = .ok ks' → ∀ k ∈ ks', k.length = n := by
  induction st generalizing ks with
  | nil => exact ⟨rfl, fun ks' h => by cases h; exact hk⟩
  | cons p st ih =>
    obtain ⟨c', row⟩ := p
    have hl := comboFl_length row ks hk
    have e : f (t + c' * h) (List.zipWith (· + ·) (translate c y) ((comboFl n row ks).map (· * h)))
        = f (t + c' * h) (List.zipWith (· + ·) y ((comboFl n row ks).map (· * h))) := by
      rw [translate_add]
      exact hf _ _ (by simp [hl, hy])
    simp only [rkStagesFl, translate_length c hy, hy, e]
    cases hfv : f (t + c' * h) (List.zipWith (· + ·) y ((comboFl n row ks).map (· * h))) with
    | error x => exact ⟨rfl, fun ks' h => by cases h⟩
    | ok k =>
      simp only [bind, Except.bind]
      cases hr : fitRow n k with
      | error x => exact ⟨rfl, fun ks' h => by cases h⟩
      | ok k' =>
        refine ih _ ?_
        intro q hq
        rcases List.mem_append.1 hq with hq | hq
        · exact hk q hq
        · rw [List.mem_singleton.1 hq]; exact fitRow_length hr

theorem rkStepFl_translate (hf : ∀ t y, y.length = n → f t (translate c y) = f t y) (tab : Tableau R) (t h : Fl R) {y : Vec R}
    (hy : y.length = n) :
    rkStepFl tab f t h (translate c y) = (rkStepFl tab f t h y).map (translate c) ∧
    ∀ y', rkStepFl tab f t h y = .ok y' → y'.length = n := by
  simp only [rkStepFl, hf t y hy, translate_length c hy, hy]
  cases f t y with
  | error x => exact ⟨rfl, fun y' h => by cases h⟩
  | ok k =>
    simp only [bind, Except.bind]
    cases hr : fitRow n k with
    | error x => exact ⟨rfl, fun y' h => by cases h⟩
    | ok k' =>
      simp only
      obtain ⟨h1, h2⟩ := rkStagesFl_translate hf t h hy tab.stages [k'] (by simp [fitRow_length hr])
      rw [h1]
      cases hs : rkStagesFl f t h y tab.stages [k'] with
      | error x => exact ⟨rfl, fun y' h => by cases h⟩
      | ok ks =>
        simp only [pure, Except.pure, Except.map]
        rw [translate_add]
        refine ⟨rfl, fun y' h => ?_⟩
        cases h
        simp [hy, comboFl_length tab.b ks (h2 ks hs)]

theorem rkChainFl_translate (hf : ∀ t y, y.length = n → f t (translate c y) = f t y) (tab : Tableau R) (hs : List (Fl R)) (t : Fl R)
    {y : Vec R} (hy : y.length = n) :
    rkChainFl tab f t (translate c y) hs = (rkChainFl tab f t y hs).map (translate c) ∧
    ∀ y', rkChainFl tab f t y hs = .ok y' → y'.length = n := by
  induction hs generalizing t y with
  | nil => exact ⟨rfl, fun y' h => by cases h; exact hy⟩
  | cons h hs ih =>
    obtain ⟨h1, h2⟩ := rkStepFl_translate hf tab t h hy
    simp only [rkChainFl, h1]
    cases hz : rkStepFl tab f t h y with
    | error x => exact ⟨rfl, fun y' h => by cases h⟩
    | ok z => exact ih (t + h) (h2 z hz)

end

/-- the solver of `rkEnv` with a translation-invariant policy -/
theorem odeStep_translate {policy : Rhs R → K → Vec R → List K} {c : Fin n → K}
    (hpol : ∀ f T y, y.length = n → policy f T (translate c y) = policy f T y) {d : Dyn R} {u : Vec R} (hn : 2 ≤ n)
    (hf : ∀ t y, y.length = n → d.computeStateDot t (translate c y) u = d.computeStateDot t y u) (dt : Fl R) {y : Vec R}
    (hy : y.length = n) :
    (d.odeStep (rkEnv dopri policy) dt (translate c y) u).2
      = (d.odeStep (rkEnv dopri policy) dt y u).2.map (fun p => (translate c p.1, p.2)) ∧
    ∀ p, (d.odeStep (rkEnv dopri policy) dt y u).2 = .ok p → p.1.length = n := by
  unfold Dyn.odeStep
  by_cases h1 : d.integrationMethod = "RK45"
  · simp only [h1, if_true]
    cases dt with
    | nan => exact ⟨rfl, fun p h => by cases h⟩
    | ninf => exact ⟨rfl, fun p h => by cases h⟩
    | pinf => exact ⟨rfl, fun p h => by cases h⟩
    | fin T =>
      simp only [rkEnv, hpol _ _ y hy]
      obtain ⟨k1, k2⟩ := rkChainFl_translate (f := fun t y => d.computeStateDot t y u) hf dopri
        ((schedule T (policy (fun t y => d.computeStateDot t y u) T y)).map .fin) 0 hy
      rw [k1]
      cases hc : rkChainFl dopri (fun t y => d.computeStateDot t y u) 0 y
          ((schedule T (policy (fun t y => d.computeStateDot t y u) T y)).map .fin) with
      | error x => exact ⟨rfl, fun p h => by cases h⟩
      | ok z =>
        simp only [bind, Except.bind, Except.map, pure, Except.pure, lastRow, List.getLast?_cons_cons, List.getLast?_singleton,
          hf _ z (k2 z hc)]
        cases d.computeStateDot (.fin T) z u with
        | error x => exact ⟨rfl, fun p h => by cases h⟩
        | ok sd => exact ⟨rfl, fun p h => by cases h; exact k2 z hc⟩
  · simp only [h1, if_false]
    split
    · split
      · exact ⟨rfl, fun p h => by cases h⟩
      · split
        · exact ⟨rfl, fun p h => by cases h⟩
        · exact ⟨rfl, fun p h => by cases h⟩
    · split
      · split
        · exact ⟨rfl, fun p h => by cases h⟩
        · simp only [hf _ y hy]
          cases d.computeStateDot 0 y u with
          | error x => exact ⟨rfl, fun p h => by cases h⟩
          | ok sd =>
            simp only [bind, Except.bind, vadd, vscale]
            by_cases hl : y.length = sd.length
            · rw [bcast2_same (by simp [translate_length c hy, ← hl, hy]), bcast2_same (by simp [hl]), translate_add]
              exact ⟨rfl, fun p h => by cases h; simp [hy, ← hl]⟩
            · match sd, hl with
              | [], hl =>
                have hl' : ¬ (translate c y).length = 0 := by rw [translate_length c hy]; omega
                have hl2 : ¬ y.length = 0 := by omega
                have g1 : bcast2 (· + ·) (translate c y) (List.map (dt * ·) []) = (.error .valueError : Py (Vec R)) := by
                  unfold bcast2; rw [if_neg (by simpa using hl')]
                  have := translate_length c hy
                  split <;> simp_all <;> omega
                have g2 : bcast2 (· + ·) y (List.map (dt * ·) []) = (.error .valueError : Py (Vec R)) := by
                  unfold bcast2; rw [if_neg (by simpa using hl2)]
                  split <;> simp_all <;> omega
                rw [g1, g2]
                exact ⟨rfl, fun p h => by cases h⟩
              | [x], hl =>
                simp only [List.map_cons, List.map_nil, bcast2_single_right]
                have e : ∀ z : Vec R, z.map (fun a => a + dt * x) = List.zipWith (· + ·) z (List.replicate z.length (dt * x)) := by
                  intro z; induction z with
                  | nil => rfl
                  | cons a z ih => simp [List.replicate_succ, ih]
                rw [e, e, translate_length c hy, hy, translate_add]
                exact ⟨rfl, fun p h => by cases h; simp [hy]⟩
              | x :: x' :: sd, hl =>
                have g : ∀ z : Vec R, z.length = n → ¬ z.length = sd.length + 2 →
                    bcast2 (· + ·) z (List.map (dt * ·) (x :: x' :: sd)) = (.error .valueError : Py (Vec R)) := by
                  intro z h1 h2
                  unfold bcast2
                  rw [if_neg (by simpa using h2)]
                  split <;> simp_all <;> omega
                rw [g _ (translate_length c hy) (by rw [translate_length c hy, ← hy]; simpa using hl), g _ hy (by simpa using hl)]
                exact ⟨rfl, fun p h => by cases h⟩
      · exact ⟨rfl, fun p h => by cases h⟩

end SAD
