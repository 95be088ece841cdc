import Verif.Lemmas.Rounding
import Verif.Lemmas.RkLift

/-! # Rounding errors of a Runge-Kutta step

Vectors are measured with weights `w`: components of different dimension (positions and velocities) have different scales. -/

set_option linter.unusedSectionVars false

namespace SAD
open Spec

section
variable {K : Type} [Field K] [LinearOrder K] [IsStrictOrderedRing K] {R : Fmt K} {n : ℕ}

/-- `z` is an array of finite floats that approximates `x`, after `k` roundings, relative to the magnitude `a` in units of `w` -/
def NearV (ε : K) (w : Fin n → K) (k : ℕ) (z : Vec R) (x : Fin n → K) (a : K) : Prop :=
  ∃ zz : Fin n → Fl R, z = List.ofFn zz ∧ ∀ i, Near ε k (zz i) (x i) (w i * a)

variable {ε τ M θ Q : K} {w : Fin n → K}

theorem NearV.length {k : ℕ} {z : Vec R} {x : Fin n → K} {a : K} (h : NearV ε w k z x a) : z.length = n := by
  obtain ⟨zz, rfl, -⟩ := h; simp

theorem NearV.mono (hε : 0 ≤ ε) (hw : ∀ i, 0 ≤ w i) {k l : ℕ} {z : Vec R} {x : Fin n → K} {a b : K} (h : NearV ε w k z x a) (hk : k ≤ l)
    (hab : a ≤ b) : NearV ε w l z x b := by
  obtain ⟨zz, hz, h⟩ := h
  exact ⟨zz, hz, fun i => (h i).mono hε hk (mul_le_mul_of_nonneg_left hab (hw i))⟩

theorem NearV.toFl {k : ℕ} {z : Vec R} {x : Fin n → K} {a : K} (h : NearV ε w k z x a) :
    ∃ v : Fin n → K, z = SAD.toFl v ∧ ∀ i, |v i - x i| ≤ ((1 + ε) ^ k - 1) * (w i * a) := by
  obtain ⟨zz, rfl, h⟩ := h
  exact near_ofFn h

/-- nothing overflows up to the magnitude `Q` -/
structure Roomy (R : Fmt K) (ε τ M θ Q : K) (w : Fin n → K) (kmax : ℕ) : Prop where
  rounds : Rounds R ε τ M
  pos : ∀ i, 0 ≤ w i
  under : ∀ i, τ ≤ w i * θ
  under1 : τ ≤ θ
  cap : ∀ i, (1 + ε) ^ kmax * (w i * Q) ≤ M

variable {kmax : ℕ}

theorem Roomy.fits (hr : Roomy R ε τ M θ Q w kmax) {k : ℕ} {a : K} (hk : k ≤ kmax) (ha : 0 ≤ a) (haQ : a ≤ Q) (i : Fin n) :
    (1 + ε) ^ k * (w i * a) ≤ M := by
  have hε := hr.rounds.eps
  refine le_trans (mul_le_mul (pow_le_pow_right₀ (by linarith) hk) (mul_le_mul_of_nonneg_left haQ (hr.pos i)) (mul_nonneg (hr.pos i) ha) ?_) (hr.cap i)
  positivity

theorem Roomy.theta (hr : Roomy R ε τ M θ Q w kmax) : 0 ≤ θ := hr.rounds.tau.trans hr.under1

theorem NearV.add (hr : Roomy R ε τ M θ Q w kmax) {k : ℕ} {z z' : Vec R} {x x' : Fin n → K} {a a' : K} (h : NearV ε w k z x a)
    (h' : NearV ε w k z' x' a') (hk : k ≤ kmax) (ha : 0 ≤ a + a') (hQ : a + a' ≤ Q) :
    NearV ε w (k + 1) (List.zipWith (· + ·) z z') (x + x') (a + a' + θ) := by
  obtain ⟨zz, rfl, h⟩ := h
  obtain ⟨zz', rfl, h'⟩ := h'
  refine ⟨fun i => zz i + zz' i, zipWith_ofFn _ _ _, fun i => ?_⟩
  refine ((h i).add hr.rounds (h' i) ?_).mono hr.rounds.eps le_rfl ?_
  · rw [← mul_add]; exact hr.fits hk ha hQ i
  · rw [mul_add, mul_add]; linarith [hr.under i]

theorem NearV.smul (hr : Roomy R ε τ M θ Q w kmax) {k kc : ℕ} {z : Vec R} {c : Fl R} {x : Fin n → K} {a cx ca : K} (h : NearV ε w k z x a)
    (hc : Near ε kc c cx ca) (hk : k + kc ≤ kmax) (ha : 0 ≤ a) (hQ : ca * a ≤ Q) :
    NearV ε w (k + kc + 1) (z.map (· * c)) (cx • x) (ca * a + θ) := by
  obtain ⟨zz, rfl, h⟩ := h
  refine ⟨fun i => zz i * c, by simp [List.map_ofFn, Function.comp_def], fun i => ?_⟩
  have := (h i).mul hr.rounds hc (by
    rw [show w i * a * ca = w i * (ca * a) by ring]
    exact hr.fits hk (mul_nonneg hc.nonneg ha) hQ i)
  rw [show x i * cx = (cx • x) i by simp [mul_comm]] at this
  refine this.mono hr.rounds.eps le_rfl ?_
  rw [show w i * a * ca = w i * (ca * a) by ring, mul_add]; linarith [hr.under i]

/-- `c * z` with the factor on the left -/
theorem NearV.smul' (hr : Roomy R ε τ M θ Q w kmax) {k kc : ℕ} {z : Vec R} {c : Fl R} {x : Fin n → K} {a cx ca : K} (h : NearV ε w k z x a)
    (hc : Near ε kc c cx ca) (hk : k + kc ≤ kmax) (ha : 0 ≤ a) (hQ : ca * a ≤ Q) :
    NearV ε w (k + kc + 1) (z.map (c * ·)) (cx • x) (ca * a + θ) := by
  have e : z.map (c * ·) = z.map (· * c) := by
    obtain ⟨zz, rfl, h⟩ := h
    obtain ⟨-, cw, rfl, -⟩ := hc
    refine List.map_congr_left fun y hy => ?_
    obtain ⟨i, rfl⟩ := (List.mem_ofFn' _ _).1 hy
    obtain ⟨-, v, hv, -⟩ := h i
    rw [hv]
    show Fl.mul _ _ = Fl.mul _ _
    simp [Fl.mul, mul_comm]
  rw [e]
  exact h.smul hr hc hk ha hQ

/-- magnitude of a combination of stages of magnitudes `Ds` -/
def comboMag (τ θ : K) (row Ds : List K) : K := ((List.zip row Ds).map (fun p => (|p.1| + τ) * p.2 + 2 * θ)).sum

theorem comboMag_cons (c D : K) (row Ds : List K) : comboMag τ θ (c :: row) (D :: Ds) = (|c| + τ) * D + 2 * θ + comboMag τ θ row Ds := by
  simp [comboMag]

theorem comboMag_nonneg (hτ : 0 ≤ τ) (hθ : 0 ≤ θ) : ∀ (row Ds : List K), (∀ D ∈ Ds, 0 ≤ D) → 0 ≤ comboMag τ θ row Ds := by
  intro row Ds h
  refine List.sum_nonneg fun y hy => ?_
  obtain ⟨p, hp, rfl⟩ := List.mem_map.1 hy
  have := h _ (List.of_mem_zip hp).2
  positivity

/-- computed coefficients -/
def NearRow (R : Fmt K) (ε τ : K) (zs : Vec R) (cs : List K) : Prop := List.Forall₂ (fun z c => Near ε 1 z c (|c| + τ)) zs cs

/-- stages with their magnitudes -/
def NearKs (ε : K) (w : Fin n → K) (k : ℕ) (zs : List (Vec R)) (ks : List ((Fin n → K) × K)) : Prop :=
  List.Forall₂ (fun z p => NearV ε w k z p.1 p.2) zs ks

theorem near_comboFold (hr : Roomy R ε τ M θ Q w kmax) {k : ℕ} : ∀ {zs : Vec R} {cs : List K} (_ : NearRow R ε τ zs cs) {kz : List (Vec R)}
    {ks : List ((Fin n → K) × K)} (_ : NearKs ε w k kz ks) (_ : ∀ p ∈ ks, 0 ≤ p.2) {j : ℕ} {acc : Vec R} {x : Fin n → K} {A : K} (_ : k + 2 ≤ j)
    (_ : j + cs.length ≤ kmax) (_ : NearV ε w j acc x A) (_ : 0 ≤ A) (_ : A + comboMag τ θ cs (ks.map (·.2)) ≤ Q),
    NearV ε w (j + cs.length) ((List.zip zs kz).foldl (fun acc p => List.zipWith (· + ·) acc (p.2.map (· * p.1))) acc)
      (x + ((List.zip cs (ks.map (·.1))).map (fun p => p.1 • p.2)).sum) (A + comboMag τ θ cs (ks.map (·.2)))
  | [], [], .nil, kz, ks, _, _, j, acc, x, A, _, _, h, _, _ => by simpa [comboMag] using h
  | z :: zs, c :: cs, .cons hz hzs, [], [], .nil, _, j, acc, x, A, _, _, h, _, _ => by
    simpa [comboMag] using h.mono hr.rounds.eps hr.pos (by omega : j ≤ j + (cs.length + 1)) le_rfl
  | z :: zs, c :: cs, .cons hz hzs, y :: kz, p :: ks, .cons hy hks, hp, j, acc, x, A, hkj, hj, h, hA, hQ => by
    have hε := hr.rounds.eps
    have hτ := hr.rounds.tau
    have hθ := hr.theta
    have hp0 := hp p (by simp)
    have hp' : ∀ q ∈ ks, 0 ≤ q.2 := fun q hq => hp q (by simp [hq])
    have hrest := comboMag_nonneg (τ := τ) (θ := θ) hτ hθ cs (ks.map (·.2)) (by
      intro D hD; obtain ⟨q, hq, rfl⟩ := List.mem_map.1 hD; exact hp' q hq)
    simp only [List.map_cons, comboMag_cons] at hQ ⊢
    simp only [List.length_cons] at hj ⊢
    have hm : 0 ≤ (|c| + τ) * p.2 := by positivity
    have h1 := hy.smul hr hz (by omega) hp0 (by linarith)
    have h2 := h.add hr (h1.mono hε hr.pos (by omega : k + 1 + 1 ≤ j) le_rfl) (by omega) (by linarith) (by linarith)
    have h3 := near_comboFold hr hzs hks hp' (j := j + 1) (by omega) (by omega) h2 (by linarith) (by linarith)
    simp only [List.zip_cons_cons, List.foldl_cons, List.map_cons, List.sum_cons]
    rw [show j + (cs.length + 1) = j + 1 + cs.length by omega,
      show A + ((|c| + τ) * p.2 + 2 * θ + comboMag τ θ cs (ks.map (·.2))) = A + ((|c| + τ) * p.2 + θ) + θ + comboMag τ θ cs (ks.map (·.2)) by ring,
      ← add_assoc]
    exact h3

theorem near_zero (k : ℕ) : NearV ε w k (List.replicate n (0 : Fl R)) 0 0 := by
  refine ⟨fun _ => 0, by simp, fun i => ?_⟩
  rw [mul_zero, Fl.zero_fin]
  exact ⟨by simp, 0, rfl, by simp⟩

theorem near_combo (hr : Roomy R ε τ M θ Q w kmax) {k : ℕ} {zs : Vec R} {cs : List K} (hz : NearRow R ε τ zs cs) {kz : List (Vec R)}
    {ks : List ((Fin n → K) × K)} (hk : NearKs ε w k kz ks) (hp : ∀ p ∈ ks, 0 ≤ p.2) (hkm : k + 2 + cs.length ≤ kmax)
    (hQ : comboMag τ θ cs (ks.map (·.2)) ≤ Q) :
    NearV ε w (k + 2 + cs.length) (comboFl n zs kz) (combo cs (ks.map (·.1))) (comboMag τ θ cs (ks.map (·.2))) := by
  have := near_comboFold hr hz hk hp (j := k + 2) le_rfl hkm (near_zero (R := R) (ε := ε) (w := w) (k + 2)) le_rfl (by simpa using hQ)
  rw [zero_add, zero_add] at this
  rw [combo_eq]
  exact this

/-- stages of the exact method, with the magnitudes of the computed ones -/
def rkStagesMag (F : (Fin n → K) → Fin n → K) (τ θ α μ X H h : K) (y : Fin n → K) :
    List (K × List K) → List ((Fin n → K) × K) → List ((Fin n → K) × K)
  | [], ks => ks
  | (_, row) :: rest, ks => rkStagesMag F τ θ α μ X H h y rest
      (ks ++ [(F (y + h • combo row (ks.map (·.1))), α * (X + (H * comboMag τ θ row (ks.map (·.2)) + θ) + θ) + μ)])

theorem rkStagesMag_fst (F : (Fin n → K) → Fin n → K) (τ θ α μ X H t h : K) (y : Fin n → K) : ∀ (st : List (K × List K)) (ks : List ((Fin n → K) × K)),
    (rkStagesMag F τ θ α μ X H h y st ks).map (·.1) = rkStages (fun _ => F) t h y st (ks.map (·.1))
  | [], ks => rfl
  | (c, row) :: st, ks => by
    rw [rkStagesMag, rkStages, rkStagesMag_fst F τ θ α μ X H t h y st]
    simp

theorem rkStagesMag_mem (F : (Fin n → K) → Fin n → K) (τ θ α μ X H h : K) (y : Fin n → K) : ∀ (st : List (K × List K)) (ks : List ((Fin n → K) × K)),
    ∀ p ∈ ks, p ∈ rkStagesMag F τ θ α μ X H h y st ks
  | [], ks, p, hp => hp
  | (c, row) :: st, ks, p, hp => rkStagesMag_mem F τ θ α μ X H h y st _ p (by simp [hp])

/-- what is needed of the right-hand side: it costs `q` roundings and has magnitude `α Y + μ` at a state of magnitude `Y` -/
def NearField (R : Fmt K) (ε : K) (w : Fin n → K) (kmax : ℕ) (Q α μ : K) (q : ℕ) (f : Rhs R) (F : (Fin n → K) → Fin n → K) : Prop :=
  ∀ (t : Fl R) (k : ℕ) (z : Vec R) (x : Fin n → K) (Y : K), k + q ≤ kmax → NearV ε w k z x Y → 0 ≤ Y → Y ≤ Q →
    ∃ z', f t z = .ok z' ∧ NearV ε w (k + q) z' (F x) (α * Y + μ)

theorem fitRow_of_length {n : ℕ} {z : Vec R} (h : z.length = n) : fitRow n z = .ok z := by simp [fitRow, h]

/-- the loop over the stages -/
theorem near_stages (hr : Roomy R ε τ M θ Q w kmax) {α μ : K} {q : ℕ} {f : Rhs R} {F : (Fin n → K) → Fin n → K} (hα : 0 ≤ α) (hμ : 0 ≤ μ)
    (hf : NearField R ε w kmax Q α μ q f F) {ρ : ℕ} {S D X H h : K} (hS : 0 ≤ S) (hD : 0 ≤ D) (hX : 0 ≤ X) {hz : Fl R} (hh : Near ε 1 hz h H)
    {yz : Vec R} {y : Fin n → K} (hy : NearV ε w 0 yz y X) (hQ1 : S ≤ Q) (hQ2 : X + (H * S + θ) + θ ≤ Q) :
    ∀ {st : List (Fl R × Vec R)} {ts : List (K × List K)} (_ : List.Forall₂ (fun s t => NearRow R ε τ s.2 t.2) st ts)
      (_ : ∀ p ∈ ts, p.2.length ≤ ρ ∧ ∀ Ds : List K, (∀ d ∈ Ds, 0 ≤ d ∧ d ≤ D) → comboMag τ θ p.2 Ds ≤ S)
      {kz : List (Vec R)} {ks : List ((Fin n → K) × K)} {k : ℕ} (_ : NearKs ε w k kz ks) (_ : ∀ p ∈ ks, 0 ≤ p.2)
      (_ : k + ts.length * (ρ + q + 5) ≤ kmax) (_ : ∀ p ∈ rkStagesMag F τ θ α μ X H h y ts ks, p.2 ≤ D) (t : Fl R),
      ∃ kz', rkStagesFl f t hz yz st kz = .ok kz' ∧
        NearKs ε w (k + ts.length * (ρ + q + 5)) kz' (rkStagesMag F τ θ α μ X H h y ts ks) ∧
        ∀ p ∈ rkStagesMag F τ θ α μ X H h y ts ks, 0 ≤ p.2
  | [], [], .nil, _, kz, ks, k, hk, hp, _, _, t => ⟨kz, rfl, by simpa [rkStagesMag] using hk, hp⟩
  | (cz, rz) :: st, (c, row) :: ts, .cons hrow hst, hts, kz, ks, k, hk, hp, hkm, hmag, t => by
    have hε := hr.rounds.eps
    have hθ := hr.theta
    obtain ⟨hlen, hsum⟩ := hts (c, row) (by simp)
    simp only at hlen hsum hrow
    have hDs : ∀ d ∈ ks.map (·.2), 0 ≤ d ∧ d ≤ D := by
      intro d hd
      obtain ⟨p, hp', rfl⟩ := List.mem_map.1 hd
      refine ⟨hp p hp', hmag p ?_⟩
      exact rkStagesMag_mem F τ θ α μ X H h y _ _ p hp'
    have hS' := hsum _ hDs
    have hcm := comboMag_nonneg (τ := τ) (θ := θ) hr.rounds.tau hθ row (ks.map (·.2)) (fun d hd => (hDs d hd).1)
    have hH := hh.nonneg
    simp only [List.length_cons, Nat.add_mul, Nat.one_mul] at hkm ⊢
    have hHS : H * comboMag τ θ row (ks.map (·.2)) ≤ H * S := mul_le_mul_of_nonneg_left hS' hH
    have hHS0 : 0 ≤ H * comboMag τ θ row (ks.map (·.2)) := mul_nonneg hH hcm
    have h1 := near_combo hr hrow hk hp (by omega) (hS'.trans hQ1)
    have h2 := h1.smul hr hh (by omega) hcm (by linarith)
    have h3 := (hy.mono hε hr.pos (Nat.zero_le (k + 2 + row.length + 1 + 1)) le_rfl).add hr h2 (by omega) (by linarith) (by linarith)
    obtain ⟨z', h4, h5⟩ := hf (t + cz * hz) _ _ _ _ (by omega) h3 (by linarith) (by linarith)
    have hnew0 : 0 ≤ α * (X + (H * comboMag τ θ row (ks.map (·.2)) + θ) + θ) + μ := by positivity
    have hk' : NearKs ε w (k + (ρ + q + 5)) (kz ++ [z']) (ks ++ [(F (y + h • combo row (ks.map (·.1))),
        α * (X + (H * comboMag τ θ row (ks.map (·.2)) + θ) + θ) + μ)]) := by
      refine List.rel_append ?_ (.cons ?_ .nil)
      · exact List.Forall₂.imp (fun z p h => h.mono hε hr.pos (by omega) le_rfl) hk
      · exact h5.mono hε hr.pos (by omega) le_rfl
    obtain ⟨kz', g1, g2, g3⟩ := near_stages hr hα hμ hf hS hD hX hh hy hQ1 hQ2 hst (fun p hp => hts p (by simp [hp])) hk'
      (by
        intro p hp'
        rcases List.mem_append.1 hp' with hp' | hp'
        · exact hp p hp'
        · simp at hp'; subst hp'; exact hnew0)
      (by omega) hmag t
    refine ⟨kz', ?_, ?_, g3⟩
    · have hyl : List.length yz = n := hy.length
      rw [rkStagesFl, hyl, h4]
      simp only [bind, Except.bind, fitRow_of_length h5.length]
      exact g1
    · have e : k + (ts.length * (ρ + q + 5) + (ρ + q + 5)) = k + (ρ + q + 5) + ts.length * (ρ + q + 5) := by omega
      rw [rkStagesMag]
      convert g2 using 1

/-- one step -/
theorem near_rkStep (hr : Roomy R ε τ M θ Q w kmax) {α μ : K} {q : ℕ} {f : Rhs R} {F : (Fin n → K) → Fin n → K} (hα : 0 ≤ α) (hμ : 0 ≤ μ)
    (hf : NearField R ε w kmax Q α μ q f F) {ρ : ℕ} {S D X H h : K} (hS : 0 ≤ S) (hD : 0 ≤ D) (hX : 0 ≤ X) {hz : Fl R} (hh : Near ε 1 hz h H)
    {yz : Vec R} {y : Fin n → K} (hy : NearV ε w 0 yz y X) (hQ1 : S ≤ Q) (hQ2 : X + (H * S + θ) + θ ≤ Q)
    {tab : Tableau R} {kt : KTab K} (hst : List.Forall₂ (fun s t => NearRow R ε τ s.2 t.2) tab.stages kt.stages) (hb : NearRow R ε τ tab.b kt.b)
    (hts : ∀ r ∈ kt.b :: kt.stages.map (·.2), r.length ≤ ρ ∧ ∀ Ds : List K, (∀ d ∈ Ds, 0 ≤ d ∧ d ≤ D) → comboMag τ θ r Ds ≤ S)
    (hkm : (kt.stages.length + 1) * (ρ + q + 5) ≤ kmax)
    (hmag : ∀ p ∈ rkStagesMag F τ θ α μ X H h y kt.stages [(F y, α * X + μ)], p.2 ≤ D) (t : Fl R) :
    ∃ z', rkStepFl tab f t hz yz = .ok z' ∧ NearV ε w ((kt.stages.length + 1) * (ρ + q + 5)) z' (rkStep kt (fun _ => F) 0 h y)
      (X + (H * comboMag τ θ kt.b ((rkStagesMag F τ θ α μ X H h y kt.stages [(F y, α * X + μ)]).map (·.2)) + θ) + θ) := by
  have hε := hr.rounds.eps
  have hθ := hr.theta
  have hH := hh.nonneg
  rw [Nat.add_mul, Nat.one_mul] at hkm ⊢
  obtain ⟨hlen, hsum⟩ := hts kt.b (by simp)
  have hXQ : X ≤ Q := by nlinarith [mul_nonneg hH hS]
  obtain ⟨k0, h0, h1⟩ := hf t 0 yz y X (by omega) hy hX hXQ
  have hm0 : 0 ≤ α * X + μ := by positivity
  obtain ⟨kz, h2, h3, h4⟩ := near_stages hr hα hμ hf hS hD hX hh hy hQ1 hQ2 hst
    (fun p hp => hts p.2 (List.mem_cons_of_mem _ (List.mem_map_of_mem hp))) (kz := [k0]) (ks := [(F y, α * X + μ)]) (k := q) (.cons (by simpa using h1) .nil)
    (by simpa using hm0) (by omega) hmag t
  set ks := rkStagesMag F τ θ α μ X H h y kt.stages [(F y, α * X + μ)] with hks
  have hDs : ∀ d ∈ ks.map (·.2), 0 ≤ d ∧ d ≤ D := by
    intro d hd
    obtain ⟨p, hp', rfl⟩ := List.mem_map.1 hd
    exact ⟨h4 p hp', hmag p hp'⟩
  have hS' := hsum _ hDs
  have hcm := comboMag_nonneg (τ := τ) (θ := θ) hr.rounds.tau hθ kt.b (ks.map (·.2)) (fun d hd => (hDs d hd).1)
  have hHS : H * comboMag τ θ kt.b (ks.map (·.2)) ≤ H * S := mul_le_mul_of_nonneg_left hS' hH
  have hHS0 : 0 ≤ H * comboMag τ θ kt.b (ks.map (·.2)) := mul_nonneg hH hcm
  have g1 := near_combo hr hb h3 h4 (by omega) (hS'.trans hQ1)
  have g2 := g1.smul' hr hh (by omega) hcm (by linarith)
  have g3 := (hy.mono hε hr.pos (Nat.zero_le _) le_rfl).add hr g2 (by omega) (by linarith) (by linarith)
  have e := rkStagesMag_fst F τ θ α μ X H 0 h y kt.stages [(F y, α * X + μ)]
  rw [← hks] at e
  rw [e] at g3
  refine ⟨_, ?_, g3.mono hε hr.pos (l := kt.stages.length * (ρ + q + 5) + (ρ + q + 5)) (by omega) le_rfl⟩
  have hyl : List.length yz = n := hy.length
  simp only [rkStepFl, h0, bind, Except.bind, hyl, fitRow_of_length h1.length, h2, pure, Except.pure]

end
end SAD
