import Verif.Lemmas.Flow
import Mathlib.Algebra.BigOperators.Fin
import Mathlib.Algebra.BigOperators.Pi
import Mathlib.LinearAlgebra.Prod

/-! # Matrices over the field -/

set_option linter.unusedSectionVars false

namespace SAD
open Spec

section superpose
variable {K : Type} [Field K] {V : Type} [AddCommGroup V] [Module K V]

/-- superposition: if the fields superpose, so do all Runge-Kutta chains -/
theorem rkChain_superpose (tab : KTab K) (a b : K) (F1 F2 F3 : K → V → V)
    (h : ∀ t p q, a • F1 t p + b • F2 t q = F3 t (a • p + b • q)) (t : K) (y1 y2 : V) (hs : List K) :
    rkChain tab F3 t (a • y1 + b • y2) hs = a • rkChain tab F1 t y1 hs + b • rkChain tab F2 t y2 hs := by
  let H : K → V × V → V × V := fun t p => (F1 t p.1, F2 t p.2)
  have h1 := rkChain_map tab (LinearMap.fst K V V) H F1 (fun _ _ => rfl) t (y1, y2) hs
  have h2 := rkChain_map tab (LinearMap.snd K V V) H F2 (fun _ _ => rfl) t (y1, y2) hs
  have h3 := rkChain_map tab (a • LinearMap.fst K V V + b • LinearMap.snd K V V) H F3
    (fun t y => by simpa [H] using h t y.1 y.2) t (y1, y2) hs
  simp only [LinearMap.fst_apply, LinearMap.snd_apply, LinearMap.add_apply, LinearMap.smul_apply] at h1 h2 h3
  rw [h1, h2] at h3
  exact h3.symm

end superpose

variable {K : Type} {R : Fmt K} [Field K] [LinearOrder K] [Exact R] {n m : Nat}


/-- matrix times vector -/
def mulVec (A : Fin n → Fin m → K) (v : Fin m → K) : Fin n → K := fun i => ∑ j, A i j * v j

theorem foldl_add_fin (l : List K) (a : K) : (l.map (Fl.fin (R := R))).foldl (· + ·) (.fin a) = .fin (a + l.sum) := by
  induction l generalizing a with
  | nil => simp
  | cons x l ih => simp [ih, add_assoc]

theorem dot_lift (r v : Fin m → K) : dot (toFl r : Vec R) (toFl v) = .fin (∑ j, r j * v j) := by
  have e : List.zipWith (· * ·) (toFl r : Vec R) (toFl v) = (List.ofFn (fun j => r j * v j)).map .fin := by
    simp only [toFl, zipWith_ofFn, List.map_ofFn, Fl.fin_mul_fin]; rfl
  unfold dot
  rw [e, Fl.zero_fin, foldl_add_fin, zero_add, List.sum_ofFn]

theorem matVec_lift (A : Fin n → Fin m → K) (v : Fin m → K) : matVec (toMat A : Mat R) (toFl v) = .ok (toFl (mulVec A v)) := by
  simp only [matVec, toMat, toFl_length, if_true, Except.ok.injEq, List.map_ofFn]
  simp only [toFl, mulVec]
  congr 1
  funext i
  exact dot_lift (A i) v

theorem vadd_lift (a b : Fin n → K) : vadd (toFl a : Vec R) (toFl b) = .ok (toFl (a + b)) := by
  unfold vadd
  rw [bcast2_same (by simp), toFl_add]

theorem mulVec_add (A : Fin n → Fin m → K) (a b : Fin m → K) : mulVec A (a + b) = mulVec A a + mulVec A b := by
  funext i; simp [mulVec, mul_add, Finset.sum_add_distrib]

theorem mulVec_smul (A : Fin n → Fin m → K) (c : K) (a : Fin m → K) : mulVec A (c • a) = c • mulVec A a := by
  funext i
  simp only [mulVec, Pi.smul_apply, smul_eq_mul, Finset.mul_sum]
  apply Finset.sum_congr rfl; intros; ring

theorem affineRhs_lift {f : Vec R → Py (Vec R)} {g : Vec R → Py (Mat R)} {x : Vec R} {a : Fin n → K} {G : Fin n → Fin m → K}
    (hf : f x = .ok (toFl a)) (hg : g x = .ok (toMat G)) (t : Fl R) (u : Fin m → K) :
    affineRhs f g t x (toFl u) = .ok (toFl (a + mulVec G u)) := by
  simp only [affineRhs, hf, hg, bind, Except.bind, matVec_lift, vadd_lift]

end SAD
