import Verif.Lemmas.Aero
import Verif.Model.F16
import Verif.Spec.F16
import Mathlib.Tactic.Ring
import Mathlib.Tactic.FieldSimp

/-! # The F-16 in exact arithmetic -/

set_option linter.unusedSectionVars false

namespace SAD.Aero
open SAD

variable {K : Type} {R : Fmt K} [Field K] [LinearOrder K] [IsStrictOrderedRing K] [FloorRing K] [Exact R]

theorem powNat_fin (a : K) (n : ℕ) : powNat (.fin a : Fl R) n = .fin (a ^ n) := by simp [powNat]

theorem sci_fin (m e : ℕ) : (OfScientific.ofScientific m true e : Fl R) = .fin (OfScientific.ofScientific m true e : K) := by
  rw [Fl.ofScientific_exact]
  simp only [Fl.fin.injEq, if_true]
  rw [NNRatCast.ofScientific_eq_ite, if_pos rfl, NNRat.cast_divNat]
  push_cast
  rfl

theorem morelliCx0_fin (alpha de : K) : morelliCx0 (.fin alpha) (.fin de) = (.fin (Spec.poly Spec.tabCx0 alpha de) : Fl R) := by
  unfold morelliCx0 Spec.poly Spec.tabCx0
  simp only [sci_fin, powNat_fin, Fl.neg_fin, Fl.fin_mul_fin, Fl.fin_add_fin, Fl.fin_sub_fin, Fl.one_fin, Fl.fin.injEq]
  simp
  try ring

theorem morelliCxq_fin (alpha beta : K) : morelliCxq (.fin alpha) = (.fin (Spec.poly Spec.tabCxq alpha beta) : Fl R) := by
  unfold morelliCxq Spec.poly Spec.tabCxq
  simp only [sci_fin, powNat_fin, Fl.neg_fin, Fl.fin_mul_fin, Fl.fin_add_fin, Fl.fin_sub_fin, Fl.one_fin, Fl.fin.injEq]
  simp
  try ring

theorem morelliCyp_fin (alpha beta : K) : morelliCyp (.fin alpha) = (.fin (Spec.poly Spec.tabCyp alpha beta) : Fl R) := by
  unfold morelliCyp Spec.poly Spec.tabCyp
  simp only [sci_fin, powNat_fin, Fl.neg_fin, Fl.fin_mul_fin, Fl.fin_add_fin, Fl.fin_sub_fin, Fl.one_fin, Fl.fin.injEq]
  simp
  try ring

theorem morelliCyr_fin (alpha beta : K) : morelliCyr (.fin alpha) = (.fin (Spec.poly Spec.tabCyr alpha beta) : Fl R) := by
  unfold morelliCyr Spec.poly Spec.tabCyr
  simp only [sci_fin, powNat_fin, Fl.neg_fin, Fl.fin_mul_fin, Fl.fin_add_fin, Fl.fin_sub_fin, Fl.one_fin, Fl.fin.injEq]
  simp
  try ring

theorem morelliCz0_fin (alpha beta de : K) : morelliCz0 (.fin alpha) (.fin beta) (.fin de) = (.fin (Spec.poly Spec.tabCz0 alpha beta * (1 - beta ^ 2) - 4.354000e-1 * de) : Fl R) := by
  unfold morelliCz0 Spec.poly Spec.tabCz0
  simp only [sci_fin, powNat_fin, Fl.neg_fin, Fl.fin_mul_fin, Fl.fin_add_fin, Fl.fin_sub_fin, Fl.one_fin, Fl.fin.injEq]
  simp
  try ring

theorem morelliCzq_fin (alpha beta : K) : morelliCzq (.fin alpha) = (.fin (Spec.poly Spec.tabCzq alpha beta) : Fl R) := by
  unfold morelliCzq Spec.poly Spec.tabCzq
  simp only [sci_fin, powNat_fin, Fl.neg_fin, Fl.fin_mul_fin, Fl.fin_add_fin, Fl.fin_sub_fin, Fl.one_fin, Fl.fin.injEq]
  simp
  try ring

theorem morelliCl0_fin (alpha beta : K) : morelliCl0 (.fin alpha) (.fin beta) = (.fin (Spec.poly Spec.tabCl0 alpha beta) : Fl R) := by
  unfold morelliCl0 Spec.poly Spec.tabCl0
  simp only [sci_fin, powNat_fin, Fl.neg_fin, Fl.fin_mul_fin, Fl.fin_add_fin, Fl.fin_sub_fin, Fl.one_fin, Fl.fin.injEq]
  simp
  try ring

theorem morelliClp_fin (alpha beta : K) : morelliClp (.fin alpha) = (.fin (Spec.poly Spec.tabClp alpha beta) : Fl R) := by
  unfold morelliClp Spec.poly Spec.tabClp
  simp only [sci_fin, powNat_fin, Fl.neg_fin, Fl.fin_mul_fin, Fl.fin_add_fin, Fl.fin_sub_fin, Fl.one_fin, Fl.fin.injEq]
  simp
  try ring

theorem morelliClr_fin (alpha beta : K) : morelliClr (.fin alpha) = (.fin (Spec.poly Spec.tabClr alpha beta) : Fl R) := by
  unfold morelliClr Spec.poly Spec.tabClr
  simp only [sci_fin, powNat_fin, Fl.neg_fin, Fl.fin_mul_fin, Fl.fin_add_fin, Fl.fin_sub_fin, Fl.one_fin, Fl.fin.injEq]
  simp
  try ring

theorem morelliClda_fin (alpha beta : K) : morelliClda (.fin alpha) (.fin beta) = (.fin (Spec.poly Spec.tabClda alpha beta) : Fl R) := by
  unfold morelliClda Spec.poly Spec.tabClda
  simp only [sci_fin, powNat_fin, Fl.neg_fin, Fl.fin_mul_fin, Fl.fin_add_fin, Fl.fin_sub_fin, Fl.one_fin, Fl.fin.injEq]
  simp
  try ring

theorem morelliCldr_fin (alpha beta : K) : morelliCldr (.fin alpha) (.fin beta) = (.fin (Spec.poly Spec.tabCldr alpha beta) : Fl R) := by
  unfold morelliCldr Spec.poly Spec.tabCldr
  simp only [sci_fin, powNat_fin, Fl.neg_fin, Fl.fin_mul_fin, Fl.fin_add_fin, Fl.fin_sub_fin, Fl.one_fin, Fl.fin.injEq]
  simp
  try ring

theorem morelliCm0_fin (alpha de : K) : morelliCm0 (.fin alpha) (.fin de) = (.fin (Spec.poly Spec.tabCm0 alpha de) : Fl R) := by
  unfold morelliCm0 Spec.poly Spec.tabCm0
  simp only [sci_fin, powNat_fin, Fl.neg_fin, Fl.fin_mul_fin, Fl.fin_add_fin, Fl.fin_sub_fin, Fl.one_fin, Fl.fin.injEq]
  simp
  try ring

theorem morelliCmq_fin (alpha beta : K) : morelliCmq (.fin alpha) = (.fin (Spec.poly Spec.tabCmq alpha beta) : Fl R) := by
  unfold morelliCmq Spec.poly Spec.tabCmq
  simp only [sci_fin, powNat_fin, Fl.neg_fin, Fl.fin_mul_fin, Fl.fin_add_fin, Fl.fin_sub_fin, Fl.one_fin, Fl.fin.injEq]
  simp
  try ring

theorem morelliCn0_fin (alpha beta : K) : morelliCn0 (.fin alpha) (.fin beta) = (.fin (Spec.poly Spec.tabCn0 alpha beta) : Fl R) := by
  unfold morelliCn0 Spec.poly Spec.tabCn0
  simp only [sci_fin, powNat_fin, Fl.neg_fin, Fl.fin_mul_fin, Fl.fin_add_fin, Fl.fin_sub_fin, Fl.one_fin, Fl.fin.injEq]
  simp
  try ring

theorem morelliCnp_fin (alpha beta : K) : morelliCnp (.fin alpha) = (.fin (Spec.poly Spec.tabCnp alpha beta) : Fl R) := by
  unfold morelliCnp Spec.poly Spec.tabCnp
  simp only [sci_fin, powNat_fin, Fl.neg_fin, Fl.fin_mul_fin, Fl.fin_add_fin, Fl.fin_sub_fin, Fl.one_fin, Fl.fin.injEq]
  simp
  try ring

theorem morelliCnr_fin (alpha beta : K) : morelliCnr (.fin alpha) = (.fin (Spec.poly Spec.tabCnr alpha beta) : Fl R) := by
  unfold morelliCnr Spec.poly Spec.tabCnr
  simp only [sci_fin, powNat_fin, Fl.neg_fin, Fl.fin_mul_fin, Fl.fin_add_fin, Fl.fin_sub_fin, Fl.one_fin, Fl.fin.injEq]
  simp
  try ring

theorem morelliCnda_fin (alpha beta : K) : morelliCnda (.fin alpha) (.fin beta) = (.fin (Spec.poly Spec.tabCnda alpha beta) : Fl R) := by
  unfold morelliCnda Spec.poly Spec.tabCnda
  simp only [sci_fin, powNat_fin, Fl.neg_fin, Fl.fin_mul_fin, Fl.fin_add_fin, Fl.fin_sub_fin, Fl.one_fin, Fl.fin.injEq]
  simp
  try ring

theorem morelliCndr_fin (alpha beta : K) : morelliCndr (.fin alpha) (.fin beta) = (.fin (Spec.poly Spec.tabCndr alpha beta) : Fl R) := by
  unfold morelliCndr Spec.poly Spec.tabCndr
  simp only [sci_fin, powNat_fin, Fl.neg_fin, Fl.fin_mul_fin, Fl.fin_add_fin, Fl.fin_sub_fin, Fl.one_fin, Fl.fin.injEq]
  simp
  try ring
end SAD.Aero
