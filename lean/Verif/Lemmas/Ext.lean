import Verif.Ext
import Mathlib.Algebra.BigOperators.Group.List.Basic

/-!
# Laws of `Ext K`
-/

set_option linter.unusedSectionVars false

namespace GChop
namespace Ext

variable {K : Type} [Field K] [LinearOrder K] [IsStrictOrderedRing K] [FloorRing K] [HasSqrt K]

omit [IsStrictOrderedRing K] in
@[simp] theorem num_ofRat (r : ℚ) : (Num.ofRat r : Ext K) = fin (r : K) := rfl
omit [IsStrictOrderedRing K] in
@[simp] theorem num_nan : (Num.nan : Ext K) = nan := rfl
omit [IsStrictOrderedRing K] in
@[simp] theorem num_ninf : (Num.ninf : Ext K) = ninf := rfl
omit [IsStrictOrderedRing K] in
@[simp] theorem num_add (a b : K) : (fin a +. fin b : Ext K) = fin (a + b) := rfl
omit [IsStrictOrderedRing K] in
@[simp] theorem num_sub (a b : K) : (fin a -. fin b : Ext K) = fin (a - b) := by
  show fin (a + -b) = _
  rw [sub_eq_add_neg]
omit [IsStrictOrderedRing K] in
@[simp] theorem num_mul (a b : K) : (fin a *. fin b : Ext K) = fin (a * b) := rfl
omit [IsStrictOrderedRing K] in
@[simp] theorem num_neg (a : K) : (Num.neg (fin a) : Ext K) = fin (-a) := rfl
omit [IsStrictOrderedRing K] in
@[simp] theorem num_abs (a : K) : (Num.abs (fin a) : Ext K) = fin |a| := rfl
omit [IsStrictOrderedRing K] in
@[simp] theorem num_sq (a : K) : (Num.sq (fin a) : Ext K) = fin (a * a) := rfl
omit [IsStrictOrderedRing K] in
theorem num_div (a b : K) (h : b ≠ 0) : (fin a /. fin b : Ext K) = fin (a / b) := by
  show (if b = 0 then signInf a else fin (a / b)) = _
  simp [h]
omit [IsStrictOrderedRing K] in
theorem num_div_zero (a : K) : (fin a /. fin 0 : Ext K) = signInf a := by
  show (if (0 : K) = 0 then signInf a else fin (a / 0)) = _
  simp
omit [IsStrictOrderedRing K] in
theorem num_sqrt (a : K) (h : 0 ≤ a) : (Num.sqrt (fin a) : Ext K) = fin (HasSqrt.ksqrt a) := by
  show (if a < 0 then nan else fin (HasSqrt.ksqrt a)) = _
  simp [not_lt.2 h]
omit [IsStrictOrderedRing K] in
@[simp] theorem num_le (a b : K) : (fin a <=. fin b : Bool) = decide (a ≤ b) := rfl
omit [IsStrictOrderedRing K] in
@[simp] theorem num_lt (a b : K) : (fin a <. fin b : Bool) = decide (a < b) := by
  show (decide (a ≤ b) && !decide (b ≤ a)) = _
  by_cases h : a < b
  · simp [h, h.le]
  · simp [h, not_lt.1 h]
omit [IsStrictOrderedRing K] in
@[simp] theorem num_eq (a b : K) : (fin a ==. fin b : Bool) = decide (a = b) := by
  show (decide (a ≤ b) && decide (b ≤ a)) = _
  rcases lt_trichotomy a b with h | h | h
  · simp [h.le, h.ne, h]
  · simp [h]
  · simp [h.le, h.ne', h]
omit [IsStrictOrderedRing K] in
@[simp] theorem num_isNaN (a : K) : Num.isNaN (fin a : Ext K) = false := rfl
omit [IsStrictOrderedRing K] in
@[simp] theorem num_isNaN_nan : Num.isNaN (nan : Ext K) = true := rfl
omit [IsStrictOrderedRing K] in
@[simp] theorem num_isFinite (a : K) : Num.isFinite (fin a : Ext K) = true := rfl
omit [IsStrictOrderedRing K] in
theorem isFinite_iff {a : Ext K} : Num.isFinite a = true ↔ ∃ x, a = fin x := by
  cases a <;> simp [Num.isFinite, isFinite]

omit [IsStrictOrderedRing K] in
theorem foldl_add_fin (l : List K) (a : K) :
    (l.map fin).foldl add (fin a) = (fin (a + l.sum) : Ext K) := by
  induction l generalizing a with
  | nil => simp
  | cons x l ih =>
    simp only [List.map_cons, List.foldl_cons, List.sum_cons]
    show (l.map fin).foldl add (fin (a + x)) = _
    rw [ih, add_assoc]

omit [IsStrictOrderedRing K] in
@[simp] theorem num_sum (l : List K) : (Num.sum (l.map fin) : Ext K) = fin l.sum := by
  show (l.map fin).foldl add (fin 0) = _
  rw [foldl_add_fin, zero_add]

instance : NumIEEE (Ext K) where
  not_nan_of_le := by
    intro a b h
    cases a <;> cases b <;> simp_all [Num.le, le, Num.isNaN, isNaN]
  le_trans := by
    intro a b c h1 h2
    cases a <;> cases b <;> cases c <;> simp_all [Num.le, le]
    exact h1.trans h2
  le_total := by
    intro a b h1 h2
    cases a <;> cases b <;> simp_all [Num.le, le, Num.isNaN, isNaN, _root_.le_total]
  lt_def := fun _ _ => rfl
  eq_def := fun _ _ => rfl
  nan_isNaN := rfl
  finite_not_nan := by intro a h; cases a <;> simp_all [Num.isFinite, isFinite, Num.isNaN, isNaN]
  nan_not_finite := rfl
  finite_of_between := by
    intro a b c h1 h2 h3 h4
    cases a <;> cases b <;> cases c <;> simp_all [Num.isFinite, isFinite, Num.le, le]
  ofRat_finite := fun _ _ => rfl
  ofRat_le := by
    intro a b h _ _
    simpa using h
  neg_one_lt_zero := by simp
  zero_lt_one := by simp
  le_pinf := by intro a h; cases a <;> first | rfl | cases h
  sub_self := by
    intro a h
    obtain ⟨x, rfl⟩ := isFinite_iff.1 h
    simp
  sub_zero := by
    intro a
    cases a <;> simp <;> rfl
  abs_zero := by simp
  mul_zero_eq := by
    intro a h
    obtain ⟨x, rfl⟩ := isFinite_iff.1 h
    simp
  le_add_zero := by
    intro z a c h
    have hz : z = fin 0 := by
      cases z with
      | fin x => simp at h; rw [h]
      | _ => cases h
    subst hz
    cases a with
    | fin x => simp
    | _ => rfl

instance : NumDiv (Ext K) where
  finite_of_not_inf := by
    intro a h1 h2 h3
    cases a with
    | fin x => rfl
    | pinf => cases h3
    | ninf => cases h2
    | nan => cases h1
  zero_lt_pinf := rfl
  abs_neg := by
    intro m h1 h2
    obtain ⟨x, rfl⟩ := isFinite_iff.1 h1
    simp at h2
    simp [h2.ne]
  div_abs_self := by
    intro m h1 h2
    obtain ⟨x, rfl⟩ := isFinite_iff.1 h1
    simp only [num_ofRat, num_lt, Rat.cast_zero, decide_eq_true_eq] at h2
    rw [num_abs, abs_of_neg h2, num_div _ _ (by simpa using h2.ne)]
    simp [div_neg, div_self h2.ne]
  div_mono := by
    intro a b c h1 h2 h3 h4 h5
    obtain ⟨x, rfl⟩ := isFinite_iff.1 h1
    obtain ⟨y, rfl⟩ := isFinite_iff.1 h2
    obtain ⟨z, rfl⟩ := isFinite_iff.1 h3
    simp only [num_ofRat, num_lt, Rat.cast_zero, decide_eq_true_eq, num_le] at h4 h5
    rw [num_div _ _ h4.ne', num_div _ _ h4.ne', num_le, decide_eq_true_eq]
    exact div_le_div_of_nonneg_right h5 h4.le
  zero_div := by
    intro z c h1 h2 h3
    obtain ⟨y, rfl⟩ := isFinite_iff.1 h1
    cases z with
    | fin x =>
      simp only [num_ofRat, num_lt, Rat.cast_zero, decide_eq_true_eq, num_eq] at h2 h3
      subst h3
      rw [num_div _ _ h2.ne']
      simp
    | pinf => cases h3
    | ninf => cases h3
    | nan => cases h3
  zero_div_zero := by
    intro y z h1 h2
    cases y <;> cases z <;> first | cases h1 | cases h2 | skip
    simp only [num_ofRat, Rat.cast_zero, num_eq, decide_eq_true_eq] at h1 h2
    subst h1 h2
    rw [num_abs, abs_zero, num_div_zero]
    simp [signInf]

end Ext
end GChop
