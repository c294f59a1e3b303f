import Verif.Lemmas.Potential
import Verif.Lemmas.Vec
import Mathlib.Algebra.BigOperators.Fin
import Mathlib.Algebra.BigOperators.GroupWithZero.Action
import Mathlib.Algebra.Order.BigOperators.Group.Finset

/-!
# The potential in exact arithmetic
-/

set_option linter.unusedSectionVars false

namespace GChop
open Matrix Pd

variable {K : Type} [Field K] [LinearOrder K] [IsStrictOrderedRing K] [FloorRing K] [HasSqrt K]

instance : Zero (Ext K) := ⟨.fin 0⟩
instance : Add (Ext K) := ⟨Num.add⟩
/-- exact addition with IEEE special values is commutative and associative -/
instance : AddCommMonoid (Ext K) where
  zero_add a := by
    cases a with
    | fin x => show Ext.fin (0 + x) = _; rw [zero_add]
    | _ => rfl
  add_zero a := by
    cases a with
    | fin x => show Ext.fin (x + 0) = _; rw [add_zero]
    | _ => rfl
  add_comm a b := by
    cases a <;> cases b <;> first | rfl | skip
    show Ext.fin _ = Ext.fin _
    rw [add_comm]
  add_assoc a b c := by
    cases a <;> cases b <;> cases c <;> first | rfl | skip
    show Ext.fin _ = Ext.fin _
    rw [add_assoc]
  nsmul := nsmulRec

theorem ext_add (a b : Ext K) : (a +. b) = a + b := rfl
theorem ext_zero : (Ext.fin 0 : Ext K) = 0 := rfl

theorem fin_sum {ι : Type} (s : Finset ι) (f : ι → K) :
    (∑ i ∈ s, Ext.fin (f i) : Ext K) = Ext.fin (∑ i ∈ s, f i) := by
  classical
  induction s using Finset.induction_on with
  | empty => rfl
  | insert a s ha ih => rw [Finset.sum_insert ha, Finset.sum_insert ha, ih]; rfl

theorem num_sum_list (l : List (Ext K)) : Num.sum l = l.sum := by
  have h : ∀ (l : List (Ext K)) (a : Ext K), l.foldl Ext.add a = a + l.sum := by
    intro l
    induction l with
    | nil => intro a; simp
    | cons b l ih =>
      intro a
      rw [List.foldl_cons, ih, List.sum_cons, ← add_assoc]; rfl
  show l.foldl Ext.add (Ext.fin 0) = _
  rw [h, ext_zero, zero_add]

/-- squared distance of two particles -/
def dist2 (a b : KBody K) : K := (a.r - b.r) ⬝ᵥ (a.r - b.r)

theorem dist2_comm (a b : KBody K) : dist2 a b = dist2 b a := by
  simp [dist2, dotProduct, Fin.sum_univ_three]; ring

theorem dist2_nonneg (a b : KBody K) : 0 ≤ dist2 a b := dot_self_nonneg _

theorem getD_map_lt {α β : Type} (l : List α) (f : α → β) (d : β) (i : Nat) (h : i < l.length) :
    (l.map f).getD i d = f l[i] := by
  simp [List.getD, h]

theorem dot_squares (a b c : K) :
    (Num.dot [(Ext.fin a, .fin a), (.fin b, .fin b), (.fin c, .fin c)] : Ext K)
      = .fin (a * a + b * b + c * c) := by
  have : (Num.dot [(Ext.fin a, .fin a), (.fin b, .fin b), (.fin c, .fin c)] : Ext K)
      = Num.sum ([a * a, b * b, c * c].map .fin) := rfl
  rw [this, Ext.num_sum]
  simp [add_assoc]

theorem fortranDist_body (l : List (KBody K)) (soft2 : Ext K) (i j : Nat) (hi : i < l.length)
    (hj : j < l.length) :
    fortranDist (l.map fun k => k.body.x) (l.map fun k => k.body.y) (l.map fun k => k.body.z)
      soft2 i j = Num.sqrt (Ext.fin (dist2 l[i] l[j]) +. soft2) := by
  simp only [fortranDist, getD_map_lt _ _ _ _ hi, getD_map_lt _ _ _ _ hj]
  simp [KBody.body, dist2, dotProduct, Fin.sum_univ_three, dot_squares]

theorem numpyDist_body (l : List (KBody K)) (soft : Ext K) (i j : Nat) (hi : i < l.length)
    (hj : j < l.length) (hij : i ≠ j) :
    numpyDist (l.map fun k => k.body.x) (l.map fun k => k.body.y) (l.map fun k => k.body.z)
      soft i j = Num.sqrt (Ext.fin (dist2 l[i] l[j]) +. Num.sq soft) := by
  simp only [numpyDist, getD_map_lt _ _ _ _ hi, getD_map_lt _ _ _ _ hj, hij, if_false]
  rw [dist2_comm]
  simp [KBody.body, dist2, dotProduct, Fin.sum_univ_three]

/-- the term of particle `b` in the sum for particle `a` -/
def pairTerm (soft2 : Ext K) (a b : KBody K) : Ext K :=
  Ext.fin b.m /. Num.sqrt (Ext.fin (dist2 a b) +. soft2)

theorem fortranInner_sum (x y z m : List (Ext K)) (soft2 : Ext K) (i n : Nat) :
    fortranInner x y z m soft2 i n
      = ∑ j ∈ Finset.range n, if j = i then 0 else
          m.getD j Num.nan /. fortranDist x y z soft2 i j := by
  induction n with
  | zero => simp only [fortranInner, Ext.num_ofRat, Rat.cast_zero, ext_zero, Finset.range_zero,
      Finset.sum_empty]
  | succ n ih =>
    rw [Finset.sum_range_succ, ← ih]
    simp only [fortranInner]
    by_cases h : n = i
    · subst h; simp
    · have h' : i ≠ n := fun e => h e.symm
      simp only [h', ne_eq, not_false_eq_true, if_true, h, if_false]
      rfl

/-- the fortran sum for particle `i` -/
theorem fortranInner_body (l : List (KBody K)) (soft2 : Ext K) (i : Fin l.length) :
    fortranInner (l.map fun k => k.body.x) (l.map fun k => k.body.y) (l.map fun k => k.body.z)
      (l.map fun k => k.body.m) soft2 i l.length
      = ∑ j : Fin l.length, if j = i then 0 else pairTerm soft2 l[i] l[j] := by
  rw [fortranInner_sum, Finset.sum_range]
  apply Finset.sum_congr rfl
  intro j _
  by_cases h : j = i
  · simp [h]
  · have h' : (j : Nat) ≠ i := fun e => h (Fin.ext e)
    simp only [h, h', if_false]
    rw [getD_map_lt _ _ _ _ j.2, fortranDist_body l soft2 i j i.2 j.2]
    rfl

theorem sum_map_range {M : Type} [AddCommMonoid M] (n : Nat) (f : Nat → M) :
    ((List.range n).map f).sum = ∑ j ∈ Finset.range n, f j := by
  induction n with
  | zero => simp
  | succ n ih => rw [List.range_succ, List.map_append, List.sum_append, ih, Finset.sum_range_succ]; simp

/-- the numpy sum for particle `i` -/
theorem numpyRow_body (l : List (KBody K)) (soft : Ext K) (junk : Nat → Nat → Ext K)
    (i : Fin l.length) :
    Num.sum ((List.range l.length).map fun j =>
        if !(numpyDist (l.map fun k => k.body.x) (l.map fun k => k.body.y)
          (l.map fun k => k.body.z) soft i j ==. Num.ofRat 0) then
          (l.map fun k => k.body.m).getD j Num.nan /.
            numpyDist (l.map fun k => k.body.x) (l.map fun k => k.body.y)
              (l.map fun k => k.body.z) soft i j else junk i j)
      = ∑ j : Fin l.length, if j = i then junk i i
          else if (Num.sqrt (Ext.fin (dist2 l[i] l[j]) +. Num.sq soft) ==. Ext.fin 0) = true
            then junk i j else pairTerm (Num.sq soft) l[i] l[j] := by
  rw [num_sum_list, sum_map_range, Finset.sum_range]
  apply Finset.sum_congr rfl
  intro j _
  by_cases h : j = i
  · subst h
    have : numpyDist (l.map fun k => k.body.x) (l.map fun k => k.body.y)
        (l.map fun k => k.body.z) soft j j = Ext.fin 0 := by
      simp [numpyDist]
    simp [this]
  · have h' : (i : Nat) ≠ j := fun e => h (Fin.ext e.symm)
    rw [numpyDist_body l soft i j i.2 j.2 h', getD_map_lt _ _ _ _ j.2]
    simp only [h, if_false, Ext.num_ofRat, Rat.cast_zero]
    cases he : (Num.sqrt (Ext.fin (dist2 l[i] l[j]) +. Num.sq soft) ==. Ext.fin (0 : K)) with
    | true => simp
    | false => simp; rfl

end GChop
