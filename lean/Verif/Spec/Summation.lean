import Verif.Binary
import Mathlib.Data.List.Perm.Basic

/-!
# Orders of summation

`np.sum` and `np.dot` do not add from left to right.  `Added l s` says that `s` is a sum of the numbers
in `l` obtained with additions in some order, with extra zeros allowed.  `npSum` is what numpy does for a
contiguous array: `pairwise_sum` of numpy/core/src/umath/loops_utils.h.src, added to the initial zero.
-/

namespace GChop

section
variable {F : Type} [Num F]

/-- `s` is the result of adding up the numbers of `l` in some order -/
inductive Added : List F → F → Prop
  | nil : Added [] (Num.ofRat 0)
  | one (a : F) : Added [a] a
  | zero {l : List F} {s : F} : Added l s → Added l (Num.ofRat 0 +. s)
  | add {l l1 l2 : List F} {s1 s2 : F} : l.Perm (l1 ++ l2) → l1 ≠ [] → l2 ≠ [] → Added l1 s1 →
      Added l2 s2 → Added l (s1 +. s2)

/-- two arrays of the same length, given as pairs, are added up in the same order, with results `s`
and `t` -/
inductive Added2 : List (F × F) → F → F → Prop
  | nil : Added2 [] (Num.ofRat 0) (Num.ofRat 0)
  | one (a b : F) : Added2 [(a, b)] a b
  | zero {l : List (F × F)} {s t : F} : Added2 l s t → Added2 l (Num.ofRat 0 +. s) (Num.ofRat 0 +. t)
  | add {l l1 l2 : List (F × F)} {s1 s2 t1 t2 : F} : l.Perm (l1 ++ l2) → l1 ≠ [] → l2 ≠ [] →
      Added2 l1 s1 t1 → Added2 l2 s2 t2 → Added2 l (s1 +. s2) (t1 +. t2)

/-- the order of the additions depends on the number of summands only -/
def SameOrder (sm : List F → F) : Prop :=
  ∀ l : List (F × F), Added2 l (sm (l.map (·.1))) (sm (l.map (·.2)))

/-- eight running sums, `r[j] += a[i + j]` -/
def lanes (r : F × F × F × F × F × F × F × F) : List F → (F × F × F × F × F × F × F × F) × List F
  | a :: b :: c :: d :: e :: f :: g :: h :: l =>
    lanes (r.1 +. a, r.2.1 +. b, r.2.2.1 +. c, r.2.2.2.1 +. d, r.2.2.2.2.1 +. e, r.2.2.2.2.2.1 +. f,
      r.2.2.2.2.2.2.1 +. g, r.2.2.2.2.2.2.2 +. h) l
  | l => (r, l)

/-- the eight running sums added in pairs, then the rest from left to right -/
def lanesSum (l : List F) : F :=
  match l with
  | a :: b :: c :: d :: e :: f :: g :: h :: l =>
    let q := lanes (a, b, c, d, e, f, g, h) l
    let r := q.1
    q.2.foldl (· +. ·) (((r.1 +. r.2.1) +. (r.2.2.1 +. r.2.2.2.1)) +.
      ((r.2.2.2.2.1 +. r.2.2.2.2.2.1) +. (r.2.2.2.2.2.2.1 +. r.2.2.2.2.2.2.2)))
  | l => l.foldl (· +. ·) (Num.ofRat 0)

/-- `pairwise_sum`: fewer than 8 numbers from left to right, up to 128 with eight running sums, more by
halves whose length is a multiple of eight -/
def pairwiseSum (l : List F) : F :=
  if h : l.length ≤ 128 then lanesSum l
  else
    let n2 := l.length / 2 - l.length / 2 % 8
    pairwiseSum (l.take n2) +. pairwiseSum (l.drop n2)
termination_by l.length
decreasing_by
  · rw [List.length_take]; omega
  · rw [List.length_drop]; omega

/-- `np.sum` of a contiguous array -/
def npSum (l : List F) : F := Num.ofRat 0 +. pairwiseSum l

/-- the same arithmetic with another way to add up an array -/
abbrev Num.withSum (inst : Num F) (s : List F → F) : Num F :=
  { inst with sum := s, dot := fun l => s (l.map fun p => inst.mul p.1 p.2) }

/-- the same arithmetic with another way to add up an array and another dot product -/
abbrev Num.withSumDot (inst : Num F) (s : List F → F) (d : List (F × F) → F) : Num F :=
  { inst with sum := s, dot := d }

end

/-! ## Dot products

The linear algebra library behind `np.dot` may round each product before it is added, or use fused
multiply-add instructions, which round `a * b + c` once. -/

namespace Flt
variable {fmt : Fmt}

/-- fused multiply-add: `a * b + c` rounded once.  An exact zero is `-0.0` only if the product and `c`
are negative zeros.  With an infinity or NaN among the factors or `c` it is what the two operations give. -/
def fma : Flt fmt → Flt fmt → Flt fmt → Flt fmt
  | fin s m, fin t n, fin u k => ofExact ((s != t) && u) (sval s m * sval t n + sval u k)
  | fin _ _, fin _ _, inf u => inf u
  | a, b, c => add (mul a b) c

end Flt

/-- `s` is a dot product of the pairs in `l`: each product is rounded or fused with an addition, in some
order, with extra zeros allowed -/
inductive Fused {fmt : Fmt} : List (Flt fmt × Flt fmt) → Flt fmt → Prop
  | nil : Fused [] (Num.ofRat 0)
  | mul (a b : Flt fmt) : Fused [(a, b)] (a *. b)
  | zero {l : List (Flt fmt × Flt fmt)} {s : Flt fmt} : Fused l s → Fused l (Num.ofRat 0 +. s)
  | add {l l1 l2 : List (Flt fmt × Flt fmt)} {s1 s2 : Flt fmt} : l.Perm (l1 ++ l2) → l1 ≠ [] →
      l2 ≠ [] → Fused l1 s1 → Fused l2 s2 → Fused l (s1 +. s2)
  | fma {l l1 : List (Flt fmt × Flt fmt)} {a b s : Flt fmt} : l.Perm ((a, b) :: l1) → Fused l1 s →
      Fused l (Flt.fma a b s)

/-- one fused multiply-add after the other, starting with zero -/
def fmaChain {fmt : Fmt} (l : List (Flt fmt × Flt fmt)) : Flt fmt :=
  l.foldl (fun s p => Flt.fma p.1 p.2 s) (Num.ofRat 0)

end GChop
