import Verif.Spec.Summation

/-!
# Dot products computed in the same way for all numbers
-/

namespace GChop

/-- `s` is a dot product of the pairs on the left of `l`, `t` is one of the pairs on the right, and both
are computed in the same way: the same products are rounded, the same products are fused with an addition,
in the same order. -/
inductive Fused2 {fmt : Fmt} : List ((Flt fmt × Flt fmt) × (Flt fmt × Flt fmt)) → Flt fmt → Flt fmt → Prop
  | nil : Fused2 [] (Num.ofRat 0) (Num.ofRat 0)
  | mul (a b c d : Flt fmt) : Fused2 [((a, b), (c, d))] (a *. b) (c *. d)
  | zero {l : List ((Flt fmt × Flt fmt) × (Flt fmt × Flt fmt))} {s t : Flt fmt} : Fused2 l s t →
      Fused2 l (Num.ofRat 0 +. s) (Num.ofRat 0 +. t)
  | add {l l1 l2 : List ((Flt fmt × Flt fmt) × (Flt fmt × Flt fmt))} {s1 s2 t1 t2 : Flt fmt} :
      l.Perm (l1 ++ l2) → l1 ≠ [] → l2 ≠ [] → Fused2 l1 s1 t1 → Fused2 l2 s2 t2 →
      Fused2 l (s1 +. s2) (t1 +. t2)
  | fma {l l1 : List ((Flt fmt × Flt fmt) × (Flt fmt × Flt fmt))} {a b c d s t : Flt fmt} :
      l.Perm (((a, b), (c, d)) :: l1) → Fused2 l1 s t → Fused2 l (Flt.fma a b s) (Flt.fma c d t)

/-- how a dot product is computed depends on the number of terms only -/
def SameDot {fmt : Fmt} (dt : List (Flt fmt × Flt fmt) → Flt fmt) : Prop :=
  ∀ l : List ((Flt fmt × Flt fmt) × (Flt fmt × Flt fmt)), Fused2 l (dt (l.map (·.1))) (dt (l.map (·.2)))

end GChop
