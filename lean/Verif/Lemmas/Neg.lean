import Verif.Lemmas.Binary

/-!
# Arithmetic under a change of sign

Rounding to nearest is symmetric, so a change of sign passes through products, quotients and
differences; only the sign of a zero can differ (`x - x` is `+0.0` in both orders).
-/

set_option linter.unusedSectionVars false

namespace GChop

/-- `y` is minus `x`, or both are zeros. -/
def Opp {F : Type} [Num F] (x y : F) : Prop :=
  y = Num.neg x ∨ ((x ==. Num.ofRat 0) = true ∧ (y ==. Num.ofRat 0) = true)

/-- Laws of IEEE-754 arithmetic about the sign (rounding to nearest). -/
class NumNeg (F : Type) [Num F] : Prop extends NumOrd F where
  neg_nan : Num.neg (Num.nan : F) = Num.nan
  neg_one : Num.neg (Num.ofRat 1 : F) = Num.ofRat (-1)
  neg_neg_one : Num.neg (Num.ofRat (-1) : F) = Num.ofRat 1
  neg_lt_neg : ∀ a b : F, (Num.neg a <. Num.neg b) = (b <. a)
  abs_neg : ∀ a : F, Num.abs (Num.neg a) = Num.abs a
  mul_neg : ∀ a b : F, (a *. Num.neg b) = Num.neg (a *. b)
  neg_mul : ∀ a b : F, (Num.neg a *. b) = Num.neg (a *. b)
  neg_neg : ∀ a : F, Num.neg (Num.neg a) = a
  neg_div : ∀ a b : F, (Num.neg a /. b) = Num.neg (a /. b)
  neg_sub_neg : ∀ a b : F, Opp (a -. b) (Num.neg a -. Num.neg b)
  abs_abs : ∀ a : F, Num.abs (Num.abs a) = Num.abs a
  /-- numbers that compare equal are equal up to the sign of a zero -/
  abs_congr : ∀ {a b : F}, (a ==. b) = true → Num.abs a = Num.abs b
  eq_of_abs : ∀ {a b : F}, Num.abs a = Num.abs b → b = a ∨ b = Num.neg a
  zero_div_any : ∀ {a : F} (c : F), (a ==. Num.ofRat 0) = true →
    ((a /. c) ==. Num.ofRat 0) = true ∨ (a /. c) = Num.nan

section
variable {F : Type} [Num F] [NumNeg F]

theorem NumNeg.sq_neg (a : F) : Num.sq (Num.neg a) = Num.sq a := by
  unfold Num.sq
  rw [NumNeg.neg_mul, NumNeg.mul_neg, NumNeg.neg_neg]

theorem NumNeg.abs_zeros {a b : F} (h1 : (a ==. Num.ofRat 0) = true)
    (h2 : (b ==. Num.ofRat 0) = true) : Num.abs a = Num.abs b :=
  (NumNeg.abs_congr h1).trans (NumNeg.abs_congr h2).symm

theorem Opp.abs {x y : F} (h : Opp x y) : Num.abs y = Num.abs x := by
  rcases h with rfl | ⟨h1, h2⟩
  · exact NumNeg.abs_neg x
  · exact NumNeg.abs_zeros h2 h1

theorem Opp.sq {x y : F} (h : Opp x y) : Num.sq y = Num.sq x := by
  rcases NumNeg.eq_of_abs h.abs.symm with h' | h'
  · rw [h']
  · rw [h', NumNeg.sq_neg]

theorem Opp.div {x y : F} (h : Opp x y) (c : F) : Opp (x /. c) (y /. c) := by
  rcases h with rfl | ⟨h1, h2⟩
  · exact Or.inl (NumNeg.neg_div x c)
  · rcases NumNeg.eq_of_abs (NumNeg.abs_zeros h1 h2) with rfl | rfl
    · rcases NumNeg.zero_div_any c h1 with h | h
      · exact Or.inr ⟨h, h⟩
      · rw [h]; exact Or.inl NumNeg.neg_nan.symm
    · exact Or.inl (NumNeg.neg_div x c)

end

namespace Ext
variable {K : Type} [Field K] [LinearOrder K] [IsStrictOrderedRing K] [FloorRing K] [HasSqrt K]

theorem neg_signInf (x : K) : (signInf (-x) : Ext K) = neg (signInf x) := by
  unfold signInf
  rcases lt_trichotomy x 0 with h | h | h
  · simp [h, not_lt.2 h.le, neg]
  · simp [h, neg]
  · simp [h, not_lt.2 h.le, neg]

theorem neg_neg' (a : Ext K) : neg (neg a) = a := by cases a <;> simp [neg]

theorem opp_iff {x y : Ext K} : Opp x y ↔ y = Num.neg x := by
  constructor
  · rintro (h | ⟨h1, h2⟩)
    · exact h
    · cases x with
      | fin x =>
        cases y with
        | fin y =>
          simp only [num_ofRat, Rat.cast_zero, num_eq, decide_eq_true_eq] at h1 h2
          simp [h1, h2]
        | _ => cases h2
      | _ => cases h1
  · exact Or.inl

instance : NumNeg (Ext K) where
  neg_nan := rfl
  neg_one := by simp
  neg_neg_one := by simp
  neg_lt_neg := by
    intro a b
    cases a <;> cases b <;> first | rfl | simp
  abs_neg := by
    intro a
    cases a with
    | fin x => simp
    | _ => rfl
  mul_neg := by
    intro a b
    cases a <;> cases b <;> first
      | rfl | (simp; done) | exact neg_signInf _ | exact (neg_neg' _).symm
      | exact (congrArg neg (neg_signInf _)).trans rfl
  neg_mul := by
    intro a b
    cases a <;> cases b <;> first
      | rfl | (simp; done) | exact neg_signInf _ | exact (neg_neg' _).symm
      | exact (congrArg neg (neg_signInf _)).trans rfl
  neg_neg := neg_neg'
  neg_div := by
    intro a b
    cases a with
    | fin x =>
      cases b with
      | fin y =>
        show (if y = 0 then signInf (-x) else fin (-x / y)) = neg (if y = 0 then signInf x else fin (x / y))
        split
        · exact neg_signInf x
        · simp [neg, _root_.neg_div]
      | nan => rfl
      | _ => simp only [num_neg]; show fin 0 = neg (fin 0); simp [neg]
    | pinf =>
      cases b with
      | fin y => show (if y < 0 then pinf else ninf) = neg (if y < 0 then ninf else pinf); split <;> rfl
      | _ => rfl
    | ninf =>
      cases b with
      | fin y => show (if y < 0 then ninf else pinf) = neg (if y < 0 then pinf else ninf); split <;> rfl
      | _ => rfl
    | nan => rfl
  neg_sub_neg := by
    intro a b
    refine Or.inl ?_
    cases a <;> cases b <;> first | rfl | (simp; done) | (simp; ring)
  abs_abs := by
    intro a
    cases a with
    | fin x => simp
    | _ => rfl
  abs_congr := by
    intro a b h
    cases a with
    | fin x =>
      cases b with
      | fin y =>
        simp only [num_eq, decide_eq_true_eq] at h
        rw [h]
      | _ => cases h
    | _ => cases b <;> first | rfl | cases h
  eq_of_abs := by
    intro a b h
    cases a with
    | fin x =>
      cases b with
      | fin y =>
        simp only [num_abs, fin.injEq] at h
        rcases abs_eq_abs.1 h with h | h
        · left; rw [h]
        · right; simp [h]
      | _ => cases h
    | pinf => cases b <;> first | (left; rfl) | (right; rfl) | cases h
    | ninf => cases b <;> first | (left; rfl) | (right; rfl) | cases h
    | nan => cases b <;> first | (left; rfl) | cases h
  zero_div_any := by
    intro a c h
    cases a with
    | fin x =>
      simp only [num_ofRat, Rat.cast_zero, num_eq, decide_eq_true_eq] at h
      subst h
      cases c with
      | fin y =>
        by_cases hy : y = 0
        · right; subst hy; rw [num_div_zero]; simp [signInf]
        · left; rw [num_div _ _ hy]; simp
      | pinf => left; show ((fin 0 : Ext K) ==. _) = true; simp
      | ninf => left; show ((fin 0 : Ext K) ==. _) = true; simp
      | nan => right; rfl
    | _ => cases h

end Ext

namespace Flt
variable {fmt : Fmt}

theorem neg_neg' (a : Flt fmt) : neg (neg a) = a := by
  cases a <;> simp [neg]

/-- rounding is symmetric -/
theorem ofExact_neg (z : Bool) (x : ℚ) : (ofExact (!z) (-x) : Flt fmt) = neg (ofExact z x) := by
  have hs : (if -x = 0 then (!z) else decide (-x < 0)) = !(if x = 0 then z else decide (x < 0)) := by
    rcases lt_trichotomy x 0 with h | h | h
    · simp [h.ne, h, h.le]
    · simp [h]
    · simp [h.ne', h, h.le]
  unfold ofExact
  simp only [hs, _root_.abs_neg]
  split <;> rfl

theorem ofExact_of_ne (z w : Bool) {x : ℚ} (h : x ≠ 0) : (ofExact z x : Flt fmt) = ofExact w x := by
  unfold ofExact
  simp [h]

theorem toExt_neg_eq (a : Flt fmt) : toExt (neg a) = Ext.neg (toExt a) := by
  cases a with
  | fin s m => simp [neg, toExt, Ext.neg, sval_not]
  | inf s => cases s <;> rfl
  | nan => rfl

theorem bne_not_left (s t : Bool) : ((!s) != t) = !(s != t) := by cases s <;> cases t <;> rfl
theorem bne_not_right (s t : Bool) : (s != (!t)) = !(s != t) := by cases s <;> cases t <;> rfl

theorem zero_ext {a b : Flt fmt} (h1 : (a ==. Num.ofRat 0) = true) (h2 : (b ==. Num.ofRat 0) = true) :
    ∃ (m : fmt.Mag) (s t : Bool), m.val = 0 ∧ a = fin s m ∧ b = fin t m := by
  obtain ⟨s, m, rfl, hm⟩ := eq_zero_iff.1 h1
  obtain ⟨t, n, rfl, hn⟩ := eq_zero_iff.1 h2
  have : n = m := Fmt.Mag.ext' (by rw [hn, hm])
  exact ⟨m, s, t, hm, rfl, by rw [this]⟩

instance : NumNeg (Flt fmt) where
  neg_nan := rfl
  neg_one := by
    show neg (ofExact false 1) = ofExact false (-1)
    rw [← ofExact_neg]
    exact ofExact_of_ne _ _ (by norm_num)
  neg_neg_one := by
    show neg (ofExact false (-1)) = ofExact false 1
    rw [← ofExact_neg, _root_.neg_neg]
    exact ofExact_of_ne _ _ (by norm_num)
  neg_lt_neg := by
    intro a b
    show Ext.lt (toExt (neg a)) (toExt (neg b)) = Ext.lt (toExt b) (toExt a)
    rw [toExt_neg_eq, toExt_neg_eq]
    exact NumNeg.neg_lt_neg (F := Ext ℚ) (toExt a) (toExt b)
  abs_neg := by intro a; cases a <;> rfl
  mul_neg := by
    intro a b
    show mul a (neg b) = neg (mul a b)
    cases a with
    | fin s m =>
      cases b with
      | fin t n =>
        show ofExact (s != !t) (sval s m * sval (!t) n) = neg (ofExact (s != t) (sval s m * sval t n))
        rw [sval_not, bne_not_right, _root_.mul_neg, ofExact_neg]
      | inf t =>
        show (if m.val = 0 then nan else inf (s != !t)) = neg (if m.val = 0 then nan else inf (s != t))
        rw [bne_not_right]; split <;> rfl
      | nan => rfl
    | inf s =>
      cases b with
      | fin t n =>
        show (if n.val = 0 then nan else inf (s != !t)) = neg (if n.val = 0 then nan else inf (s != t))
        rw [bne_not_right]; split <;> rfl
      | inf t => show inf (s != !t) = inf !(s != t); rw [bne_not_right]
      | nan => rfl
    | nan => rfl
  neg_mul := by
    intro a b
    show mul (neg a) b = neg (mul a b)
    cases a with
    | fin s m =>
      cases b with
      | fin t n =>
        show ofExact ((!s) != t) (sval (!s) m * sval t n) = neg (ofExact (s != t) (sval s m * sval t n))
        rw [sval_not, bne_not_left, _root_.neg_mul, ofExact_neg]
      | inf t =>
        show (if m.val = 0 then nan else inf ((!s) != t)) = neg (if m.val = 0 then nan else inf (s != t))
        rw [bne_not_left]; split <;> rfl
      | nan => rfl
    | inf s =>
      cases b with
      | fin t n =>
        show (if n.val = 0 then nan else inf ((!s) != t)) = neg (if n.val = 0 then nan else inf (s != t))
        rw [bne_not_left]; split <;> rfl
      | inf t => show inf ((!s) != t) = inf !(s != t); rw [bne_not_left]
      | nan => rfl
    | nan => cases b <;> rfl
  neg_neg := neg_neg'
  neg_div := by
    intro a b
    show div (neg a) b = neg (div a b)
    cases a with
    | fin s m =>
      cases b with
      | fin t n =>
        show div (fin (!s) m) (fin t n) = neg (div (fin s m) (fin t n))
        rw [div_fin, div_fin, sval_not, bne_not_left, _root_.neg_div, ofExact_neg]
        split
        · split <;> rfl
        · rfl
      | inf t =>
        show ofExact ((!s) != t) 0 = neg (ofExact (s != t) 0)
        rw [bne_not_left, ← ofExact_neg, neg_zero]
      | nan => rfl
    | inf s =>
      cases b with
      | fin t n => show inf ((!s) != t) = inf !(s != t); rw [bne_not_left]
      | inf t => rfl
      | nan => rfl
    | nan => cases b <;> rfl
  neg_sub_neg := by
    intro a b
    show Opp (add a (neg b)) (add (neg a) (neg (neg b)))
    rw [neg_neg']
    cases a with
    | fin s m =>
      cases b with
      | fin t n =>
        show Opp (ofExact (s && !t) (sval s m + sval (!t) n)) (ofExact ((!s) && t) (sval (!s) m + sval t n))
        rw [sval_not, sval_not]
        by_cases h : sval s m + -sval t n = 0
        · right
          have h' : -sval s m + sval t n = 0 := by linarith
          rw [h, h']
          exact ⟨eq_zero_of_toExt (toExt_ofExact_zero _), eq_zero_of_toExt (toExt_ofExact_zero _)⟩
        · left
          have h' : -sval s m + sval t n = -(sval s m + -sval t n) := by ring
          show _ = neg _
          rw [h', ← ofExact_neg]
          exact ofExact_of_ne _ _ (neg_ne_zero.2 h)
      | inf t => left; show inf t = inf (!(!t)); simp
      | nan => left; rfl
    | inf s =>
      cases b with
      | fin t n => left; rfl
      | inf t => left; cases s <;> cases t <;> rfl
      | nan => left; rfl
    | nan => left; cases b <;> rfl
  abs_abs := by intro a; cases a <;> rfl
  abs_congr := by
    intro a b h
    change Ext.eq (toExt a) (toExt b) = true at h
    have h' : toExt a = toExt b := by
      revert h
      cases toExt a with
      | fin x =>
        cases toExt b with
        | fin y =>
          intro h
          have : (Ext.eq (.fin x) (.fin y) : Bool) = decide (x = y) := Ext.num_eq (K := ℚ) _ _
          rw [this, decide_eq_true_eq] at h
          rw [h]
        | _ => intro h; cases h
      | _ => cases toExt b <;> intro h <;> first | rfl | cases h
    cases a with
    | fin s m =>
      cases b with
      | fin t n =>
        injection h' with h'
        have hv : m.val = n.val := by
          have h1 := m.nonneg
          have h2 := n.nonneg
          unfold sval at h'
          cases s <;> cases t <;> simp only [Bool.false_eq_true, if_false, if_true] at h' <;> linarith
        rw [Fmt.Mag.ext' hv]
        rfl
      | inf t => cases t <;> cases h'
      | nan => cases h'
    | inf s =>
      cases b with
      | inf t => rfl
      | fin t n => cases s <;> cases h'
      | nan => cases s <;> cases h'
    | nan =>
      cases b with
      | nan => rfl
      | fin t n => cases h'
      | inf t => cases t <;> cases h'
  eq_of_abs := by
    intro a b h
    change abs a = abs b at h
    cases a with
    | fin s m =>
      cases b with
      | fin t n =>
        have : m = n := by injection h
        subst this
        cases s <;> cases t <;> first | (left; rfl) | (right; rfl)
      | _ => cases h
    | inf s =>
      cases b with
      | inf t => cases s <;> cases t <;> first | (left; rfl) | (right; rfl)
      | _ => cases h
    | nan =>
      cases b with
      | nan => left; rfl
      | _ => cases h
  zero_div_any := by
    intro a c h
    obtain ⟨s, m, rfl, hm⟩ := eq_zero_iff.1 h
    cases c with
    | fin t n =>
      change (div (fin s m) (fin t n) ==. _) = true ∨ div (fin s m) (fin t n) = nan
      rw [div_fin]
      split
      · right; rfl
      · left
        rw [sval_of_zero hm, _root_.zero_div]
        exact eq_zero_of_toExt (toExt_ofExact_zero _)
    | inf t => left; exact eq_zero_of_toExt (toExt_ofExact_zero _)
    | nan => right; rfl

end Flt
end GChop
