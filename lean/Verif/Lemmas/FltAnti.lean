import Verif.Lemmas.FltOrder
import Verif.Lemmas.BinarySqrt
import Verif.Lemmas.BinaryErr

/-!
# More about the order of IEEE-754 numbers

Square roots are monotone, quotients of numbers that are not negative fall when the divisor grows,
and adding a number that is not negative does not make a sum smaller.
-/

namespace GChop
namespace Flt
variable {fmt : Fmt}

theorem roundPos_sticky_mono {x y : ℚ} (hx : 0 < x) (h : x ≤ y) :
    fmt.roundPos (sqrtSticky fmt x) ≤ fmt.roundPos (sqrtSticky fmt y) := by
  rcases h.eq_or_lt with rfl | hlt
  · exact le_rfl
  by_contra hc
  push Not at hc
  have hy : 0 < y := hx.trans hlt
  have gx := fmt.roundPos_idem (sticky_nonneg (fmt := fmt) x)
  have gy := fmt.roundPos_idem (sticky_nonneg (fmt := fmt) y)
  have h1 := sqrt_nearest (fmt := fmt) hx (fmt.roundPos_nonneg (sticky_nonneg (fmt := fmt) y)) gy
  have h2 := sqrt_nearest (fmt := fmt) hy (fmt.roundPos_nonneg (sticky_nonneg (fmt := fmt) x)) gx
  have hs : Real.sqrt (x : ℝ) < Real.sqrt (y : ℝ) :=
    Real.sqrt_lt_sqrt (by exact_mod_cast hx.le) (by exact_mod_cast hlt)
  have hc' : ((fmt.roundPos (sqrtSticky fmt y) : ℚ) : ℝ) < (fmt.roundPos (sqrtSticky fmt x) : ℚ) := by
    exact_mod_cast hc
  generalize ((fmt.roundPos (sqrtSticky fmt y) : ℚ) : ℝ) = v at *
  generalize ((fmt.roundPos (sqrtSticky fmt x) : ℚ) : ℝ) = u at *
  generalize Real.sqrt (x : ℝ) = a at *
  generalize Real.sqrt (y : ℝ) = c at *
  rw [← sq_le_sq] at h1 h2
  nlinarith

/-- square roots keep the order of numbers without a minus sign -/
theorem lt_sqrt {a b : Flt fmt} (ha : Plus a) (hb : Plus b) (h : (b <. a) = false) :
    (Num.sqrt b <. Num.sqrt a) = false := by
  rw [lt_false_iff] at *
  show Ext.NotGt (toExt (sqrt a)) (toExt (sqrt b))
  rcases ha with rfl | rfl | ⟨m, rfl⟩
  · left; rfl
  · rcases hb with rfl | rfl | ⟨n, rfl⟩
    · right; left; rfl
    · right; right; rfl
    · simp [Ext.NotGt, toExt, Ext.le] at h
  · rcases hb with rfl | rfl | ⟨n, rfl⟩
    · right; left; rfl
    · have : Plus (sqrt (fin false m)) := Plus.sqrt (Or.inr (Or.inr ⟨m, rfl⟩))
      rcases this with h | h | ⟨k, h⟩ <;> rw [h]
      · left; rfl
      · right; right; rfl
      · right; right; rfl
    · have hmn : m.val ≤ n.val := by simpa [Ext.NotGt, toExt, Ext.le, sval] using h
      simp only [sqrt]
      by_cases hm : m.val = 0
      · have hp : Plus (sqrt (fin false n)) := Plus.sqrt (Or.inr (Or.inr ⟨n, rfl⟩))
        have := hp.toExt
        simp only [sqrt] at this
        simpa [hm, toExt, sval] using this
      · have hm0 : 0 < m.val := lt_of_le_of_ne m.nonneg (Ne.symm hm)
        have hn : n.val ≠ 0 := (hm0.trans_le hmn).ne'
        simp only [hm, hn, if_false, Bool.false_eq_true]
        rw [toExt_ofExact_rnd, toExt_ofExact_rnd]
        have key := roundPos_sticky_mono (fmt := fmt) hm0 hmn
        have e : ∀ x : ℚ, 0 ≤ x → fmt.rnd (.fin x) = fmt.rnd (.fin (fmt.roundPos x)) := by
          intro x hx
          have h0 := fmt.roundPos_nonneg hx
          show fmt.clip _ = fmt.clip _
          rw [fmt.srnd_of_nonneg hx, fmt.srnd_of_nonneg h0, fmt.roundPos_idem hx]
        rw [e _ (sticky_nonneg _), e _ (sticky_nonneg _)]
        exact rnd_mono (Or.inr (Or.inr (decide_eq_true key)))

/-- a quotient does not grow when the divisor does -/
theorem lt_div_anti {a c c' : Flt fmt} (ha : (a <. Num.ofRat 0) = false) (hc : Plus c)
    (hc' : Plus c') (h : (c <. c') = false) : ((a /. c') <. (a /. c)) = false := by
  rw [not_neg_iff] at ha
  rw [lt_false_iff] at *
  rw [toExt_div_rnd _ hc, toExt_div_rnd _ hc']
  apply rnd_mono
  have h1 := hc.toExt
  have h2 := hc'.toExt
  generalize toExt a = a at *
  generalize toExt c = c at *
  generalize toExt c' = c' at *
  cases a with
  | nan => left; cases c <;> rfl
  | ninf => simp [Ext.NotGt, Ext.le] at ha
  | pinf =>
    cases c with
    | nan => left; rfl
    | ninf => simp [Ext.NotGt, Ext.le] at h1
    | pinf => left; rfl
    | fin z =>
      have hz : 0 ≤ z := by simpa [Ext.NotGt, Ext.le] using h1
      cases c' with
      | nan => right; left; rfl
      | ninf => simp [Ext.NotGt, Ext.le] at h2
      | pinf => simp [Ext.NotGt, Ext.le] at h
      | fin w =>
        have hw : 0 ≤ w := by simpa [Ext.NotGt, Ext.le] using h2
        right; right
        simp [Ext.div, not_lt.2 hw, not_lt.2 hz, Ext.le]
  | fin x =>
    have hx : 0 ≤ x := by simpa [Ext.NotGt, Ext.le] using ha
    cases c with
    | nan => left; rfl
    | ninf => simp [Ext.NotGt, Ext.le] at h1
    | pinf =>
      cases c' with
      | nan => right; left; rfl
      | ninf => simp [Ext.NotGt, Ext.le] at h2
      | pinf => right; right; simp [Ext.div, Ext.le]
      | fin w =>
        have hw : 0 ≤ w := by simpa [Ext.NotGt, Ext.le] using h2
        simp only [Ext.div]
        split_ifs
        · rcases hx.eq_or_lt with rfl | hx
          · rw [Ext.signInf_zero]; right; left; rfl
          · rw [Ext.signInf_pos hx]; right; right; rfl
        · right; right
          exact decide_eq_true (div_nonneg hx hw)
    | fin z =>
      have hz : 0 ≤ z := by simpa [Ext.NotGt, Ext.le] using h1
      cases c' with
      | nan => right; left; rfl
      | ninf => simp [Ext.NotGt, Ext.le] at h2
      | pinf => simp [Ext.NotGt, Ext.le] at h
      | fin w =>
        have hw : 0 ≤ w := by simpa [Ext.NotGt, Ext.le] using h2
        have hwz : w ≤ z := by simpa [Ext.NotGt, Ext.le] using h
        simp only [Ext.div]
        by_cases hw0 : w = 0
        · rw [if_pos hw0]
          rcases hx.eq_or_lt with rfl | hx
          · rw [Ext.signInf_zero]; right; left; rfl
          · rw [Ext.signInf_pos hx]
            right; right
            split_ifs
            · rfl
            · rfl
        · have hwp : 0 < w := lt_of_le_of_ne hw (Ne.symm hw0)
          rw [if_neg hw0, if_neg (hwp.trans_le hwz).ne']
          right; right
          exact decide_eq_true (div_le_div_of_nonneg_left hx hwp hwz)

/-- adding a number that is not negative to the larger side -/
theorem lt_add_right {a a' t : Flt fmt} (h : (a' <. a) = false) (ht : (t <. Num.ofRat 0) = false) :
    ((a' +. t) <. a) = false := by
  have := lt_add h ht
  rw [lt_false_iff] at *
  rw [toExt_add_rnd a, show toExt (Num.ofRat 0 : Flt fmt) = .fin 0 from toExt_zero] at this
  have e : fmt.rnd (Ext.add (toExt a) (.fin 0)) = toExt a := by
    cases a with
    | nan => rfl
    | inf s => cases s <;> rfl
    | fin s m =>
      simp only [toExt, Ext.add, add_zero]
      rw [← toExt_ofExact_rnd false, toExt_ofExact_sval]
  rwa [e] at this

end Flt
end GChop
