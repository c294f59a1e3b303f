import Verif.Binary
import Verif.Lemmas.Ext
import Verif.Lemmas.Order

/-!
# Laws of IEEE-754 binary arithmetic

The comparisons go through `Flt.toExt`, so their laws come from `Ext ℚ`; the laws about arithmetic
come from monotonicity and idempotence of rounding.
-/

namespace GChop
namespace Fmt
variable (fmt : Fmt)

variable {fmt} in
theorem Mag.ext' {m n : fmt.Mag} (h : m.val = n.val) : m = n := by
  cases m; cases n; cases h; rfl

theorem one_le_maxFin : 1 ≤ fmt.maxFin := by
  have hp := fmt.prec_pos
  have h1 : (2 : ℚ) ^ (1 - fmt.prec : Int) ≤ 1 :=
    zpow_le_one_of_nonpos₀ (by norm_num) (by omega)
  have h2 : (1 : ℚ) ≤ 2 ^ fmt.emax := one_le_zpow₀ (by norm_num) fmt.emax_nonneg
  unfold maxFin
  nlinarith

theorem maxFin_nonneg : 0 ≤ fmt.maxFin := le_trans (by norm_num) fmt.one_le_maxFin

theorem roundPos_one : fmt.roundPos 1 = 1 := by
  have hp := fmt.prec_pos
  have he := fmt.emin_le
  have hlog : Int.log 2 (1 : ℚ) = 0 := Int.log_one_right 2
  have hu : fmt.uexp 1 ≤ 0 := by unfold uexp; omega
  refine le_antisymm ?_ ?_
  · have := fmt.roundPos_le_pow (x := 1) (e := 0) hu (by simp)
    simpa using this
  · have := fmt.pow_le_roundPos (x := 1) (e := 0) hu (by simp)
    simpa using this

/-- rounding of a signed number -/
def srnd (x : ℚ) : ℚ := if x < 0 then -fmt.roundPos (-x) else fmt.roundPos x

theorem srnd_mono {x y : ℚ} (h : x ≤ y) : fmt.srnd x ≤ fmt.srnd y := by
  unfold srnd
  split_ifs with h1 h2 h2
  · exact neg_le_neg (fmt.roundPos_mono (by linarith) (by linarith))
  · have := fmt.roundPos_nonneg (x := -x) (by linarith)
    have := fmt.roundPos_nonneg (x := y) (by linarith)
    linarith
  · linarith
  · exact fmt.roundPos_mono (by linarith) h

theorem srnd_zero : fmt.srnd 0 = 0 := by simp [srnd, roundPos_zero]
theorem srnd_one : fmt.srnd 1 = 1 := by
  unfold srnd
  rw [if_neg (by norm_num), roundPos_one]
theorem srnd_neg_one : fmt.srnd (-1) = -1 := by
  unfold srnd
  rw [if_pos (by norm_num), neg_neg, roundPos_one]

/-- the special values on overflow -/
def clip (r : ℚ) : Ext ℚ :=
  if |r| ≤ fmt.maxFin then .fin r else if r < 0 then .ninf else .pinf

theorem clip_mono {r s : ℚ} (h : r ≤ s) : Ext.le (fmt.clip r) (fmt.clip s) = true := by
  have hM := fmt.maxFin_nonneg
  unfold clip
  split_ifs with h1 h2 h3 h2 h3 h3 h3 h4 <;> simp only [Ext.le, decide_eq_true_eq]
  · exact h
  all_goals
    exfalso
    simp only [abs_le, not_and_or, not_le] at *
    rcases ‹_ ∨ _› with h5 | h5 <;> linarith

end Fmt

namespace Flt
variable {fmt : Fmt}

theorem toExt_ofExact (z : Bool) (x : ℚ) :
    toExt (ofExact z x : Flt fmt) = fmt.clip (fmt.srnd x) := by
  have habs : |fmt.srnd x| = fmt.roundPos |x| := by
    unfold Fmt.srnd
    split_ifs with h
    · rw [_root_.abs_neg, abs_of_neg h, abs_of_nonneg (fmt.roundPos_nonneg (by linarith))]
    · rw [abs_of_nonneg (not_lt.1 h), abs_of_nonneg (fmt.roundPos_nonneg (not_lt.1 h))]
  unfold ofExact Fmt.clip
  dsimp only
  rw [habs]
  by_cases hle : fmt.roundPos |x| ≤ fmt.maxFin
  · rw [dif_pos hle, if_pos hle]
    simp only [toExt, sval, Ext.fin.injEq]
    rcases lt_trichotomy x 0 with h | h | h
    · simp [Fmt.srnd, h, h.ne, abs_of_neg h]
    · subst h
      simp [Fmt.srnd, Fmt.roundPos_zero]
    · simp [Fmt.srnd, h.ne', not_lt.2 h.le, abs_of_pos h]
  · rw [dif_neg hle, if_neg hle]
    have hM := fmt.maxFin_nonneg
    rcases lt_trichotomy x 0 with h | h | h
    · have h0 : fmt.srnd x < 0 := by
        unfold Fmt.srnd
        rw [if_pos h]
        rw [abs_of_neg h] at hle
        push Not at hle
        linarith
      simp [h, h.ne, h0, toExt]
    · subst h
      simp [Fmt.roundPos_zero, hM] at hle
    · have h0 : ¬ fmt.srnd x < 0 := by
        unfold Fmt.srnd
        rw [if_neg (not_lt.2 h.le)]
        exact not_lt.2 (fmt.roundPos_nonneg h.le)
      simp [h.ne', not_lt.2 h.le, h0, toExt]

theorem ofExact_mono (z w : Bool) {x y : ℚ} (h : x ≤ y) :
    Ext.le (toExt (ofExact z x : Flt fmt)) (toExt (ofExact w y : Flt fmt)) = true := by
  rw [toExt_ofExact, toExt_ofExact]
  exact fmt.clip_mono (fmt.srnd_mono h)

/-- a number of the format is not changed -/
theorem toExt_ofExact_sval (z s : Bool) (m : fmt.Mag) :
    toExt (ofExact z (sval s m) : Flt fmt) = .fin (sval s m) := by
  rw [toExt_ofExact]
  have hs : fmt.srnd (sval s m) = sval s m := by
    unfold sval Fmt.srnd
    have h0 := m.nonneg
    have hr := m.grid
    cases s with
    | false => simp [not_lt.2 h0, hr]
    | true =>
      rcases h0.eq_or_lt with h | h
      · simp [← h, Fmt.roundPos_zero]
      · simp [h, hr]
  rw [hs]
  unfold Fmt.clip
  have : |sval s m| = m.val := by
    unfold sval
    cases s
    · simpa using m.nonneg
    · simpa using m.nonneg
  rw [this, if_pos m.le_max]

theorem ofExact_sval (s : Bool) (m : fmt.Mag) : ofExact s (sval s m) = fin s m := by
  have h0 := m.nonneg
  have hr := m.grid
  have habs : |sval s m| = m.val := by
    unfold sval
    cases s
    · simpa using h0
    · simpa using h0
  unfold ofExact
  dsimp only
  have e : fmt.roundPos |sval s m| = m.val := by rw [habs, hr]
  rw [dif_pos (by rw [e]; exact m.le_max)]
  congr 1
  swap
  · exact Fmt.Mag.ext' e
  · split_ifs with h
    · rfl
    · unfold sval at h ⊢
      cases s
      · simpa using h0
      · simp only [if_true] at h ⊢
        have : m.val ≠ 0 := by simpa using h
        simpa using lt_of_le_of_ne h0 (Ne.symm this)

theorem toExt_zero : toExt (ofExact false 0 : Flt fmt) = .fin 0 := by
  rw [toExt_ofExact, Fmt.srnd_zero]
  simp [Fmt.clip, fmt.maxFin_nonneg]

theorem toExt_one : toExt (ofExact false 1 : Flt fmt) = .fin 1 := by
  rw [toExt_ofExact, Fmt.srnd_one]
  simp [Fmt.clip, fmt.one_le_maxFin]

theorem toExt_neg_one : toExt (ofExact false (-1) : Flt fmt) = .fin (-1) := by
  rw [toExt_ofExact, Fmt.srnd_neg_one]
  simp [Fmt.clip, fmt.one_le_maxFin]

theorem isFinite_iff {a : Flt fmt} : Num.isFinite a = true ↔ ∃ s m, a = fin s m := by
  cases a with
  | fin s m => simp [Num.isFinite, toExt, Ext.isFinite]
  | inf s => cases s <;> simp [Num.isFinite, toExt, Ext.isFinite]
  | nan => simp [Num.isFinite, toExt, Ext.isFinite]

instance : NumOrd (Flt fmt) where
  not_nan_of_le := fun h => NumOrd.not_nan_of_le (F := Ext ℚ) h
  le_trans := fun h1 h2 => NumOrd.le_trans (F := Ext ℚ) h1 h2
  le_total := fun h1 h2 => NumOrd.le_total (F := Ext ℚ) h1 h2
  lt_def := fun _ _ => rfl
  eq_def := fun _ _ => rfl
  nan_isNaN := rfl
  finite_not_nan := fun h => NumOrd.finite_not_nan (F := Ext ℚ) h
  nan_not_finite := rfl
  finite_of_between := fun h1 h2 h3 h4 => NumOrd.finite_of_between (F := Ext ℚ) h1 h2 h3 h4
  ofRat_finite := by
    intro x h1 h2
    refine NumOrd.finite_of_between (F := Ext ℚ) (a := .fin (-1)) (c := .fin 1) rfl rfl ?_ ?_
    · have := ofExact_mono (fmt := fmt) false false h1
      rwa [toExt_neg_one] at this
    · have := ofExact_mono (fmt := fmt) false false h2
      rwa [toExt_one] at this
  ofRat_le := fun h _ _ => ofExact_mono false false h
  neg_one_lt_zero := by
    show Ext.lt (toExt (ofExact false (-1))) (toExt (ofExact false 0)) = true
    rw [toExt_neg_one, toExt_zero]
    rfl
  zero_lt_one := by
    show Ext.lt (toExt (ofExact false 0)) (toExt (ofExact false 1)) = true
    rw [toExt_one, toExt_zero]
    rfl
  le_pinf := fun h => NumOrd.le_pinf (F := Ext ℚ) h

theorem eq_zero_iff {z : Flt fmt} : (z ==. Num.ofRat 0) = true ↔ ∃ s m, z = fin s m ∧ m.val = 0 := by
  have h : (z ==. Num.ofRat 0) = Ext.eq (toExt z) (toExt (ofExact false 0 : Flt fmt)) := rfl
  rw [h, toExt_zero]
  cases z with
  | fin s m =>
    have : (Ext.eq (.fin (sval s m)) (.fin 0) : Bool) = decide (sval s m = 0) :=
      Ext.num_eq (K := ℚ) _ _
    simp only [toExt, this, decide_eq_true_eq, fin.injEq]
    unfold sval
    constructor
    · intro h
      refine ⟨s, m, ⟨rfl, rfl⟩, ?_⟩
      cases s <;> simpa using h
    · rintro ⟨_, _, ⟨rfl, rfl⟩, h⟩
      simp [h]
  | inf s => cases s <;> simp [toExt, Ext.eq, Ext.le]
  | nan => simp [toExt, Ext.eq, Ext.le]

theorem sval_of_zero {s : Bool} {m : fmt.Mag} (h : m.val = 0) : sval s m = 0 := by
  unfold sval
  simp [h]

theorem eq_zero_of_toExt {a : Flt fmt} (h : toExt a = .fin 0) : (a ==. Num.ofRat 0) = true := by
  show Ext.eq (toExt a) (toExt (ofExact false 0 : Flt fmt)) = true
  rw [toExt_zero, h]
  rfl

theorem toExt_ofExact_zero (z : Bool) : toExt (ofExact z 0 : Flt fmt) = .fin 0 := by
  rw [toExt_ofExact, ← toExt_ofExact false, toExt_zero]

/-- `0 < c` and `c < 0` for finite numbers -/
theorem zero_lt_fin {s : Bool} {m : fmt.Mag} :
    (Num.ofRat 0 <. (fin s m : Flt fmt)) = true ↔ s = false ∧ 0 < m.val := by
  have h : (Num.ofRat 0 <. (fin s m : Flt fmt))
      = Ext.lt (toExt (ofExact false 0 : Flt fmt)) (.fin (sval s m)) := rfl
  have h2 : (Ext.lt (.fin 0) (.fin (sval s m)) : Bool) = decide (0 < sval s m) :=
    Ext.num_lt (K := ℚ) _ _
  rw [h, toExt_zero, h2, decide_eq_true_eq]
  unfold sval
  have := m.nonneg
  cases s <;> simp [this]

theorem fin_lt_zero {s : Bool} {m : fmt.Mag} :
    ((fin s m : Flt fmt) <. Num.ofRat 0) = true ↔ s = true ∧ 0 < m.val := by
  have h : ((fin s m : Flt fmt) <. Num.ofRat 0)
      = Ext.lt (.fin (sval s m)) (toExt (ofExact false 0 : Flt fmt)) := rfl
  have h2 : (Ext.lt (.fin (sval s m)) (.fin 0) : Bool) = decide (sval s m < 0) :=
    Ext.num_lt (K := ℚ) _ _
  rw [h, toExt_zero, h2, decide_eq_true_eq]
  unfold sval
  have := m.nonneg
  cases s <;> simp [this]

theorem neg_zero_eq : neg (ofExact false 0 : Flt fmt)
    = ofExact true 0 := by
  unfold ofExact
  simp only [if_true, abs_zero]
  split_ifs <;> rfl

/-- the positive zero -/
theorem ofExact_zero (z : Bool) : ∃ m : fmt.Mag, m.val = 0 ∧ ofExact z 0 = fin z m := by
  have hz : fmt.roundPos |(0 : ℚ)| = 0 := by rw [abs_zero, fmt.roundPos_zero]
  refine ⟨⟨0, le_rfl, fmt.roundPos_zero, fmt.maxFin_nonneg⟩, rfl, ?_⟩
  have := ofExact_sval z (⟨0, le_rfl, fmt.roundPos_zero, fmt.maxFin_nonneg⟩ : fmt.Mag)
  rwa [sval_of_zero (m := (⟨0, le_rfl, fmt.roundPos_zero, fmt.maxFin_nonneg⟩ : fmt.Mag)) rfl]
    at this

theorem sval_not (s : Bool) (m : fmt.Mag) : sval (!s) m = -sval s m := by
  unfold sval
  cases s <;> simp

theorem add_fin (s t : Bool) (m n : fmt.Mag) :
    add (fin s m) (fin t n) = ofExact (s && t) (sval s m + sval t n) := rfl

theorem mul_fin (s t : Bool) (m n : fmt.Mag) :
    mul (fin s m) (fin t n) = ofExact (s != t) (sval s m * sval t n) := rfl

theorem div_fin (s t : Bool) (m n : fmt.Mag) :
    div (fin s m) (fin t n) = if n.val = 0 then (if m.val = 0 then nan else inf (s != t))
      else ofExact (s != t) (sval s m / sval t n) := rfl

instance : NumIEEE (Flt fmt) where
  sub_self := by
    intro a h
    obtain ⟨s, m, rfl⟩ := isFinite_iff.1 h
    show add (fin s m) (fin (!s) m) = ofExact false 0
    rw [add_fin]
    rw [sval_not, add_neg_cancel]
    cases s <;> rfl
  sub_zero := by
    intro a
    obtain ⟨m0, hm0, e0⟩ := ofExact_zero (fmt := fmt) false
    show add a (neg (ofExact false 0)) = a
    rw [e0]
    cases a with
    | fin s m =>
      show ofExact (s && true) (sval s m + sval true m0) = fin s m
      rw [sval_of_zero hm0, add_zero, Bool.and_true, ofExact_sval]
    | inf s => rfl
    | nan => rfl
  abs_zero := by
    obtain ⟨m0, hm0, e0⟩ := ofExact_zero (fmt := fmt) false
    show abs (ofExact false 0) = ofExact false 0
    rw [e0]
    rfl
  mul_zero_eq := by
    intro a h
    obtain ⟨s, m, rfl⟩ := isFinite_iff.1 h
    obtain ⟨m0, hm0, e0⟩ := ofExact_zero (fmt := fmt) false
    apply eq_zero_of_toExt
    show toExt (mul (fin s m) (ofExact false 0)) = _
    rw [e0]
    show toExt (ofExact (s != false) (sval s m * sval false m0)) = _
    rw [sval_of_zero hm0, mul_zero, toExt_ofExact_zero]
  le_add_zero := by
    intro z a c hz
    obtain ⟨t, n, rfl, hn⟩ := eq_zero_iff.1 hz
    show Ext.le (toExt c) (toExt (add a (fin t n))) = Ext.le (toExt c) (toExt a)
    congr 1
    cases a with
    | fin s m =>
      show toExt (ofExact (s && t) (sval s m + sval t n)) = _
      rw [sval_of_zero hn, add_zero, toExt_ofExact_sval]
      rfl
    | inf s => rfl
    | nan => rfl

instance : NumDiv (Flt fmt) where
  finite_of_not_inf := by
    intro a h1 h2 h3
    cases a with
    | fin s m => rfl
    | inf s => cases s <;> simp_all [Num.eq, Num.pinf, Num.neg, neg, toExt, Ext.eq, Ext.le, Num.ninf]
    | nan => cases h1
  zero_lt_pinf := by
    show Ext.lt (toExt (ofExact false 0 : Flt fmt)) .pinf = true
    rw [toExt_zero]
    rfl
  abs_neg := by
    intro m h1 h2
    obtain ⟨s, m, rfl⟩ := isFinite_iff.1 h1
    exact ⟨zero_lt_fin.2 ⟨rfl, (fin_lt_zero.1 h2).2⟩, rfl⟩
  div_abs_self := by
    intro m h1 h2
    obtain ⟨s, m, rfl⟩ := isFinite_iff.1 h1
    obtain ⟨rfl, hp⟩ := fin_lt_zero.1 h2
    show Ext.eq (toExt (div (fin true m) (fin false m))) (toExt (ofExact false (-1) : Flt fmt)) = true
    have : div (fin true m) (fin false m) = (ofExact true (-1) : Flt fmt) := by
      simp only [div_fin]
      rw [if_neg hp.ne']
      congr 1
      simp [sval, neg_div, div_self hp.ne']
    rw [this, toExt_ofExact, ← toExt_ofExact false, toExt_neg_one]
    rfl
  div_mono := by
    intro a b c h1 h2 h3 h4 h5
    obtain ⟨s, m, rfl⟩ := isFinite_iff.1 h1
    obtain ⟨t, n, rfl⟩ := isFinite_iff.1 h2
    obtain ⟨u, k, rfl⟩ := isFinite_iff.1 h3
    obtain ⟨rfl, hk⟩ := zero_lt_fin.1 h4
    have h5 : sval s m ≤ sval t n := by
      have h5 : decide (sval s m ≤ sval t n) = true := h5
      simpa using h5
    show Ext.le (toExt (div (fin s m) (fin false k))) (toExt (div (fin t n) (fin false k))) = true
    simp only [div_fin]
    rw [if_neg hk.ne', if_neg hk.ne']
    apply ofExact_mono
    exact div_le_div_of_nonneg_right h5 (by simpa [sval] using hk.le)
  zero_div := by
    intro z c h1 h2 h3
    obtain ⟨u, k, rfl⟩ := isFinite_iff.1 h1
    obtain ⟨rfl, hk⟩ := zero_lt_fin.1 h2
    obtain ⟨t, n, rfl, hn⟩ := eq_zero_iff.1 h3
    apply eq_zero_of_toExt
    show toExt (div (fin t n) (fin false k)) = _
    simp only [div_fin]
    rw [if_neg hk.ne', sval_of_zero hn, _root_.zero_div, toExt_ofExact_zero]
  zero_div_zero := by
    intro y z h1 h2
    obtain ⟨s, m, rfl, hm⟩ := eq_zero_iff.1 h1
    obtain ⟨t, n, rfl, hn⟩ := eq_zero_iff.1 h2
    show Ext.isNaN (toExt (div (fin s m) (fin false n))) = true
    simp only [div_fin]
    rw [if_pos hn, if_pos hm]
    rfl

end Flt
end GChop
