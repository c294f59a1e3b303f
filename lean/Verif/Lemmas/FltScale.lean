import Verif.Lemmas.BinarySqrt
import Verif.Lemmas.BinaryAdd
import Mathlib.Tactic.LinearCombination

/-!
# Multiplication by powers of two

As long as nothing underflows or overflows, floating point operations commute with the multiplication
by powers of two, bit for bit.  `Pair k e h a b` says that `b` is `2^k` times `a` and that both are
multiples of `2^e` up to `2^h`; each operation gets a rule.
-/

namespace GChop

theorem roundHalfEven_congr {a b : ℚ} (h1 : ∀ n : ℤ, (n : ℚ) / 2 ≤ a ↔ (n : ℚ) / 2 ≤ b)
    (h2 : ∀ n : ℤ, a ≤ (n : ℚ) / 2 ↔ b ≤ (n : ℚ) / 2) :
    Ext.roundHalfEven a = Ext.roundHalfEven b := by
  have hf : ⌊a⌋ = ⌊b⌋ := by
    have : ∀ z : ℤ, z ≤ ⌊a⌋ ↔ z ≤ ⌊b⌋ := by
      intro z
      rw [Int.le_floor, Int.le_floor]
      have := h1 (2 * z)
      push_cast at this
      rwa [mul_div_cancel_left₀ _ (by norm_num)] at this
    exact le_antisymm ((this _).1 le_rfl) ((this _).2 le_rfl)
  have e1 : a - (⌊b⌋ : ℚ) < 1 / 2 ↔ b - (⌊b⌋ : ℚ) < 1 / 2 := by
    have := (h1 (2 * ⌊b⌋ + 1)).not
    push_cast at this
    rw [not_le, not_le] at this
    constructor <;> intro h
    · have := this.1 (by linarith); linarith
    · have := this.2 (by linarith); linarith
  have e2 : 1 / 2 < a - (⌊b⌋ : ℚ) ↔ 1 / 2 < b - (⌊b⌋ : ℚ) := by
    have := (h2 (2 * ⌊b⌋ + 1)).not
    push_cast at this
    rw [not_le, not_le] at this
    constructor <;> intro h
    · have := this.1 (by linarith); linarith
    · have := this.2 (by linarith); linarith
  unfold Ext.roundHalfEven
  dsimp only
  rw [hf]
  simp only [e1, e2]

namespace Fmt
variable (fmt : Fmt)

/-- the exponent of the smallest number with full precision -/
def nrm : ℤ := fmt.emin + (fmt.prec - 1 : Int)

theorem log_scale {x : ℚ} (hx : 0 < x) (k : ℤ) : Int.log 2 (2 ^ k * x) = Int.log 2 x + k := by
  have h2 : (0 : ℚ) < 2 ^ k := zpow_pos (by norm_num) _
  have lo : ((2 : ℕ) : ℚ) ^ Int.log 2 x ≤ x := Int.zpow_log_le_self (by norm_num) hx
  have hi : x < ((2 : ℕ) : ℚ) ^ (Int.log 2 x + 1) := Int.lt_zpow_succ_log_self (by norm_num) x
  push_cast at lo hi
  apply le_antisymm
  · have : Int.log 2 (2 ^ k * x) < Int.log 2 x + k + 1 := by
      rw [← Int.lt_zpow_iff_log_lt (b := 2) (by norm_num) (mul_pos h2 hx)]
      push_cast
      rw [show Int.log 2 x + k + 1 = k + (Int.log 2 x + 1) by ring, zpow_add₀ (by norm_num)]
      exact mul_lt_mul_of_pos_left hi h2
    omega
  · rw [← Int.zpow_le_iff_le_log (b := 2) (by norm_num) (mul_pos h2 hx)]
    push_cast
    rw [show Int.log 2 x + k = k + Int.log 2 x by ring, zpow_add₀ (by norm_num)]
    exact mul_le_mul_of_nonneg_left lo h2.le

theorem log_of_pow_le {x : ℚ} {e : ℤ} (h : 2 ^ e ≤ x) : e ≤ Int.log 2 x := by
  have hx : 0 < x := lt_of_lt_of_le (zpow_pos (by norm_num) _) h
  rw [← Int.zpow_le_iff_le_log (b := 2) (by norm_num) hx]
  exact_mod_cast h

theorem roundPos_scale {x : ℚ} {k : ℤ} (h1 : 2 ^ fmt.nrm ≤ x) (h2 : 2 ^ fmt.nrm ≤ 2 ^ k * x) :
    fmt.roundPos (2 ^ k * x) = 2 ^ k * fmt.roundPos x := by
  have hx : 0 < x := lt_of_lt_of_le (zpow_pos (by norm_num) _) h1
  have hk : (0 : ℚ) < 2 ^ k := zpow_pos (by norm_num) _
  have l1 := log_of_pow_le h1
  have l2 := log_of_pow_le h2
  rw [log_scale hx] at l2
  have hu : fmt.ulp (2 ^ k * x) = 2 ^ k * fmt.ulp x := by
    unfold ulp
    rw [log_scale hx, ← zpow_add₀ (by norm_num)]
    congr 1
    unfold nrm at l1 l2
    omega
  unfold roundPos
  rw [hu, mul_div_mul_left _ _ hk.ne']
  ring

/-- rounding a multiple of `2^e` gives a multiple of `2^e` -/
theorem roundPos_multiple {x : ℚ} {e n : ℤ} (h : x = n * 2 ^ e) : ∃ m : ℤ, fmt.roundPos x = m * 2 ^ e := by
  rcases le_total e (fmt.uexp x) with hu | hu
  · refine ⟨Ext.roundHalfEven (x / fmt.ulp x) * 2 ^ (fmt.uexp x - e).toNat, ?_⟩
    push_cast
    rw [← zpow_natCast, Int.toNat_of_nonneg (by omega), mul_assoc, ← zpow_add₀ (by norm_num),
      show fmt.uexp x - e + e = fmt.uexp x by ring]
    rfl
  · refine ⟨n, ?_⟩
    rw [fmt.roundPos_of_multiple (n := n * 2 ^ (e - fmt.uexp x).toNat), h]
    push_cast
    rw [← zpow_natCast, Int.toNat_of_nonneg (by omega), mul_assoc, ulp_eq, ← zpow_add₀ (by norm_num),
      show e - fmt.uexp x + fmt.uexp x = e by ring, h]

theorem roundPos_le_two {x : ℚ} {h : ℤ} (hx : 0 ≤ x) (hle : x ≤ 2 ^ h) (h1 : fmt.nrm ≤ h) :
    fmt.roundPos x ≤ 2 ^ h := by
  rcases hx.eq_or_lt with rfl | hx
  · rw [roundPos_zero]; exact (zpow_pos (by norm_num) _).le
  apply roundPos_le_pow
  · have := Int.log_mono_right (b := 2) hx hle
    have e : Int.log 2 ((2 : ℚ) ^ h) = h := by
      exact_mod_cast Int.log_zpow (R := ℚ) (b := 2) (by norm_num) h
    have hp := fmt.prec_pos
    unfold uexp nrm at *
    omega
  · exact hle

end Fmt

namespace Flt
variable {fmt : Fmt}

/-- the second number is `2^k` times the first one -/
def Scaled (k : ℤ) : Flt fmt → Flt fmt → Prop
  | fin s m, fin t n => s = t ∧ n.val = 2 ^ k * m.val
  | inf s, inf t => s = t
  | nan, nan => True
  | _, _ => False

/-- finite, a multiple of `2^e` and at most `2^h` -/
def Grid (e h : ℤ) (a : Flt fmt) : Prop :=
  ∃ s m, a = fin s m ∧ (∃ n : ℤ, m.val = n * 2 ^ e) ∧ m.val ≤ 2 ^ h

theorem Grid.weaken {e h e' h' : ℤ} {a : Flt fmt} (g : Grid e h a) (h1 : e' ≤ e) (h2 : h ≤ h') :
    Grid e' h' a := by
  obtain ⟨s, m, rfl, ⟨n, hn⟩, hm⟩ := g
  refine ⟨s, m, rfl, ⟨n * 2 ^ (e - e').toNat, ?_⟩, hm.trans (zpow_le_zpow_right₀ (by norm_num) h2)⟩
  push_cast
  rw [← zpow_natCast, Int.toNat_of_nonneg (by omega), mul_assoc, ← zpow_add₀ (by norm_num),
    show e - e' + e' = e by ring, hn]

/-- `b` is `2^k` times `a`, both on the grid -/
structure Pair (k e h : ℤ) (a b : Flt fmt) : Prop where
  scaled : Scaled k a b
  left : Grid e h a
  right : Grid e h b

theorem Pair.weaken {k e h e' h' : ℤ} {a b : Flt fmt} (p : Pair k e h a b) (h1 : e' ≤ e)
    (h2 : h ≤ h') : Pair k e' h' a b :=
  ⟨p.scaled, p.left.weaken h1 h2, p.right.weaken h1 h2⟩

theorem grid_ofExact {z : Bool} {x : ℚ} {e h n : ℤ} (hn : x = n * 2 ^ e) (hx : |x| ≤ 2 ^ h)
    (h1 : fmt.nrm ≤ h) (h2 : h ≤ fmt.emax) : Grid e h (ofExact z x : Flt fmt) := by
  have hr : fmt.roundPos |x| ≤ 2 ^ h := fmt.roundPos_le_two (_root_.abs_nonneg _) hx h1
  have hM : fmt.roundPos |x| ≤ fmt.maxFin := hr.trans (fmt.pow_le_maxFin h2)
  unfold ofExact
  dsimp only
  rw [dif_pos hM]
  refine ⟨_, _, rfl, ?_, hr⟩
  apply fmt.roundPos_multiple (n := |n|)
  rw [hn, abs_mul, abs_of_pos (zpow_pos (by norm_num : (0 : ℚ) < 2) e)]
  push_cast
  rfl

theorem scaled_ofExact {z : Bool} {x : ℚ} {k : ℤ} (hM : fmt.roundPos |x| ≤ fmt.maxFin)
    (hM' : fmt.roundPos |2 ^ k * x| ≤ fmt.maxFin)
    (h : x = 0 ∨ 2 ^ fmt.nrm ≤ |x| ∧ 2 ^ fmt.nrm ≤ |2 ^ k * x|) :
    Scaled k (ofExact z x : Flt fmt) (ofExact z (2 ^ k * x)) := by
  have hk : (0 : ℚ) < 2 ^ k := zpow_pos (by norm_num) _
  unfold ofExact
  dsimp only
  rw [dif_pos hM, dif_pos hM']
  refine ⟨?_, ?_⟩
  · have e1 : (2 ^ k * x = 0) ↔ x = 0 := by simp [hk.ne']
    have e2 : (2 ^ k * x < 0) ↔ x < 0 := by rw [mul_neg_iff]; simp [hk, hk.le.not_gt]
    simp only [e1, e2]
  · show fmt.roundPos |2 ^ k * x| = 2 ^ k * fmt.roundPos |x|
    rcases h with rfl | ⟨b1, b2⟩
    · simp [Fmt.roundPos_zero]
    · rw [abs_mul, abs_of_pos hk] at b2 ⊢
      exact fmt.roundPos_scale b1 b2

theorem big_of_multiple {y : ℚ} {j e : ℤ} (hj : y = j * 2 ^ e) (hy : y ≠ 0) : 2 ^ e ≤ |y| := by
  have hj0 : j ≠ 0 := by rintro rfl; simp [hj] at hy
  have : (1 : ℚ) ≤ |(j : ℚ)| := by exact_mod_cast Int.one_le_abs hj0
  rw [hj, abs_mul, abs_of_pos (zpow_pos (by norm_num : (0 : ℚ) < 2) e)]
  exact le_mul_of_one_le_left (zpow_pos (by norm_num) _).le this

/-- the basic rule: an exact result and its multiple are rounded to a number and its multiple -/
theorem pair_ofExact {z : Bool} {x : ℚ} {k e h n n' : ℤ} (hn : x = n * 2 ^ e)
    (hn' : 2 ^ k * x = n' * 2 ^ e) (hx : |x| ≤ 2 ^ h) (hx' : |2 ^ k * x| ≤ 2 ^ h)
    (he : fmt.nrm ≤ e) (h1 : fmt.nrm ≤ h) (h2 : h ≤ fmt.emax) :
    Pair k e h (ofExact z x : Flt fmt) (ofExact z (2 ^ k * x)) := by
  refine ⟨scaled_ofExact ((fmt.roundPos_le_two (_root_.abs_nonneg _) hx h1).trans (fmt.pow_le_maxFin h2))
    ((fmt.roundPos_le_two (_root_.abs_nonneg _) hx' h1).trans (fmt.pow_le_maxFin h2)) ?_,
    grid_ofExact hn hx h1 h2, grid_ofExact hn' hx' h1 h2⟩
  have hk : (0 : ℚ) < 2 ^ k := zpow_pos (by norm_num) _
  have hpow : (2 : ℚ) ^ fmt.nrm ≤ 2 ^ e := zpow_le_zpow_right₀ (by norm_num) he
  by_cases h0 : x = 0
  · exact Or.inl h0
  · exact Or.inr ⟨hpow.trans (big_of_multiple hn h0),
      hpow.trans (big_of_multiple hn' (mul_ne_zero hk.ne' h0))⟩

theorem sval_multiple {s : Bool} {m : fmt.Mag} {e n : ℤ} (h : m.val = n * 2 ^ e) :
    ∃ j : ℤ, sval s m = j * 2 ^ e := by
  cases s
  · exact ⟨n, h⟩
  · exact ⟨-n, by simp [sval, h]⟩

theorem abs_sval (s : Bool) (m : fmt.Mag) : |sval s m| = m.val := by
  cases s <;> simp [sval, abs_of_nonneg m.nonneg]

theorem sval_scaled {k : ℤ} {s : Bool} {m n : fmt.Mag} (h : n.val = 2 ^ k * m.val) :
    sval s n = 2 ^ k * sval s m := by
  cases s <;> simp [sval, h]

theorem Pair.dest {k e h : ℤ} {a b : Flt fmt} (p : Pair k e h a b) :
    ∃ s m m', a = fin s m ∧ b = fin s m' ∧ m'.val = 2 ^ k * m.val ∧ (∃ n : ℤ, m.val = n * 2 ^ e) ∧
      (∃ n : ℤ, m'.val = n * 2 ^ e) ∧ m.val ≤ 2 ^ h ∧ m'.val ≤ 2 ^ h := by
  obtain ⟨hs, ⟨s, m, rfl, g1, g2⟩, ⟨t, n, rfl, g3, g4⟩⟩ := p
  obtain ⟨rfl, hv⟩ := hs
  exact ⟨s, m, n, rfl, rfl, hv, g1, g3, g2, g4⟩

theorem Pair.mul {j k e h e' h' : ℤ} {a a' b b' : Flt fmt} (p : Pair j e h a a')
    (q : Pair k e' h' b b') (h1 : fmt.nrm ≤ e + e') (h2 : fmt.nrm ≤ h + h')
    (h3 : h + h' ≤ fmt.emax) : Pair (j + k) (e + e') (h + h') (a *. b) (a' *. b') := by
  obtain ⟨s, m, m', rfl, rfl, hm, ⟨x, hx⟩, ⟨x', hx'⟩, l, l'⟩ := p.dest
  obtain ⟨t, n, n', rfl, rfl, hn, ⟨y, hy⟩, ⟨y', hy'⟩, r, r'⟩ := q.dest
  show Pair _ _ _ (Flt.mul (fin s m) (fin t n)) (Flt.mul (fin s m') (fin t n'))
  rw [mul_fin, mul_fin]
  have key : sval s m' * sval t n' = 2 ^ (j + k) * (sval s m * sval t n) := by
    rw [sval_scaled hm, sval_scaled hn, zpow_add₀ (by norm_num)]
    ring
  have b2 : ∀ u w : fmt.Mag, u.val ≤ 2 ^ h → w.val ≤ 2 ^ h' → |sval s u * sval t w| ≤ 2 ^ (h + h') := by
    intro u w hu hw
    rw [abs_mul, abs_sval, abs_sval, zpow_add₀ (by norm_num)]
    exact mul_le_mul hu hw w.nonneg (zpow_pos (by norm_num) _).le
  have grid : ∀ (u w : fmt.Mag) (f g : ℤ), u.val = f * 2 ^ e → w.val = g * 2 ^ e' →
      ∃ i : ℤ, sval s u * sval t w = i * 2 ^ (e + e') := by
    intro u w f g hu hw
    obtain ⟨f', hf⟩ := sval_multiple (s := s) hu
    obtain ⟨g', hg⟩ := sval_multiple (s := t) hw
    exact ⟨f' * g', by rw [hf, hg, zpow_add₀ (by norm_num)]; push_cast; ring⟩
  obtain ⟨i, hi⟩ := grid m n x y hx hy
  obtain ⟨i', hi'⟩ := grid m' n' x' y' hx' hy'
  have B' := b2 m' n' l' r'
  rw [key] at hi' B' ⊢
  exact pair_ofExact hi hi' (b2 m n l r) B' h1 h2 h3

theorem Pair.add {k e h : ℤ} {a a' b b' : Flt fmt} (p : Pair k e h a a')
    (q : Pair k e h b b') (h1 : fmt.nrm ≤ e) (h2 : fmt.nrm ≤ h + 1)
    (h3 : h + 1 ≤ fmt.emax) : Pair k e (h + 1) (a +. b) (a' +. b') := by
  obtain ⟨s, m, m', rfl, rfl, hm, ⟨x, hx⟩, ⟨x', hx'⟩, l, l'⟩ := p.dest
  obtain ⟨t, n, n', rfl, rfl, hn, ⟨y, hy⟩, ⟨y', hy'⟩, r, r'⟩ := q.dest
  show Pair _ _ _ (Flt.add (fin s m) (fin t n)) (Flt.add (fin s m') (fin t n'))
  rw [add_fin, add_fin]
  have key : sval s m' + sval t n' = 2 ^ k * (sval s m + sval t n) := by
    rw [sval_scaled hm, sval_scaled hn]
    ring
  have b2 : ∀ u w : fmt.Mag, u.val ≤ 2 ^ h → w.val ≤ 2 ^ h → |sval s u + sval t w| ≤ 2 ^ (h + 1) := by
    intro u w hu hw
    refine (abs_add_le _ _).trans ?_
    rw [abs_sval, abs_sval, zpow_add_one₀ (by norm_num)]
    linarith
  have grid : ∀ (u w : fmt.Mag) (f g : ℤ), u.val = f * 2 ^ e → w.val = g * 2 ^ e →
      ∃ i : ℤ, sval s u + sval t w = i * 2 ^ e := by
    intro u w f g hu hw
    obtain ⟨f', hf⟩ := sval_multiple (s := s) hu
    obtain ⟨g', hg⟩ := sval_multiple (s := t) hw
    exact ⟨f' + g', by rw [hf, hg]; push_cast; ring⟩
  obtain ⟨i, hi⟩ := grid m n x y hx hy
  obtain ⟨i', hi'⟩ := grid m' n' x' y' hx' hy'
  have B' := b2 m' n' l' r'
  rw [key] at hi' B' ⊢
  exact pair_ofExact hi hi' (b2 m n l r) B' h1 h2 h3

theorem Pair.neg {k e h : ℤ} {a a' : Flt fmt} (p : Pair k e h a a') :
    Pair k e h (Num.neg a) (Num.neg a') := by
  obtain ⟨s, m, m', rfl, rfl, hm, g, g', l, l'⟩ := p.dest
  exact ⟨⟨rfl, hm⟩, ⟨_, _, rfl, g, l⟩, ⟨_, _, rfl, g', l'⟩⟩

theorem Pair.sub {k e h : ℤ} {a a' b b' : Flt fmt} (p : Pair k e h a a')
    (q : Pair k e h b b') (h1 : fmt.nrm ≤ e) (h2 : fmt.nrm ≤ h + 1)
    (h3 : h + 1 ≤ fmt.emax) : Pair k e (h + 1) (a -. b) (a' -. b') :=
  p.add q.neg h1 h2 h3

/-- the rounded square roots -/
theorem roundPos_sticky_scale {x : ℚ} {k : ℤ} (hx : 0 < x) (h1 : fmt.nrm ≤ Int.log 2 x / 2)
    (h2 : fmt.nrm ≤ Int.log 2 x / 2 + k) :
    fmt.roundPos (sqrtSticky fmt (2 ^ (2 * k) * x)) = 2 ^ k * fmt.roundPos (sqrtSticky fmt x) := by
  have hk : (0 : ℚ) < 2 ^ k := zpow_pos (by norm_num) _
  have hx' : 0 < 2 ^ (2 * k) * x := mul_pos (zpow_pos (by norm_num) _) hx
  have hlog : Int.log 2 (2 ^ (2 * k) * x) / 2 = Int.log 2 x / 2 + k := by
    rw [Fmt.log_scale hx]; omega
  have hE : sqrtExp fmt (2 ^ (2 * k) * x) = sqrtExp fmt x + k := by
    unfold sqrtExp
    rw [hlog]
    unfold Fmt.nrm at h1 h2
    omega
  have hu : fmt.ulp (sqrtSticky fmt x) = 2 ^ sqrtExp fmt x := by
    unfold Fmt.ulp sqrtExp
    rw [log_sticky hx]
  have hu' : fmt.ulp (sqrtSticky fmt (2 ^ (2 * k) * x)) = 2 ^ (sqrtExp fmt x + k) := by
    rw [← hE]
    unfold Fmt.ulp sqrtExp
    rw [log_sticky hx']
  have hkr : (0 : ℝ) < 2 ^ k := zpow_pos (by norm_num) _
  have hroot : Real.sqrt ((2 ^ (2 * k) * x : ℚ) : ℝ) = 2 ^ k * Real.sqrt (x : ℝ) := by
    push_cast
    rw [show (2 : ℝ) ^ (2 * k) = (2 ^ k) ^ 2 by rw [two_mul, zpow_add₀ (by norm_num)]; ring,
      Real.sqrt_mul (sq_nonneg _), Real.sqrt_sq hkr.le]
  have hb := stickyBits_ge (fmt := fmt) x
  have hb' := stickyBits_ge (fmt := fmt) (2 ^ (2 * k) * x)
  have he : -(stickyBits fmt x : ℤ) ≤ sqrtExp fmt x - 1 := by unfold sqrtExp; omega
  have he' : -(stickyBits fmt (2 ^ (2 * k) * x) : ℤ) ≤ sqrtExp fmt x + k - 1 := by
    rw [← hE]; unfold sqrtExp; omega
  have hup : (0 : ℚ) < 2 ^ sqrtExp fmt x := zpow_pos (by norm_num) _
  have hup' : (0 : ℚ) < 2 ^ (sqrtExp fmt x + k) := zpow_pos (by norm_num) _
  have half : ∀ (n E : ℤ), (n : ℚ) / 2 * 2 ^ E = n * 2 ^ (E - 1) := by
    intro n E
    rw [zpow_sub_one₀ (by norm_num)]
    ring
  have split : ∀ n : ℤ, (n : ℝ) * 2 ^ (sqrtExp fmt x + k - 1)
      = 2 ^ k * (n * 2 ^ (sqrtExp fmt x - 1)) := by
    intro n
    rw [show sqrtExp fmt x + k - 1 = k + (sqrtExp fmt x - 1) by ring, zpow_add₀ (by norm_num)]
    ring
  have main : Ext.roundHalfEven (sqrtSticky fmt (2 ^ (2 * k) * x) / 2 ^ (sqrtExp fmt x + k))
      = Ext.roundHalfEven (sqrtSticky fmt x / 2 ^ sqrtExp fmt x) := by
    apply roundHalfEven_congr
    · intro n
      rw [le_div_iff₀ hup', le_div_iff₀ hup, half, half, le_sticky_pow hx' he', le_sticky_pow hx he,
        hroot, split, mul_le_mul_iff_right₀ hkr]
    · intro n
      rw [div_le_iff₀ hup', div_le_iff₀ hup, half, half, sticky_le_pow hx' he', sticky_le_pow hx he,
        hroot, split, mul_le_mul_iff_right₀ hkr]
  unfold Fmt.roundPos
  rw [hu, hu', main, zpow_add₀ (by norm_num)]
  ring

theorem multiple_weaken {x : ℚ} {n e e' : ℤ} (h : x = n * 2 ^ e) (he : e' ≤ e) :
    ∃ j : ℤ, x = j * 2 ^ e' := by
  refine ⟨n * 2 ^ (e - e').toNat, ?_⟩
  push_cast
  rw [← zpow_natCast, Int.toNat_of_nonneg (by omega), mul_assoc, ← zpow_add₀ (by norm_num),
    show e - e' + e' = e by ring, h]

/-- the square root of a number that is not negative -/
theorem Pair.sqrt {k e h : ℤ} {m m' : fmt.Mag} (p : Pair (2 * k) e h (fin false m) (fin false m'))
    (h1 : fmt.nrm ≤ e / 2) (h2 : fmt.nrm ≤ h / 2 + 1) (h3 : h / 2 + 1 ≤ fmt.emax) :
    Pair k (e / 2 - (fmt.prec - 1 : Int)) (h / 2 + 1) (Num.sqrt (fin false m)) (Num.sqrt (fin false m')) := by
  obtain ⟨s, n, n', e1, e2, hm, ⟨x, hx⟩, ⟨x', hx'⟩, l, l'⟩ := p.dest
  cases e1
  cases e2
  have hk : (0 : ℚ) < 2 ^ (2 * k) := zpow_pos (by norm_num) _
  show Pair _ _ _ (Flt.sqrt (fin false m)) (Flt.sqrt (fin false m'))
  by_cases h0 : m.val = 0
  · have h0' : m'.val = 0 := by rw [hm, h0, mul_zero]
    simp only [Flt.sqrt, h0, h0', if_true]
    refine ⟨⟨rfl, by rw [h0, h0', mul_zero]⟩, ⟨_, _, rfl, ⟨0, by simp [h0]⟩, ?_⟩,
      ⟨_, _, rfl, ⟨0, by simp [h0']⟩, ?_⟩⟩
    · rw [h0]; exact (zpow_pos (by norm_num) _).le
    · rw [h0']; exact (zpow_pos (by norm_num) _).le
  · have h0' : m'.val ≠ 0 := by rw [hm]; exact mul_ne_zero hk.ne' h0
    have big : ∀ (u : fmt.Mag) (j : ℤ), u.val = j * 2 ^ e → u.val ≠ 0 → 2 ^ e ≤ u.val := by
      intro u j hj hu
      have hj1 : 0 < j := by
        have : 0 < u.val := lt_of_le_of_ne u.nonneg (Ne.symm hu)
        rw [hj] at this
        have := (pos_iff_pos_of_mul_pos this).2 (zpow_pos (by norm_num) _)
        exact_mod_cast this
      rw [hj]
      exact le_mul_of_one_le_left (zpow_pos (by norm_num) _).le (by exact_mod_cast hj1)
    have piece : ∀ u : fmt.Mag, 2 ^ e ≤ u.val → u.val ≤ 2 ^ h →
        fmt.roundPos (sqrtSticky fmt u.val) ≤ 2 ^ (h / 2 + 1) ∧
        ∃ j : ℤ, fmt.roundPos (sqrtSticky fmt u.val) = j * 2 ^ (e / 2 - (fmt.prec - 1 : Int)) := by
      intro u hu hu'
      have hpos : 0 < u.val := lt_of_lt_of_le (zpow_pos (by norm_num) _) hu
      have hl := Fmt.log_of_pow_le hu
      have hl' : Int.log 2 u.val ≤ h := by
        have := Int.log_mono_right (b := 2) hpos hu'
        rwa [show Int.log 2 ((2 : ℚ) ^ h) = h by
          exact_mod_cast Int.log_zpow (R := ℚ) (b := 2) (by norm_num) h] at this
      constructor
      · apply fmt.roundPos_le_two (sticky_pos hpos).le _ h2
        have := Int.lt_zpow_succ_log_self (b := 2) (by norm_num) (sqrtSticky fmt u.val)
        rw [log_sticky hpos] at this
        push_cast at this
        exact this.le.trans (zpow_le_zpow_right₀ (by norm_num) (by omega))
      · obtain ⟨n, hn, _⟩ := roundPos_sticky (fmt := fmt) hpos
        exact multiple_weaken hn (by unfold sqrtExp; omega)
    have b1 := big m x hx h0
    have b2 := big m' x' hx' h0'
    obtain ⟨c1, d1⟩ := piece m b1 l
    obtain ⟨c2, d2⟩ := piece m' b2 l'
    have hpos : 0 < m.val := lt_of_lt_of_le (zpow_pos (by norm_num) _) b1
    have l1 := Fmt.log_of_pow_le b1
    have l2 := Fmt.log_of_pow_le b2
    rw [hm, Fmt.log_scale hpos] at l2
    have hr : fmt.roundPos (sqrtSticky fmt m'.val) = 2 ^ k * fmt.roundPos (sqrtSticky fmt m.val) := by
      rw [hm]
      exact roundPos_sticky_scale hpos (by omega) (by omega)
    have s1 : 0 < sqrtSticky fmt m.val := sticky_pos hpos
    have s2 : 0 < sqrtSticky fmt m'.val :=
      sticky_pos (lt_of_lt_of_le (zpow_pos (by norm_num) _) b2)
    simp only [Flt.sqrt, h0, h0', if_false, ofExact, abs_of_pos s1, abs_of_pos s2, s1.ne', s2.ne',
      s1.le.not_gt, s2.le.not_gt, decide_false, Bool.false_eq_true]
    rw [dif_pos (c1.trans (fmt.pow_le_maxFin h3)), dif_pos (c2.trans (fmt.pow_le_maxFin h3))]
    exact ⟨⟨rfl, hr⟩, ⟨_, _, rfl, d1, c1⟩, ⟨_, _, rfl, d2, c2⟩⟩

/-- zero, or of a size between `2^-p` and `2^p` both before and after the multiplication by `2^k` -/
def InRange (k p : ℤ) (a : Flt fmt) : Prop :=
  ∃ s m, a = fin s m ∧ (m.val = 0 ∨
    (2 ^ (-p) ≤ m.val ∧ m.val ≤ 2 ^ p ∧ 2 ^ (-p) ≤ 2 ^ k * m.val ∧ 2 ^ k * m.val ≤ 2 ^ p))

theorem mag_multiple {m : fmt.Mag} {q k : ℤ} (hm : m.val ≠ 0) (h : 2 ^ q ≤ 2 ^ k * m.val) :
    ∃ n : ℤ, 2 ^ k * m.val = n * 2 ^ (q - (fmt.prec - 1 : Int)) := by
  have hpos : 0 < m.val := lt_of_le_of_ne m.nonneg (Ne.symm hm)
  have hl := Fmt.log_of_pow_le h
  rw [Fmt.log_scale hpos] at hl
  refine multiple_weaken (n := Ext.roundHalfEven (m.val / fmt.ulp m.val)) (e := fmt.uexp m.val + k)
    ?_ ?_
  · have := m.grid
    unfold Fmt.roundPos at this
    rw [zpow_add₀ (by norm_num), ← Fmt.ulp_eq]
    linear_combination -((2 : ℚ) ^ k) * this
  · unfold Fmt.uexp
    omega

theorem ofRat_pow {k : ℤ} (h1 : fmt.nrm ≤ k) (h2 : k ≤ fmt.emax) :
    ∃ m : fmt.Mag, m.val = 2 ^ k ∧ (Num.ofRat (2 ^ k) : Flt fmt) = fin false m := by
  have hk : (0 : ℚ) < 2 ^ k := zpow_pos (by norm_num) _
  have hr : fmt.roundPos (2 ^ k) = 2 ^ k := by
    have := fmt.srnd_pow (e := k) h1
    rwa [fmt.srnd_of_nonneg hk.le] at this
  refine ⟨⟨2 ^ k, hk.le, hr, fmt.pow_le_maxFin h2⟩, rfl, ?_⟩
  show ofExact false (2 ^ k) = _
  unfold ofExact
  simp only [abs_of_pos hk, hr, hk.ne', hk.le.not_gt, if_false, decide_false]
  rw [dif_pos (fmt.pow_le_maxFin h2)]

theorem mul_pow {k : ℤ} (h1 : fmt.nrm ≤ k) (h2 : k ≤ fmt.emax) (s : Bool) (m : fmt.Mag) :
    (Num.ofRat (2 ^ k) : Flt fmt) *. fin s m = ofExact s (2 ^ k * sval s m) := by
  obtain ⟨u, hu, he⟩ := ofRat_pow (fmt := fmt) h1 h2
  rw [he]
  show Flt.mul (fin false u) (fin s m) = _
  rw [mul_fin, Bool.false_bne]
  simp [sval, hu]

theorem InRange.pair {k p : ℤ} {a : Flt fmt} (h : InRange k p a) (h1 : fmt.nrm ≤ k)
    (h2 : k ≤ fmt.emax) (h3 : fmt.nrm ≤ -p - (fmt.prec - 1 : Int)) (h4 : 0 ≤ p) (h5 : p ≤ fmt.emax) :
    Pair k (-p - (fmt.prec - 1 : Int)) p a (Num.ofRat (2 ^ k) *. a) := by
  obtain ⟨s, m, rfl, h⟩ := h
  have hp := fmt.prec_pos
  rw [mul_pow h1 h2]
  have hk : (0 : ℚ) < 2 ^ k := zpow_pos (by norm_num) _
  have hpp : (0 : ℚ) < 2 ^ p := zpow_pos (by norm_num) _
  have key : (∃ n : ℤ, m.val = n * 2 ^ (-p - (fmt.prec - 1 : Int))) ∧
      (∃ n : ℤ, 2 ^ k * m.val = n * 2 ^ (-p - (fmt.prec - 1 : Int))) ∧ m.val ≤ 2 ^ p ∧
      2 ^ k * m.val ≤ 2 ^ p := by
    rcases h with h | ⟨a1, a2, a3, a4⟩
    · rw [h, mul_zero]
      exact ⟨⟨0, by simp⟩, ⟨0, by simp⟩, hpp.le, hpp.le⟩
    · have hm : m.val ≠ 0 := by
        have : (0 : ℚ) < 2 ^ (-p) := zpow_pos (by norm_num) _
        intro h; rw [h] at a1; linarith
      refine ⟨?_, mag_multiple hm a3, a2, a4⟩
      have := mag_multiple (k := 0) (q := -p) hm (by simpa using a1)
      simpa using this
  obtain ⟨⟨n, hn⟩, ⟨n', hn'⟩, l, l'⟩ := key
  obtain ⟨j, hj⟩ := sval_multiple (s := s) hn
  obtain ⟨j', hj'⟩ : ∃ j : ℤ, 2 ^ k * sval s m = j * 2 ^ (-p - (fmt.prec - 1 : Int)) := by
    cases s
    · exact ⟨n', hn'⟩
    · exact ⟨-n', by simp only [sval, if_true]; push_cast; linarith⟩
  have := pair_ofExact (fmt := fmt) (z := s) hj hj' (h := p) (by rwa [abs_sval])
    (by rwa [abs_mul, abs_sval, abs_of_pos hk]) h3 (by omega) h5
  rwa [ofExact_sval] at this

/-! ### What does not see the factor -/

theorem Scaled.toExt {k : ℤ} {a b : Flt fmt} (h : Scaled k a b) :
    toExt b = match toExt a with | .fin x => .fin (2 ^ k * x) | e => e := by
  cases a with
  | fin s m =>
    cases b with
    | fin t n =>
      obtain ⟨rfl, h⟩ := h
      simp only [Flt.toExt, sval_scaled h]
    | inf t => exact h.elim
    | nan => exact h.elim
  | inf s =>
    cases b with
    | fin t n => exact h.elim
    | inf t => obtain rfl : s = t := h; cases s <;> rfl
    | nan => exact h.elim
  | nan =>
    cases b with
    | fin t n => exact h.elim
    | inf t => exact h.elim
    | nan => rfl

theorem Scaled.lt {k : ℤ} {a b c d : Flt fmt} (h : Scaled k a b) (h' : Scaled k c d) :
    (b <. d) = (a <. c) := by
  have hk : (0 : ℚ) < 2 ^ k := zpow_pos (by norm_num) _
  show Ext.lt (Flt.toExt b) (Flt.toExt d) = Ext.lt (Flt.toExt a) (Flt.toExt c)
  rw [h.toExt, h'.toExt]
  cases Flt.toExt a <;> cases Flt.toExt c <;> first | rfl | simp only [Ext.lt, Ext.le, mul_le_mul_iff_right₀ hk]

theorem Scaled.isNaN {k : ℤ} {a b : Flt fmt} (h : Scaled k a b) : Num.isNaN b = Num.isNaN a := by
  show Ext.isNaN (Flt.toExt b) = Ext.isNaN (Flt.toExt a)
  rw [h.toExt]
  cases Flt.toExt a <;> rfl

theorem Scaled.abs {k : ℤ} {a b : Flt fmt} (h : Scaled k a b) : Scaled k (Num.abs a) (Num.abs b) := by
  cases a <;> cases b <;> first | exact h.elim | trivial | exact ⟨rfl, h.2⟩

theorem Scaled.div {k : ℤ} {a b c d : Flt fmt} (h : Scaled k a b) (h' : Scaled k c d) :
    b /. d = a /. c := by
  have hk : (2 : ℚ) ^ k ≠ 0 := (zpow_pos (by norm_num) _).ne'
  show Flt.div b d = Flt.div a c
  cases a with
  | nan => cases b <;> first | exact h.elim | rfl
  | inf s =>
    cases b with
    | fin t n => exact h.elim
    | nan => exact h.elim
    | inf t =>
      obtain rfl : s = t := h
      cases c <;> cases d <;> first | exact h'.elim | rfl | (obtain ⟨rfl, _⟩ := h'; rfl)
  | fin s m =>
    cases b with
    | nan => exact h.elim
    | inf t => exact h.elim
    | fin t n =>
      obtain ⟨rfl, h⟩ := h
      cases c with
      | nan => cases d <;> first | exact h'.elim | rfl
      | inf u =>
        cases d with
        | fin t n => exact h'.elim
        | nan => exact h'.elim
        | inf t => obtain rfl : u = t := h'; rfl
      | fin u x =>
        cases d with
        | nan => exact h'.elim
        | inf t => exact h'.elim
        | fin v y =>
          obtain ⟨rfl, h'⟩ := h'
          have e1 : n.val = 0 ↔ m.val = 0 := by rw [h]; simp [hk]
          have e2 : y.val = 0 ↔ x.val = 0 := by rw [h']; simp [hk]
          simp only [Flt.div, e1, e2, sval_scaled h, sval_scaled h', mul_div_mul_left _ _ hk]

end Flt
end GChop
