import Verif.Lemmas.BinaryErr
import Verif.Props.Histogram
import Verif.Props.HistogramEnergy

/-!
# The bin edges of the histogram models in a binary format
-/

namespace GChop
namespace Flt
variable {fmt : Fmt}

/-! ### `np.linspace(-1, t, n + 1)` -/

/-- the value of edge `i` -/
def linVal (fmt : Fmt) (c : ℚ) (n i : Nat) : ℚ :=
  fmt.srnd (fmt.srnd (i * fmt.srnd (c / n)) - 1)

/-- what the arguments below use about the format -/
structure Wide (fmt : Fmt) : Prop where
  small : fmt.emin ≤ -2 * fmt.prec - 1
  large : (2 : ℚ) ^ (fmt.prec : ℕ) ≤ fmt.maxFin

theorem srnd_nat {n : Nat} (h : n ≤ 2 ^ fmt.prec) : fmt.srnd (n : ℚ) = n := by
  rw [fmt.srnd_of_nonneg (by positivity), fmt.roundPos_nat h]

theorem toExt_ofInt (hw : Wide fmt) {n : Nat} (h : n ≤ 2 ^ fmt.prec) :
    toExt (Num.ofInt (n : Int) : Flt fmt) = .fin n := by
  show toExt (ofExact false (((n : Int) : ℚ)) : Flt fmt) = _
  rw [toExt_ofExact, Int.cast_natCast, srnd_nat h, fmt.clip_fin]
  rw [abs_of_nonneg (by positivity)]
  refine le_trans ?_ hw.large
  exact_mod_cast h

theorem two_le (fmt : Fmt) : 2 ≤ 2 ^ fmt.prec := by
  have := fmt.prec_pos
  calc 2 = 2 ^ 1 := rfl
    _ ≤ _ := Nat.pow_le_pow_right (by norm_num) (by omega)

/-- relative error of the step -/
theorem step_err (hw : Wide fmt) {c : ℚ} (hc : 1 ≤ c) {n : Nat} (hn : 0 < n) (h : n ≤ 2 ^ fmt.prec) :
    |fmt.srnd (c / n) - c / n| ≤ c / n * 2 ^ (-(fmt.prec : ℤ)) := by
  have hn' : (0 : ℚ) < n := by exact_mod_cast hn
  have hpos : 0 < c / n := by positivity
  rw [fmt.srnd_of_nonneg hpos.le]
  apply fmt.roundPos_rel hpos
  have h1 : (2 : ℚ) ^ (-(fmt.prec : ℤ)) ≤ c / n := by
    rw [le_div_iff₀ hn', zpow_neg, zpow_natCast]
    have : (n : ℚ) ≤ 2 ^ fmt.prec := by exact_mod_cast h
    calc ((2 : ℚ) ^ fmt.prec)⁻¹ * n ≤ ((2 : ℚ) ^ fmt.prec)⁻¹ * 2 ^ fmt.prec := by gcongr
      _ = 1 := inv_mul_cancel₀ (by positivity)
      _ ≤ c := hc
  have h2 : -(fmt.prec : ℤ) ≤ Int.log 2 (c / n) :=
    (Int.zpow_le_iff_le_log (by norm_num) hpos).1 (by exact_mod_cast h1)
  have := hw.small
  omega

theorem step_nonneg {c : ℚ} (hc : 1 ≤ c) (n : Nat) : 0 ≤ fmt.srnd (c / n) := by
  have : (0 : ℚ) ≤ c / n := by positivity
  rw [fmt.srnd_of_nonneg this]
  exact fmt.roundPos_nonneg this

/-- no step but the last one reaches the end -/
theorem mul_step_le (hw : Wide fmt) {c : ℚ} (hc : 1 ≤ c) {n : Nat} (hn : 0 < n)
    (h : n ≤ 2 ^ fmt.prec) {i : Nat} (hi : i < n) : (i : ℚ) * fmt.srnd (c / n) ≤ c := by
  have hn' : (0 : ℚ) < n := by exact_mod_cast hn
  have h1 := (abs_le.1 (step_err hw hc hn h)).2
  have h2 : fmt.srnd (c / n) ≤ c / n * (1 + 2 ^ (-(fmt.prec : ℤ))) := by linarith
  have h3 : (i : ℚ) ≤ n - 1 := by
    have : i + 1 ≤ n := hi
    have : (i : ℚ) + 1 ≤ n := by exact_mod_cast this
    linarith
  have h4 : (n : ℚ) * 2 ^ (-(fmt.prec : ℤ)) ≤ 1 := by
    rw [zpow_neg, zpow_natCast]
    have : (n : ℚ) ≤ 2 ^ fmt.prec := by exact_mod_cast h
    calc (n : ℚ) * ((2 : ℚ) ^ fmt.prec)⁻¹ ≤ 2 ^ fmt.prec * ((2 : ℚ) ^ fmt.prec)⁻¹ := by gcongr
      _ = 1 := mul_inv_cancel₀ (by positivity)
  have hu : (0 : ℚ) < 2 ^ (-(fmt.prec : ℤ)) := zpow_pos (by norm_num) _
  have h5 : 0 ≤ c / n := by positivity
  calc (i : ℚ) * fmt.srnd (c / n)
      ≤ (n - 1) * (c / n * (1 + 2 ^ (-(fmt.prec : ℤ)))) := by
        refine mul_le_mul h3 h2 (step_nonneg hc n) ?_
        have : (1 : ℚ) ≤ n := by exact_mod_cast hn
        linarith
    _ = (n - 1) * (1 + 2 ^ (-(fmt.prec : ℤ))) * (c / n) := by ring
    _ ≤ n * (c / n) := by
        apply mul_le_mul_of_nonneg_right _ h5
        nlinarith
    _ = c := by field_simp

theorem linVal_mono {c : ℚ} (hc : 1 ≤ c) (n : Nat) {i j : Nat} (h : i ≤ j) :
    linVal fmt c n i ≤ linVal fmt c n j := by
  unfold linVal
  apply fmt.srnd_mono
  have : fmt.srnd (i * fmt.srnd (c / n)) ≤ fmt.srnd (j * fmt.srnd (c / n)) := by
    apply fmt.srnd_mono
    apply mul_le_mul_of_nonneg_right _ (step_nonneg hc n)
    exact_mod_cast h
  linarith

theorem linVal_zero (c : ℚ) (n : Nat) : linVal fmt c n 0 = -1 := by
  unfold linVal
  simp [Fmt.srnd_zero, Fmt.srnd_neg_one]

theorem linVal_le (hw : Wide fmt) {c : ℚ} (hc : 1 ≤ c) (hs : fmt.srnd c = c)
    (hs' : fmt.srnd (c - 1) = c - 1) {n : Nat} (hn : 0 < n)
    (h : n ≤ 2 ^ fmt.prec) {i : Nat} (hi : i < n) : linVal fmt c n i ≤ c - 1 := by
  unfold linVal
  apply fmt.srnd_le _ hs'
  have := fmt.srnd_le (mul_step_le hw hc hn h hi) hs
  linarith

/-- the values of the elements but the last -/
theorem linspace_val (hw : Wide fmt) (t : ℚ) (ht : t = 0 ∨ t = 1) {n : Nat} (hn : 0 < n)
    (h : n ≤ 2 ^ fmt.prec) {i : Nat} (hi : i < n) :
    toExt (edge (Np.linspace (Num.ofRat (-1)) (Num.ofRat t) n : List (Flt fmt)) i)
      = .fin (linVal fmt (t + 1) n i) ∧ linVal fmt (t + 1) n i ≤ t ∧ -1 ≤ linVal fmt (t + 1) n i := by
  have h2 := two_le fmt
  have hmax := hw.large
  have h2' : (2 : ℚ) ≤ 2 ^ fmt.prec := by exact_mod_cast h2
  have hc : 1 ≤ t + 1 := by rcases ht with rfl | rfl <;> norm_num
  have hc2 : t + 1 ≤ 2 := by rcases ht with rfl | rfl <;> norm_num
  have hs1 : fmt.srnd (1 : ℚ) = 1 := Fmt.srnd_one fmt
  have hs2 : fmt.srnd (2 : ℚ) = 2 := by exact_mod_cast srnd_nat (fmt := fmt) (n := 2) h2
  have hs : fmt.srnd (t + 1) = t + 1 := by
    rcases ht with rfl | rfl
    · simpa using hs1
    · norm_num; exact hs2
  have hs' : fmt.srnd (t + 1 - 1) = t + 1 - 1 := by
    rcases ht with rfl | rfl
    · norm_num; exact Fmt.srnd_zero fmt
    · norm_num; exact hs1
  have et : toExt (Num.ofRat t : Flt fmt) = .fin t := by
    rcases ht with rfl | rfl
    · exact toExt_zero
    · exact toExt_one
  have em : toExt (Num.ofRat (-1) : Flt fmt) = .fin (-1) := toExt_neg_one
  have ei : toExt (Num.ofInt (i : Int) : Flt fmt) = .fin i := toExt_ofInt hw (hi.le.trans h)
  have en : toExt (Num.ofInt (n : Int) : Flt fmt) = .fin n := toExt_ofInt hw h
  have hn' : (n : ℚ) ≠ 0 := by exact_mod_cast hn.ne'
  have e1 : toExt ((Num.ofRat t : Flt fmt) -. Num.ofRat (-1)) = .fin (t + 1) := by
    rw [toExt_sub et em, sub_neg_eq_add, hs, fmt.clip_fin]
    rw [abs_of_nonneg (by linarith)]
    linarith
  have hle := mul_step_le hw hc hn h hi
  have hS0 := step_nonneg (fmt := fmt) hc n
  have hS1 : fmt.srnd ((t + 1) / n) ≤ t + 1 := by
    apply fmt.srnd_le _ hs
    rw [div_le_iff₀ (by exact_mod_cast hn)]
    have : (1 : ℚ) ≤ n := by exact_mod_cast hn
    nlinarith
  have e2 : toExt (((Num.ofRat t : Flt fmt) -. Num.ofRat (-1)) /. Num.ofInt (n : Int))
      = .fin (fmt.srnd ((t + 1) / n)) := by
    rw [toExt_div e1 en hn', fmt.clip_fin]
    rw [abs_of_nonneg hS0]
    linarith
  have hi0 : (0 : ℚ) ≤ i := by positivity
  have hp0 : 0 ≤ fmt.srnd (i * fmt.srnd ((t + 1) / n)) := by
    rw [fmt.srnd_of_nonneg (by positivity)]
    exact fmt.roundPos_nonneg (by positivity)
  have hp1 : fmt.srnd (i * fmt.srnd ((t + 1) / n)) ≤ t + 1 := fmt.srnd_le hle hs
  have e3 : toExt ((Num.ofInt (i : Int)) *. (((Num.ofRat t : Flt fmt) -. Num.ofRat (-1))
      /. Num.ofInt (n : Int))) = .fin (fmt.srnd (i * fmt.srnd ((t + 1) / n))) := by
    rw [toExt_mul ei e2, fmt.clip_fin]
    rw [abs_of_nonneg hp0]
    linarith
  have hub : linVal fmt (t + 1) n i ≤ t := by
    have := linVal_le hw hc hs hs' hn h hi
    linarith
  have hlb : -1 ≤ linVal fmt (t + 1) n i := by
    have := linVal_mono (fmt := fmt) hc n (Nat.zero_le i)
    rwa [linVal_zero] at this
  refine ⟨?_, hub, hlb⟩
  have e4 : edge (Np.linspace (Num.ofRat (-1)) (Num.ofRat t) n : List (Flt fmt)) i
      = (Num.ofInt (i : Int) *. (((Num.ofRat t : Flt fmt) -. Num.ofRat (-1)) /. Num.ofInt (n : Int)))
        +. Num.ofRat (-1) := by
    unfold edge Np.linspace
    rw [List.getD_eq_getElem?_getD, List.getElem?_append_left (by simpa using hi), List.getElem?_map,
      List.getElem?_range hi]
    rfl
  rw [e4, toExt_add e3 em]
  have e5 : fmt.srnd (fmt.srnd (i * fmt.srnd ((t + 1) / n)) + -1) = linVal fmt (t + 1) n i := by
    unfold linVal
    rw [← sub_eq_add_neg]
  rw [e5, fmt.clip_fin]
  rw [abs_le]
  have := fmt.one_le_maxFin
  constructor
  · linarith
  · rcases ht with rfl | rfl <;> linarith

theorem linspace_last (t : ℚ) (n : Nat) :
    edge (Np.linspace (Num.ofRat (-1)) (Num.ofRat t) n : List (Flt fmt)) n = Num.ofRat t := by
  unfold edge Np.linspace
  rw [List.getD_eq_getElem?_getD, List.getElem?_append_right (by simp)]
  simp

/-- the distance of an element from the exact value, in units of half the last bit of 1 -/
theorem linVal_err (hw : Wide fmt) {n : Nat} (hn : 0 < n) (h : n ≤ 2 ^ fmt.prec) {i : Nat} (hi : i < n) :
    |linVal fmt 2 n i - (2 * i / n - 1)| ≤ 7 / 2 * 2 ^ (-(fmt.prec : ℤ)) := by
  have hn' : (0 : ℚ) < n := by exact_mod_cast hn
  have hu : (0 : ℚ) < 2 ^ (-(fmt.prec : ℤ)) := zpow_pos (by norm_num) _
  set u : ℚ := 2 ^ (-(fmt.prec : ℤ)) with hudef
  have hsm := hw.small
  have h1 := step_err hw (by norm_num : (1 : ℚ) ≤ 2) hn h
  have hle := mul_step_le hw (by norm_num : (1 : ℚ) ≤ 2) hn h hi
  have hS0 := step_nonneg (fmt := fmt) (by norm_num : (1 : ℚ) ≤ 2) n
  set S := fmt.srnd (2 / n) with hS
  have hi0 : (0 : ℚ) ≤ i := by positivity
  have hin : (i : ℚ) ≤ n := by exact_mod_cast hi.le
  have a1 : |i * S - 2 * i / n| ≤ 2 * u := by
    have : i * S - 2 * i / n = i * (S - 2 / n) := by ring
    rw [this, abs_mul, abs_of_nonneg hi0]
    calc (i : ℚ) * |S - 2 / n| ≤ i * (2 / n * u) := mul_le_mul_of_nonneg_left h1 hi0
      _ = (i / n) * (2 * u) := by ring
      _ ≤ 1 * (2 * u) := by
        apply mul_le_mul_of_nonneg_right _ (by positivity)
        rw [div_le_one hn']
        exact hin
      _ = 2 * u := one_mul _
  have hiS : 0 ≤ i * S := by positivity
  have a2 : |fmt.srnd (i * S) - i * S| ≤ u := by
    have := fmt.srnd_abs_err (x := i * S) (e := 1) (by rw [abs_of_nonneg hiS, zpow_one]; exact hle)
      (by omega)
    rw [sub_eq_add_neg (1 : ℤ), zpow_add₀ (by norm_num), zpow_one] at this
    linarith
  have hp0 : 0 ≤ fmt.srnd (i * S) := by
    rw [fmt.srnd_of_nonneg hiS]
    exact fmt.roundPos_nonneg hiS
  have hs2 : fmt.srnd (2 : ℚ) = 2 := by exact_mod_cast srnd_nat (fmt := fmt) (n := 2) (two_le fmt)
  have hp1 : fmt.srnd (i * S) ≤ 2 := fmt.srnd_le hle hs2
  have a3 : |fmt.srnd (fmt.srnd (i * S) - 1) - (fmt.srnd (i * S) - 1)| ≤ u / 2 := by
    have := fmt.srnd_abs_err (x := fmt.srnd (i * S) - 1) (e := 0)
      (by rw [abs_le, zpow_zero]; constructor <;> linarith) (by omega)
    rw [sub_eq_add_neg (0 : ℤ), zero_add] at this
    linarith
  unfold linVal
  rw [abs_le] at a1 a2 a3 ⊢
  constructor <;> linarith

/-! ### `np.round` -/

/-- the value of `np.round(v, d)` where the float `10.0**d` is `P` -/
def decVal (fmt : Fmt) (P v : ℚ) : ℚ :=
  fmt.srnd (fmt.srnd (Ext.roundHalfEven (fmt.srnd (v * P))) / P)

theorem decVal_mono {P v w : ℚ} (hP : 0 < P) (h : v ≤ w) : decVal fmt P v ≤ decVal fmt P w := by
  unfold decVal
  apply fmt.srnd_mono
  apply div_le_div_of_nonneg_right _ hP.le
  apply fmt.srnd_mono
  have h1 : v * P ≤ w * P := mul_le_mul_of_nonneg_right h hP.le
  exact_mod_cast Fmt.roundHalfEven_mono (fmt.srnd_mono h1)

theorem decVal_neg (P v : ℚ) : decVal fmt P (-v) = -decVal fmt P v := by
  unfold decVal
  rw [neg_mul, fmt.srnd_neg, roundHalfEven_neg, Int.cast_neg, fmt.srnd_neg, neg_div, fmt.srnd_neg]

theorem decVal_one {k : Nat} (hk : 0 < k) (hs : fmt.srnd (k : ℚ) = k) : decVal fmt k 1 = 1 := by
  have hk' : (k : ℚ) ≠ 0 := by exact_mod_cast hk.ne'
  have h1 : Ext.roundHalfEven (k : ℚ) = k := by
    exact_mod_cast Fmt.roundHalfEven_int (k : ℤ)
  unfold decVal
  rw [one_mul, hs, h1, Int.cast_natCast, hs, div_self hk', Fmt.srnd_one]

theorem roundDec_val {k : Nat} (hk : 0 < k) (hs : fmt.srnd (k : ℚ) = k) (hmax : (k : ℚ) ≤ fmt.maxFin)
    {d : Nat} (hp : toExt (ofExact false (10 ^ d) : Flt fmt) = .fin k) {a : Flt fmt} {v : ℚ}
    (ha : toExt a = .fin v) (hv : |v| ≤ 1) :
    toExt (Num.roundDec (d : Int) a) = .fin (decVal fmt k v) ∧ |decVal fmt k v| ≤ 1 := by
  have hk' : (0 : ℚ) < k := by exact_mod_cast hk
  have h1 : |v * k| ≤ k := by
    rw [abs_mul, abs_of_pos hk']
    nlinarith
  have h2 : |fmt.srnd (v * k)| ≤ k := fmt.abs_srnd_le h1 hs
  have h3 : |(Ext.roundHalfEven (fmt.srnd (v * k)) : ℚ)| ≤ k := by
    rw [abs_le] at h2 ⊢
    constructor
    · have := Fmt.le_roundHalfEven_int (x := fmt.srnd (v * k)) (n := -k) (by push_cast; exact h2.1)
      exact_mod_cast this
    · have := Fmt.roundHalfEven_le_int (x := fmt.srnd (v * k)) (n := k) (by push_cast; exact h2.2)
      exact_mod_cast this
  have h4 := fmt.abs_srnd_le h3 hs
  have h5 : |fmt.srnd (Ext.roundHalfEven (fmt.srnd (v * k))) / k| ≤ 1 := by
    rw [abs_div, abs_of_pos hk', div_le_one hk']
    exact h4
  have h6 : |decVal fmt k v| ≤ 1 := fmt.abs_srnd_le h5 (Fmt.srnd_one fmt)
  refine ⟨?_, h6⟩
  have hdef : (Num.roundDec (d : Int) a : Flt fmt)
      = (rint (a *. ofExact false (10 ^ d))) /. (ofExact false (10 ^ d)) := by
    show roundDec (d : Int) a = _
    unfold roundDec
    rw [if_pos (by omega)]
    rfl
  have e1 : toExt (a *. ofExact false (10 ^ d) : Flt fmt) = .fin (fmt.srnd (v * k)) := by
    rw [toExt_mul ha hp, fmt.clip_fin (h2.trans hmax)]
  have e2 := toExt_rint e1
  rw [fmt.clip_fin (h4.trans hmax)] at e2
  rw [hdef, toExt_div e2 hp hk'.ne', ← decVal, fmt.clip_fin (h6.trans fmt.one_le_maxFin)]

end Flt

/-! ### The edges of `_make_histogram` -/

namespace Flt
variable {fmt : Fmt}

/-- `10.0**d` is finite -/
structure Digits (fmt : Fmt) (d k : Nat) : Prop where
  pos : 0 < k
  grid : fmt.srnd (k : ℚ) = k
  max : (k : ℚ) ≤ fmt.maxFin
  val : toExt (ofExact false (10 ^ d) : Flt fmt) = .fin k

theorem edge_map {f : Flt fmt → Flt fmt} {l : List (Flt fmt)} {i : Nat} (h : i < l.length) :
    edge (l.map f) i = f (edge l i) := by
  unfold edge
  rw [List.getD_eq_getElem?_getD, List.getD_eq_getElem?_getD, List.getElem?_map,
    List.getElem?_eq_getElem h]
  rfl

theorem linspace_length (a b : Flt fmt) (n : Nat) : (Np.linspace a b n).length = n + 1 := by
  simp [Np.linspace]

/-- the value of every rounded edge -/
theorem roundedEdges_val (hw : Wide fmt) {d k : Nat} (hd : Digits fmt d k) {n : Nat} (hn : 0 < n)
    (h : n ≤ 2 ^ fmt.prec) {i : Nat} (hi : i < n) :
    toExt (edge (roundedEdges (n : Int) (d : Int) : List (Flt fmt)) i)
      = .fin (decVal fmt k (linVal fmt 2 n i)) ∧ |decVal fmt k (linVal fmt 2 n i)| ≤ 1 := by
  obtain ⟨h1, h2, h3⟩ := linspace_val hw 1 (Or.inr rfl) hn h hi
  have e : (1 : ℚ) + 1 = 2 := by norm_num
  rw [e] at h1 h2 h3
  unfold roundedEdges
  rw [Int.toNat_natCast, edge_map (by rw [linspace_length]; omega)]
  exact roundDec_val hd.pos hd.grid hd.max hd.val h1 (abs_le.2 ⟨h3, h2⟩)

theorem roundedEdges_last {d k : Nat} (hd : Digits fmt d k) (n : Nat) :
    toExt (edge (roundedEdges (n : Int) (d : Int) : List (Flt fmt)) n) = .fin 1 := by
  unfold roundedEdges
  rw [Int.toNat_natCast, edge_map (by rw [linspace_length]; omega), linspace_last]
  have := (roundDec_val hd.pos hd.grid hd.max hd.val (toExt_one (fmt := fmt)) (by norm_num)).1
  rw [decVal_one hd.pos hd.grid] at this
  exact this

theorem roundedEdges_sorted (hw : Wide fmt) {d k : Nat} (hd : Digits fmt d k) {n : Nat} (hn : 0 < n)
    (h : n ≤ 2 ^ fmt.prec) : EdgesSorted (roundedEdges (n : Int) (d : Int) : List (Flt fmt)) n := by
  intro i hi
  obtain ⟨h1, h2⟩ := roundedEdges_val hw hd hn h hi
  show Ext.le (toExt _) (toExt _) = true
  rw [h1]
  by_cases hi' : i + 1 < n
  · rw [(roundedEdges_val hw hd hn h hi').1]
    refine decide_eq_true (show _ ≤ _ from ?_)
    exact decVal_mono (by exact_mod_cast hd.pos) (linVal_mono (by norm_num) n (Nat.le_succ i))
  · have : i + 1 = n := by omega
    rw [this, roundedEdges_last hd]
    exact decide_eq_true (show _ ≤ _ from (abs_le.1 h2).2)

theorem roundedEdges_cover (hw : Wide fmt) {d k : Nat} (hd : Digits fmt d k) {n : Nat} (hn : 0 < n)
    (h : n ≤ 2 ^ fmt.prec) : EdgesCover (roundedEdges (n : Int) (d : Int) : List (Flt fmt)) n := by
  constructor
  · obtain ⟨h1, -⟩ := roundedEdges_val hw hd hn h hn
    show Ext.le (toExt _) (toExt (ofExact false (-1))) = true
    rw [h1, linVal_zero, decVal_neg, decVal_one hd.pos hd.grid, toExt_neg_one]
    exact decide_eq_true (le_refl (-1 : ℚ))
  · show Ext.le (toExt (ofExact false 1)) (toExt _) = true
    rw [roundedEdges_last hd, toExt_one]
    exact decide_eq_true (le_refl (1 : ℚ))

/-- the energy edges -/
theorem energyEdges_sorted (hw : Wide fmt) {n : Nat} (h : n ≤ 2 ^ fmt.prec) :
    EdgesSorted (energyEdges n : List (Flt fmt)) n := by
  intro i hi
  have hn : 0 < n := by omega
  obtain ⟨h1, h2, h3⟩ := linspace_val hw 0 (Or.inl rfl) hn h hi
  show Ext.le (toExt (edge (Np.linspace _ _ n) i)) (toExt (edge (Np.linspace _ _ n) (i + 1))) = true
  rw [h1]
  by_cases hi' : i + 1 < n
  · rw [(linspace_val hw 0 (Or.inl rfl) hn h hi').1]
    exact decide_eq_true (show _ ≤ _ from linVal_mono (by norm_num) n (Nat.le_succ i))
  · have : i + 1 = n := by omega
    rw [this, linspace_last]
    show Ext.le _ (toExt (ofExact false 0)) = true
    rw [toExt_zero]
    exact decide_eq_true (show _ ≤ _ from h2)

/-! ### The zero edge -/

theorem decVal_eq_zero {P v b : ℚ} (hP : 0 < P) (h : |v| * P ≤ b) (hb : b < 1 / 2)
    (hs : fmt.srnd b = b) : decVal fmt P v = 0 := by
  have h1 : |fmt.srnd (v * P)| ≤ b := by
    apply fmt.abs_srnd_le _ hs
    rw [abs_mul, abs_of_pos hP]
    exact h
  have h2 : Ext.roundHalfEven (fmt.srnd (v * P)) = 0 := by
    rw [roundHalfEven_eq_zero]
    linarith
  unfold decVal
  rw [h2]
  simp [Fmt.srnd_zero]

theorem decVal_ne_zero {P v b c : ℚ} (hP : 0 < P) (h : b ≤ |v| * P) (hb : 1 / 2 < b)
    (hs : fmt.srnd b = b) (hc : c ≤ 1 / P) (hc0 : 0 < c) (hcs : fmt.srnd c = c) :
    decVal fmt P v ≠ 0 := by
  -- it is enough to look at positive numbers
  have key : ∀ w, 0 ≤ w → b ≤ w * P → 0 < decVal fmt P w := by
    intro w hw hle
    have h1 : b ≤ fmt.srnd (w * P) := fmt.le_srnd hle hs
    have h2 : 1 ≤ Ext.roundHalfEven (fmt.srnd (w * P)) := by
      have h3 : 0 ≤ Ext.roundHalfEven (fmt.srnd (w * P)) :=
        Fmt.le_roundHalfEven_int (by push_cast; linarith)
      have h4 : Ext.roundHalfEven (fmt.srnd (w * P)) ≠ 0 := by
        rw [Ne, roundHalfEven_eq_zero, not_le, abs_of_nonneg (by linarith)]
        linarith
      omega
    have h5 : (1 : ℚ) ≤ fmt.srnd (Ext.roundHalfEven (fmt.srnd (w * P))) := by
      apply fmt.le_srnd _ (Fmt.srnd_one fmt)
      exact_mod_cast h2
    unfold decVal
    refine lt_of_lt_of_le hc0 (fmt.le_srnd (hc.trans ?_) hcs)
    exact div_le_div_of_nonneg_right h5 hP.le
  rcases le_total 0 v with h0 | h0
  · rw [abs_of_nonneg h0] at h
    exact (key v h0 h).ne'
  · rw [abs_of_nonpos h0] at h
    have := key (-v) (by linarith) h
    rw [decVal_neg] at this
    intro hz
    rw [hz] at this
    simp at this

end Flt
end GChop
