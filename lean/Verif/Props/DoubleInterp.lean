import Verif.Lemmas.ProfileGap
import Verif.Props.DoubleSign
import Verif.Props.DoubleKinematics

/-!
# C86: accuracy of the circularity in double precision
-/

namespace GChop
open Flt

/-! ## The points of the profile are far enough from each other -/

theorem ulp_pow {e : ℤ} (he : -1022 ≤ e) : Fmt.binary64.ulp ((2 : ℚ) ^ e) = 2 ^ (e - 52) := by
  rw [Fmt.ulp_eq]
  congr 1
  unfold Fmt.uexp
  have : Int.log 2 ((2 : ℚ) ^ e) = e := by
    have := Int.log_zpow (R := ℚ) (b := 2) (by norm_num) e
    simpa using this
  rw [this]
  show max (e - ((53 : ℕ) - 1 : Int)) (-1074) = _
  omega

/-- a double of at least `2^e` is a multiple of `2^(e - 52)` -/
theorem value_grid {a : Float64} {e : ℤ} (he : -1022 ≤ e) (h : 2 ^ e ≤ |value a|) :
    ∃ n : ℤ, value a = n * 2 ^ (e - 52) := by
  have hp : (0 : ℚ) < 2 ^ e := zpow_pos (by norm_num) _
  have main : ∀ m : Fmt.binary64.Mag, (2 : ℚ) ^ e ≤ m.val → ∃ n : ℤ, m.val = n * 2 ^ (e - 52) := by
    intro m hm
    obtain ⟨n, hn⟩ := Fmt.binary64.multiple_of_grid (Fmt.binary64.uexp_mono hp hm) m.grid
    exact ⟨n, by rw [hn, ulp_pow he]⟩
  cases a with
  | fin s m =>
    have hv : |value (fin s m : Float64)| = m.val := by
      cases s
      · exact abs_of_nonneg m.nonneg
      · show |-m.val| = _
        rw [abs_neg]
        exact abs_of_nonneg m.nonneg
    rw [hv] at h
    obtain ⟨n, hn⟩ := main m h
    cases s
    · exact ⟨n, hn⟩
    · refine ⟨-n, ?_⟩
      show -m.val = _
      rw [hn]
      push_cast
      ring
  | inf s => cases s <;> simp [value, toExt] at h <;> linarith
  | nan => simp [value, toExt] at h; linarith

/-- a negative edge `s + p` is not close to zero -/
theorem edge_far {s p t : Float64} {n : ℤ} {v : ℚ} (hs : toExt s = .fin (-(n * 2 ^ (-57 : ℤ))))
    (hn : (2 : ℚ) ^ (-4 : ℤ) ≤ n * 2 ^ (-57 : ℤ)) (ht : s +. p = t) (hv : toExt t = .fin v)
    (h0 : v < 0) : v ≤ -2 ^ (-57 : ℤ) := by
  have h57 : (0 : ℚ) < 2 ^ (-57 : ℤ) := zpow_pos (by norm_num) _
  have fp : ∃ w, toExt p = .fin w := by
    rw [← ht, toExt_add_rnd, hs] at hv
    cases hp : toExt p with
    | fin w => exact ⟨w, rfl⟩
    | nan => rw [hp] at hv; cases hv
    | pinf => rw [hp] at hv; cases hv
    | ninf => rw [hp] at hv; cases hv
  obtain ⟨w, hw⟩ := fp
  have e := toExt_add hs hw
  rw [ht, hv] at e
  have ev : v = Fmt.binary64.srnd (-(n * 2 ^ (-57 : ℤ)) + w) := by
    unfold Fmt.clip at e
    split_ifs at e
    cases e
    rfl
  have grid : Fmt.binary64.srnd (-2 ^ (-57 : ℤ)) = -2 ^ (-57 : ℤ) := by
    rw [Fmt.srnd_neg, Fmt.srnd_pow (fmt := Fmt.binary64) (by decide)]
  rw [ev]
  refine Fmt.binary64.srnd_le ?_ grid
  by_cases hw5 : (2 : ℚ) ^ (-5 : ℤ) ≤ w
  · obtain ⟨k, hk⟩ := value_grid (a := p) (e := -5) (by norm_num) (by
      rw [value_eq hw]
      exact hw5.trans (le_abs_self _))
    rw [value_eq hw] at hk
    rw [show (-5 - 52 : ℤ) = -57 by norm_num] at hk
    have hneg : -(n * 2 ^ (-57 : ℤ)) + w < 0 := by
      by_contra hge
      have := Fmt.srnd_mono Fmt.binary64 (not_lt.1 hge)
      rw [Fmt.srnd_zero, ← ev] at this
      linarith
    rw [hk] at hneg ⊢
    have e1 : -((n : ℚ) * 2 ^ (-57 : ℤ)) + k * 2 ^ (-57 : ℤ) = ((k - n : ℤ) : ℚ) * 2 ^ (-57 : ℤ) := by
      push_cast
      ring
    rw [e1] at hneg ⊢
    have hkn : (k - n : ℤ) ≤ -1 := by
      have : ((k - n : ℤ) : ℚ) < 0 := by
        by_contra hge
        have := mul_nonneg (not_lt.1 hge) h57.le
        linarith
      have : (k - n : ℤ) < 0 := by exact_mod_cast this
      omega
    have : ((k - n : ℤ) : ℚ) ≤ -1 := by exact_mod_cast hkn
    nlinarith
  · rw [not_le] at hw5
    have e4 : (2 : ℚ) ^ (-4 : ℤ) = 1 / 16 := by norm_num
    have e5 : (2 : ℚ) ^ (-5 : ℤ) = 1 / 32 := by norm_num
    have e57 : (2 : ℚ) ^ (-57 : ℤ) ≤ 1 / 64 := by norm_num
    rw [e4] at hn
    rw [e5] at hw5
    generalize (n : ℚ) * 2 ^ (-57 : ℤ) = N at *
    generalize (2 : ℚ) ^ (-57 : ℤ) = E at *
    linarith

theorem arange_far {s stop step : Float64} {l : List Float64} {n : ℤ}
    (hs : toExt s = .fin (-(n * 2 ^ (-57 : ℤ)))) (hn : (2 : ℚ) ^ (-4 : ℤ) ≤ n * 2 ^ (-57 : ℤ))
    (h : Np.arange s stop step = .ok l) {t : Float64} (ht : t ∈ l) {v : ℚ} (hv : toExt t = .fin v)
    (h0 : v < 0) : v ≤ -2 ^ (-57 : ℤ) := by
  unfold Np.arange at h
  split_ifs at h
  cases h
  obtain ⟨i, _, rfl⟩ := List.mem_map.1 ht
  split_ifs at hv
  · rw [hs] at hv
    cases hv
    refine neg_le_neg (le_trans ?_ hn)
    norm_num
  · exact edge_far hs hn rfl hv h0
  · exact edge_far hs hn rfl hv h0

theorem energyBins_far {bin0 bin1 : Float64} {aux : List Float64}
    (h : energyBins bin0 bin1 = .ok aux) {t : Float64} (ht : t ∈ aux) {v : ℚ}
    (hv : toExt t = .fin v) (h0 : v < 0) : v ≤ -2 ^ (-57 : ℤ) := by
  unfold energyBins at h
  cases h1 : Np.arange (Num.ofRat (-1) : Float64) (Num.ofRat (-1/10)) bin0 with
  | error e => rw [h1] at h; cases h
  | ok l0 =>
  cases h2 : Np.arange (Num.ofRat (-1/10) : Float64) (Num.ofRat 0) bin1 with
  | error e => rw [h1, h2] at h; cases h
  | ok l1 =>
  rw [h1, h2] at h
  cases h
  rcases List.mem_append.1 ht with ht | ht
  · refine arange_far (n := 2 ^ 57) ?_ ?_ h1 ht hv h0
    · decide +kernel
    · norm_num
  · refine arange_far (n := 14411518807585588) ?_ ?_ h2 ht hv h0
    · decide +kernel
    · norm_num

theorem value_gap {u v : Float64} (hu : value u ≤ -2 ^ (-57 : ℤ)) (huv : value u < value v)
    (hv : value v ≤ 0) : (2 : ℚ) ^ (-112 : ℤ) ≤ value v - value u := by
  by_cases h : value v ≤ -2 ^ (-58 : ℤ)
  · have e1 : (2 : ℚ) ^ (-58 : ℤ) ≤ 2 ^ (-57 : ℤ) := by norm_num
    obtain ⟨n, hn⟩ := value_grid (a := u) (e := -58) (by norm_num) (by
      rw [abs_of_nonpos (huv.le.trans hv)]
      linarith)
    obtain ⟨k, hk⟩ := value_grid (a := v) (e := -58) (by norm_num) (by
      rw [abs_of_nonpos hv]
      linarith)
    have h110 : (0 : ℚ) < 2 ^ (-58 - 52 : ℤ) := zpow_pos (by norm_num) _
    have e2 : value v - value u = ((k - n : ℤ) : ℚ) * 2 ^ (-58 - 52 : ℤ) := by
      rw [hn, hk]
      push_cast
      ring
    have hpos : 0 < ((k - n : ℤ) : ℚ) * (2 : ℚ) ^ (-58 - 52 : ℤ) := by
      rw [← e2]
      linarith
    have h1 : (1 : ℤ) ≤ k - n := by
      have : 0 < ((k - n : ℤ) : ℚ) := by
        by_contra hge
        have := mul_nonneg (neg_nonneg.2 (not_lt.1 hge)) h110.le
        linarith
      have : 0 < k - n := by exact_mod_cast this
      omega
    have h1' : (1 : ℚ) ≤ ((k - n : ℤ) : ℚ) := by exact_mod_cast h1
    rw [e2]
    have := mul_le_mul_of_nonneg_right h1' h110.le
    refine le_trans ?_ this
    norm_num
  · rw [not_le] at h
    have : (2 : ℚ) ^ (-57 : ℤ) - 2 ^ (-58 : ℤ) ≥ 2 ^ (-112 : ℤ) := by norm_num
    linarith

/-! ## The error of one interpolation -/

/-- the ratio of two rounded distances -/
theorem ratio_real {δ τ D T u : ℝ} (hu0 : 0 < u) (hu : u ≤ 1 / 1000) (hτ : 0 < τ)
    (hτδ : τ ≤ δ) (hD : |D - δ| ≤ δ * u) (hT : |T - τ| ≤ τ * u) :
    0 < D ∧ 0 < T ∧ T ≤ 2 * δ ∧ |T / D - τ / δ| ≤ 3 * u := by
  have hδ0 : 0 < δ := hτ.trans_le hτδ
  have hD' := abs_le.1 hD
  have hT' := abs_le.1 hT
  have a1 : δ * u ≤ δ * (1 / 1000) := mul_le_mul_of_nonneg_left hu hδ0.le
  have a2 : τ * u ≤ τ * (1 / 1000) := mul_le_mul_of_nonneg_left hu hτ.le
  have hD0 : 0 < D := by linarith
  have hT0 : 0 < T := by linarith
  refine ⟨hD0, hT0, by linarith, ?_⟩
  have e : T / D - τ / δ = ((T - τ) * δ - τ * (D - δ)) / (D * δ) := by
    field_simp
    ring
  rw [e, abs_div, abs_of_pos (mul_pos hD0 hδ0), div_le_iff₀ (mul_pos hD0 hδ0)]
  have h1 : |(T - τ) * δ - τ * (D - δ)| ≤ τ * u * δ + τ * (δ * u) := by
    refine (abs_sub _ _).trans (add_le_add ?_ ?_)
    · rw [abs_mul, abs_of_pos hδ0]
      exact mul_le_mul_of_nonneg_right hT hδ0.le
    · rw [abs_mul, abs_of_pos hτ]
      exact mul_le_mul_of_nonneg_left hD hτ.le
  have h2 := mul_le_mul_of_nonneg_right hτδ (mul_nonneg hδ0.le hu0.le)
  have h3 : 2 * δ ≤ 3 * D := by linarith
  have h4 := mul_le_mul_of_nonneg_right h3 (mul_nonneg hδ0.le hu0.le)
  calc _ ≤ _ := h1
    _ = 2 * (τ * (δ * u)) := by ring
    _ ≤ 2 * (δ * (δ * u)) := by linarith
    _ = 2 * δ * (δ * u) := by ring
    _ ≤ 3 * D * (δ * u) := h4
    _ = _ := by ring

/-- the product of a rounded slope and a rounded distance; `r` and `ρ` are the ratios of the
distances -/
theorem product_real {v V D T S P u t r ρ : ℝ} (hu0 : 0 < u) (hu : u ≤ 1 / 1000) (ht0 : 0 < t)
    (ht : t ≤ u / 1000) (hv1 : |v| ≤ 1) (hD0 : 0 < D) (hT0 : 0 < T) (hT1 : T ≤ 2) (hr : r = T / D)
    (hρ0 : 0 < ρ) (hρ1 : ρ ≤ 1) (hρ : |r - ρ| ≤ 3 * u) (hV : |V - v| ≤ |v| * u)
    (hS : |S - V / D| ≤ |V / D| * u + t) (hP : |P - S * T| ≤ |S * T| * u + t) :
    |S * T| ≤ 1 + 1 / 100 ∧ |P - v * ρ| ≤ 6 * u + u / 10 := by
  have hr0 : 0 < r := hr ▸ div_pos hT0 hD0
  have hr1 : r ≤ 1 + 3 * u := by
    have := (abs_le.1 hρ).2
    linarith
  have uu : u * u ≤ u / 1000 := by
    have := mul_le_mul_of_nonneg_left hu hu0.le
    linarith
  have vu : |v| * u ≤ u := by
    have := mul_le_mul_of_nonneg_right hv1 hu0.le
    linarith
  have hVa : |V| ≤ 1 + u := by
    have := abs_sub_abs_le_abs_sub V v
    linarith
  have hVr : |V * r - v * ρ| ≤ 4 * u + u / 100 := by
    have e : V * r - v * ρ = (V - v) * r + v * (r - ρ) := by ring
    rw [e]
    refine (abs_add_le _ _).trans ?_
    rw [abs_mul, abs_mul, abs_of_pos hr0]
    have h1 : |V - v| * r ≤ u * (1 + 3 * u) := mul_le_mul (hV.trans vu) hr1 hr0.le hu0.le
    have h2 : |v| * |r - ρ| ≤ 1 * (3 * u) := mul_le_mul hv1 hρ (abs_nonneg _) zero_le_one
    have h3 : u * (1 + 3 * u) = u + 3 * (u * u) := by ring
    linarith
  have hST : |S * T - V * r| ≤ u + u / 50 := by
    have e : S * T - V * r = (S - V / D) * T := by
      rw [hr]
      field_simp
    rw [e, abs_mul, abs_of_pos hT0]
    have h1 := mul_le_mul_of_nonneg_right hS hT0.le
    have h2 : |V / D| * T = |V| * r := by
      rw [abs_div, abs_of_pos hD0, hr]
      field_simp
    have h3 : |V| * r ≤ (1 + u) * (1 + 3 * u) := mul_le_mul hVa hr1 hr0.le (by linarith)
    have h4 : (|V / D| * u + t) * T = |V| * r * u + t * T := by
      rw [← h2]
      ring
    rw [h4] at h1
    have h5 : t * T ≤ t * 2 := mul_le_mul_of_nonneg_left hT1 ht0.le
    have h7 : (1 + u) * (1 + 3 * u) ≤ 1 + 1 / 100 := by
      have : (1 + u) * (1 + 3 * u) = 1 + 4 * u + 3 * (u * u) := by ring
      linarith
    have h8 := mul_le_mul_of_nonneg_right (h3.trans h7) hu0.le
    linarith
  have hvρ : |v * ρ| ≤ 1 := by
    rw [abs_mul, abs_of_pos hρ0]
    exact mul_le_one₀ hv1 hρ0.le hρ1
  have hST1 : |S * T| ≤ 1 + 1 / 100 := by
    have := abs_sub_abs_le_abs_sub (S * T) (v * ρ)
    have := abs_sub_le (S * T) (V * r) (v * ρ)
    linarith
  refine ⟨hST1, ?_⟩
  have h1 := abs_sub_le P (S * T) (v * ρ)
  have h2 := abs_sub_le (S * T) (V * r) (v * ρ)
  have h3 := mul_le_mul_of_nonneg_right hST1 hu0.le
  linarith

/-- a value between two values is between 0 and 1 if they are -/
theorem mix_range {c d ρ : ℝ} (hc : 0 ≤ c) (hc1 : c ≤ 1) (hd : 0 ≤ d) (hd1 : d ≤ 1) (hρ0 : 0 ≤ ρ)
    (hρ1 : ρ ≤ 1) : 0 ≤ c + (d - c) * ρ ∧ c + (d - c) * ρ ≤ 1 := by
  constructor
  · have : c + (d - c) * ρ = c * (1 - ρ) + d * ρ := by ring
    rw [this]
    exact add_nonneg (mul_nonneg hc (by linarith)) (mul_nonneg hd hρ0)
  · have : c + (d - c) * ρ = 1 - ((1 - c) * (1 - ρ) + (1 - d) * ρ) := by ring
    rw [this]
    have := add_nonneg (mul_nonneg (sub_nonneg.2 hc1) (sub_nonneg.2 hρ1))
      (mul_nonneg (sub_nonneg.2 hd1) hρ0)
    linarith

/-- the last addition -/
theorem sum_real {c x P R u : ℝ} (hu0 : 0 < u) (hu : u ≤ 1 / 1000) (hx0 : 0 ≤ c + x)
    (hx1 : c + x ≤ 1) (hP : |P - x| ≤ 6 * u + u / 10) (hR : |R - (P + c)| ≤ |P + c| * u) :
    |R - (c + x)| ≤ 8 * u := by
  have hPc : |P + c| ≤ 1 + 1 / 100 := by
    have := abs_le.1 hP
    rw [abs_le]
    constructor <;> linarith
  have h1 := abs_sub_le R (P + c) (c + x)
  have h2 : P + c - (c + x) = P - x := by ring
  rw [h2] at h1
  have h3 := mul_le_mul_of_nonneg_right hPc hu0.le
  linarith

theorem tiny_small : (tiny : ℝ) ≤ 1 / 2 ^ 53 / 1000 := by
  have h : tiny ≤ 1 / 2 ^ 53 / 1000 := by
    unfold tiny
    calc (2 : ℚ) ^ (-1074 : ℤ) ≤ 2 ^ (-64 : ℤ) := zpow_le_zpow_right₀ (by norm_num) (by norm_num)
      _ ≤ _ := by norm_num
  have := (Rat.cast_le (K := ℝ)).2 h
  simpa using this

theorem tiny_pos' : (0 : ℝ) < tiny := by exact_mod_cast tiny_pos

/-- subtraction without a term for underflow -/
theorem rel_sub {a b : Float64} (fa : Num.isFinite a = true) (fb : Num.isFinite b = true)
    (hB : |value a - value b| ≤ 4) : Num.isFinite (a -. b) = true ∧
      |(value (a -. b) : ℝ) - (value a - value b)| ≤ |(value a - value b : ℝ)| * (1 / 2 ^ 53) := by
  have e := toExt_sub (toExt_value fa) (toExt_value fb)
  rw [clip_srnd (e := 2) (by norm_num; linarith) (by decide) (by decide)] at e
  refine ⟨isFinite_of e, ?_⟩
  rw [value_eq e]
  have := srnd_sub_rel a b
  rw [pow_prec] at this
  have := (Rat.cast_le (K := ℝ)).2 this
  push_cast at this
  exact this

theorem rel_add {a b : Float64} (fa : Num.isFinite a = true) (fb : Num.isFinite b = true)
    (hB : |value a + value b| ≤ 4) : Num.isFinite (a +. b) = true ∧
      |(value (a +. b) : ℝ) - (value a + value b)| ≤ |(value a + value b : ℝ)| * (1 / 2 ^ 53) := by
  have e := toExt_add (toExt_value fa) (toExt_value fb)
  rw [clip_srnd (e := 2) (by norm_num; linarith) (by decide) (by decide)] at e
  refine ⟨isFinite_of e, ?_⟩
  rw [value_eq e]
  have := srnd_add_rel a b
  rw [pow_prec] at this
  have := (Rat.cast_le (K := ℝ)).2 this
  push_cast at this
  exact this

theorem err_div {a b : Float64} (fa : Num.isFinite a = true) (fb : Num.isFinite b = true)
    (hb : value b ≠ 0) (hB : |(value a / value b : ℝ)| ≤ 2 ^ (1000 : ℤ)) :
    Num.isFinite (a /. b) = true ∧
      |(value (a /. b) : ℝ) - value a / value b| ≤ |(value a / value b : ℝ)| / 2 ^ 53 + tiny := by
  have e := toExt_div (toExt_value fa) (toExt_value fb) hb
  rw [clip64 (cast_big (by rw [Rat.cast_div]; exact up_big hB))] at e
  refine ⟨isFinite_of e, ?_⟩
  rw [value_eq e]
  have := srnd64_err (value a / value b)
  rw [Rat.cast_div] at this
  exact this

/-- one step of `np.interp` between points at least `2^-112` apart -/
theorem step_err {x0 x1 y0 y1 key : Float64} (fx0 : Num.isFinite x0 = true)
    (fx1 : Num.isFinite x1 = true) (fk : Num.isFinite key = true) (fy0 : Num.isFinite y0 = true)
    (fy1 : Num.isFinite y1 = true) (ha : -1 ≤ value x0) (hb : value x1 ≤ 0)
    (hak : value x0 < value key) (hkb : value key < value x1)
    (hgap : (2 : ℚ) ^ (-112 : ℤ) ≤ value x1 - value x0) (hc : 0 ≤ value y0) (hc1 : value y0 ≤ 1)
    (hd : 0 ≤ value y1) (hd1 : value y1 ≤ 1) :
    Num.isFinite ((((y1 -. y0) /. (x1 -. x0)) *. (key -. x0)) +. y0) = true ∧
      |(value ((((y1 -. y0) /. (x1 -. x0)) *. (key -. x0)) +. y0) : ℝ) -
        (value y0 + (value y1 - value y0) * ((value key - value x0) / (value x1 - value x0)))|
        ≤ 8 * (1 / 2 ^ 53) := by
  obtain ⟨fV, hV⟩ := rel_sub fy1 fy0 (abs_le.2 ⟨by linarith, by linarith⟩)
  obtain ⟨fD, hD⟩ := rel_sub fx1 fx0 (abs_le.2 ⟨by linarith, by linarith⟩)
  obtain ⟨fT, hT⟩ := rel_sub fk fx0 (abs_le.2 ⟨by linarith, by linarith⟩)
  have u0 : (0 : ℝ) < 1 / 2 ^ 53 := by positivity
  have u1 : (1 : ℝ) / 2 ^ 53 ≤ 1 / 1000 := by norm_num
  have rha : (-1 : ℝ) ≤ value x0 := by exact_mod_cast ha
  have rhb : (value x1 : ℝ) ≤ 0 := by exact_mod_cast hb
  have rhak : (value x0 : ℝ) < value key := by exact_mod_cast hak
  have rhkb : (value key : ℝ) < value x1 := by exact_mod_cast hkb
  have rhc : (0 : ℝ) ≤ value y0 := by exact_mod_cast hc
  have rhc1 : (value y0 : ℝ) ≤ 1 := by exact_mod_cast hc1
  have rhd : (0 : ℝ) ≤ value y1 := by exact_mod_cast hd
  have rhd1 : (value y1 : ℝ) ≤ 1 := by exact_mod_cast hd1
  have rgap : (2 : ℝ) ^ (-112 : ℤ) ≤ value x1 - value x0 := by
    have := (Rat.cast_le (K := ℝ)).2 hgap
    push_cast at this
    exact this
  rw [abs_of_pos (show (0 : ℝ) < value x1 - value x0 by linarith)] at hD
  rw [abs_of_pos (show (0 : ℝ) < value key - value x0 by linarith)] at hT
  obtain ⟨D0, T0, T1, hρ⟩ := ratio_real u0 u1 (show (0 : ℝ) < value key - value x0 by linarith)
    (by linarith) hD hT
  generalize y1 -. y0 = V at *
  generalize x1 -. x0 = D at *
  generalize key -. x0 = T at *
  have hv1 : |(value y1 - value y0 : ℝ)| ≤ 1 := abs_le.2 ⟨by linarith, by linarith⟩
  have hV2 : |(value V : ℝ)| ≤ 2 := by
    have := abs_sub_abs_le_abs_sub (value V : ℝ) (value y1 - value y0)
    have := mul_le_mul_of_nonneg_right hv1 u0.le
    linarith
  have hDlow : (2 : ℝ) ^ (-113 : ℤ) ≤ value D := by
    have h1 := (abs_le.1 hD).1
    have h2 := mul_le_mul_of_nonneg_left u1 (show (0 : ℝ) ≤ value x1 - value x0 by linarith)
    have h3 : (2 : ℝ) ^ (-113 : ℤ) = 2 ^ (-112 : ℤ) / 2 := by
      rw [show (-113 : ℤ) = -112 - 1 by norm_num, zpow_sub_one₀ (by norm_num)]
      ring
    rw [h3]
    generalize (2 : ℝ) ^ (-112 : ℤ) = E at *
    linarith
  have hVD : |(value V / value D : ℝ)| ≤ 2 ^ (1000 : ℤ) := by
    rw [abs_div, abs_of_pos D0, div_le_iff₀ D0]
    calc |(value V : ℝ)| ≤ 2 := hV2
      _ ≤ 2 ^ (1000 : ℤ) * 2 ^ (-113 : ℤ) := by
        rw [← zpow_add₀ (by norm_num)]
        calc (2 : ℝ) = 2 ^ (1 : ℤ) := by norm_num
          _ ≤ _ := zpow_le_zpow_right₀ (by norm_num) (by norm_num)
      _ ≤ _ := mul_le_mul_of_nonneg_left hDlow (by positivity)
  have hDne : value D ≠ 0 := by
    intro h
    rw [h] at D0
    simp at D0
  obtain ⟨fS, hS⟩ := err_div fV fD hDne hVD
  generalize V /. D = S at *
  have big : (4 : ℝ) ≤ 2 ^ (1000 : ℤ) := by
    calc (4 : ℝ) = 2 ^ (2 : ℤ) := by norm_num
      _ ≤ _ := zpow_le_zpow_right₀ (by norm_num) (by norm_num)
  have t0 := tiny_pos'
  have t1 := tiny_small
  have hρ0 : (0 : ℝ) < (value key - value x0) / (value x1 - value x0) :=
    div_pos (by linarith) (by linarith)
  have hρ1 : ((value key - value x0) / (value x1 - value x0) : ℝ) ≤ 1 :=
    (div_le_one (by linarith)).2 (by linarith)
  have hT2 : (value T : ℝ) ≤ 2 := by linarith
  have hS' : |(value S : ℝ) - value V / value D| ≤ |(value V / value D : ℝ)| * (1 / 2 ^ 53) + tiny :=
    hS.trans (le_of_eq (by ring))
  have hST := (product_real (P := value S * value T) u0 u1 t0 t1 hv1 D0 T0 hT2 rfl hρ0 hρ1 hρ hV hS' (by
    rw [sub_self, abs_zero]
    have := mul_nonneg (abs_nonneg (value S * value T : ℝ)) u0.le
    linarith)).1
  obtain ⟨fP, hP⟩ := err_mul fS fT
    ((hST.trans (show (1 : ℝ) + 1 / 100 ≤ 4 by norm_num)).trans big)
  have hP' : |(value (S *. T) : ℝ) - value S * value T|
      ≤ |(value S * value T : ℝ)| * (1 / 2 ^ 53) + tiny := hP.trans (le_of_eq (by ring))
  have hPe := (product_real u0 u1 t0 t1 hv1 D0 T0 hT2 rfl hρ0 hρ1 hρ hV hS' hP').2
  generalize S *. T = P at *
  obtain ⟨m0, m1⟩ := mix_range rhc rhc1 rhd rhd1 hρ0.le hρ1
  generalize ((value key - value x0) / (value x1 - value x0) : ℝ) = ρ at *
  obtain ⟨fR, hR⟩ := rel_add fP fy0 (by
    have h : |(value P + value y0 : ℝ)| ≤ 4 := by
      have := abs_le.1 hPe
      rw [abs_le]
      constructor <;> linarith
    exact_mod_cast h)
  exact ⟨fR, sum_real u0 u1 m0 m1 hPe hR⟩

/-! ## Interpolation in a table -/

/-- `L` is the height at `t` of the polygon through the points, continued with constants on both
sides -/
def OnPolygon (xs ys : List ℝ) (t L : ℝ) : Prop :=
  (∃ x, xs.head? = some x ∧ t ≤ x ∧ ys.head? = some L) ∨
  (∃ x, xs.getLast? = some x ∧ x ≤ t ∧ ys.getLast? = some L) ∨
  ∃ (i : Nat) (x0 x1 y0 y1 : ℝ), xs[i]? = some x0 ∧ xs[i + 1]? = some x1 ∧ ys[i]? = some y0 ∧
    ys[i + 1]? = some y1 ∧ x0 ≤ t ∧ t < x1 ∧ L = y0 + (y1 - y0) * ((t - x0) / (x1 - x0))

/-- the numbers of a list -/
def reals (l : List Float64) : List ℝ := l.map fun a => (value a : ℝ)

theorem reals_get {l : List Float64} {k : Nat} (h : k < l.length) :
    (reals l)[k]? = some (value l[k] : ℝ) := by
  simp [reals, h]

/-- a table of the circular orbits -/
structure FarTable (xs ys : List Float64) : Prop where
  len : xs.length = ys.length
  ne : xs ≠ []
  inc : xs.Pairwise fun u v => (u <. v) = true
  x : ∀ u ∈ xs, (Num.ofRat (-1) <=. u) = true ∧ (u <=. Num.ofRat 0) = true
  y : ∀ w ∈ ys, (Num.ofRat 0 <=. w) = true ∧ (w <=. Num.ofRat 1) = true
  gap : xs.Pairwise fun u v => (2 : ℚ) ^ (-112 : ℤ) ≤ value v - value u

theorem interp_err {locate : List Float64 → Float64 → Nat} (hl : Np.LocateOK locate)
    {xs ys : List Float64} (h : FarTable xs ys) {key : Float64} (fk : Num.isFinite key = true)
    (hk : -1 ≤ value key) (hhead : xs.head? = some (Num.ofRat (-1))) :
    Num.isFinite (Np.interp1 locate xs ys key) = true ∧
    ∃ L : ℝ, OnPolygon (reals xs) (reals ys) (value key) L ∧
      |(value (Np.interp1 locate xs ys key) : ℝ) - L| ≤ 8 * (1 / 2 ^ 53) := by
  have hpos : 0 < xs.length := List.length_pos_iff.2 h.ne
  have hyv : ∀ (k : Nat) (hk : k < ys.length),
      toExt ys[k] = .fin (value ys[k]) ∧ 0 ≤ value ys[k] ∧ value ys[k] ≤ 1 := fun k hk =>
    between_value toExt_zero toExt_one (h.y _ (List.getElem_mem hk)).1 (h.y _ (List.getElem_mem hk)).2
  have hxv : ∀ (k : Nat) (hk : k < xs.length),
      toExt xs[k] = .fin (value xs[k]) ∧ -1 ≤ value xs[k] ∧ value xs[k] ≤ 0 := fun k hk =>
    between_value toExt_neg_one toExt_zero (h.x _ (List.getElem_mem hk)).1
      (h.x _ (List.getElem_mem hk)).2
  have kv := toExt_value fk
  have x0v : value xs[0] = -1 := by
    rw [List.head?_eq_getElem?, List.getElem?_eq_getElem hpos] at hhead
    rw [Option.some.inj hhead]
    exact value_eq toExt_neg_one
  -- an exact answer
  have exact' : ∀ (k : Nat), k < xs.length →
      OnPolygon (reals xs) (reals ys) (value key) (value (ys.getD k Num.nan)) →
      Num.isFinite (ys.getD k Num.nan) = true ∧
      ∃ L : ℝ, OnPolygon (reals xs) (reals ys) (value key) L ∧
        |(value (ys.getD k Num.nan) : ℝ) - L| ≤ 8 * (1 / 2 ^ 53) := by
    intro k hk hp
    have hk' : k < ys.length := h.len ▸ hk
    refine ⟨by rw [getD_lt hk']; exact isFinite_of (hyv k hk').1, _, hp, ?_⟩
    rw [sub_self, abs_zero]
    positivity
  have last : (value (xs[xs.length - 1]'(by omega)) : ℝ) ≤ value key →
      OnPolygon (reals xs) (reals ys) (value key) (value (ys.getD (xs.length - 1) Num.nan)) := by
    intro hle
    have hlen := h.len
    right; left
    refine ⟨_, ?_, hle, ?_⟩
    · rw [List.getLast?_eq_getElem?]
      simp only [reals, List.length_map]
      exact reals_get (by omega)
    · rw [List.getLast?_eq_getElem?]
      simp only [reals, List.length_map]
      rw [← h.len, getD_lt (by omega)]
      exact reals_get (by omega)
  unfold Np.interp1
  simp only
  split
  · rename_i h1
    have := last (by
      have : (xs.length - 1) = 0 := by omega
      simp only [this, x0v]
      exact_mod_cast hk)
    rw [h1] at this
    exact exact' 0 hpos this
  rename_i h1
  have hn : Num.isNaN key = false := NumOrd.finite_not_nan fk
  rw [hn]
  simp only [Bool.false_eq_true, if_false]
  rw [getD_lt (show xs.length - 1 < xs.length by omega), getD_lt hpos]
  split
  · rename_i h2
    refine exact' _ (by omega) (last ?_)
    have := (lt_value (hxv _ _).1 kv).1 h2
    exact_mod_cast this.le
  rename_i h2
  split
  · rename_i h3
    have := (lt_value kv (hxv _ _).1).1 h3
    rw [x0v] at this
    linarith
  rename_i h3
  obtain ⟨hj, hsorted⟩ := hl xs key h.ne
  have hx0n := (not_nan_of_lt (List.pairwise_iff_getElem.1 h.inc 0 1 hpos (by omega) (by omega))).1
  obtain ⟨hja, hjb⟩ := hsorted (h.inc.imp fun h => le_of_lt' h) (by
    intro a ha
    rw [List.getElem?_eq_getElem hpos] at ha
    cases ha
    exact le_of_not_lt hx0n hn (by simpa using h3))
  generalize locate xs key = j at *
  have q1 := hja _ (List.getElem?_eq_getElem hj)
  obtain ⟨a1, a2, a3⟩ := hxv j hj
  have k2 : value xs[j] ≤ value key := (le_value a1 kv).1 q1
  split
  · rename_i h4
    subst h4
    exact exact' _ hj (last (by exact_mod_cast k2))
  rename_i h4
  have hj1 : j + 1 < xs.length := by omega
  have gj : j < ys.length := h.len ▸ hj
  have gj1 : j + 1 < ys.length := h.len ▸ hj1
  have q2 := hjb (j + 1) _ (by omega) (List.getElem?_eq_getElem hj1)
  obtain ⟨b1, b2, b3⟩ := hxv (j + 1) hj1
  have k4 := (lt_value kv b1).1 q2
  have poly : OnPolygon (reals xs) (reals ys) (value key) (value ys[j] + (value ys[j + 1] - value ys[j]) *
      ((value key - value xs[j]) / (value xs[j + 1] - value xs[j]))) :=
    Or.inr (Or.inr ⟨j, _, _, _, _, reals_get hj, reals_get hj1, reals_get gj, reals_get gj1,
      by exact_mod_cast k2, by exact_mod_cast k4, rfl⟩)
  split
  · rename_i h5
    refine exact' _ hj ?_
    rw [getD_lt gj]
    have : value key = value xs[j] := by
      rw [getD_lt hj] at h5
      have h5 : (Ext.le (toExt xs[j]) (toExt key) && Ext.le (toExt key) (toExt xs[j])) = true := h5
      rw [a1, kv] at h5
      simp only [Ext.le, Bool.and_eq_true, decide_eq_true_eq] at h5
      exact le_antisymm h5.2 h5.1
    rw [this, sub_self, zero_div, mul_zero, add_zero] at poly
    rwa [this]
  rename_i h5
  rw [getD_lt hj] at h5
  rw [getD_lt hj, getD_lt hj1, getD_lt gj, getD_lt gj1]
  obtain ⟨c1, c2, c3⟩ := hyv j gj
  obtain ⟨d1, d2, d3⟩ := hyv (j + 1) gj1
  have k5 : value xs[j] < value key := by
    refine lt_of_le_of_ne k2 fun heq => h5 ?_
    show (Ext.le (toExt xs[j]) (toExt key) && Ext.le (toExt key) (toExt xs[j])) = true
    rw [a1, kv, heq]
    simp [Ext.le]
  obtain ⟨fr, hr⟩ := step_err (isFinite_of a1) (isFinite_of b1) fk (isFinite_of c1) (isFinite_of d1)
    a2 b3 k5 k4 (List.pairwise_iff_getElem.1 h.gap j (j + 1) hj hj1 (by omega)) c2 c3 d2 d3
  rw [NumOrd.finite_not_nan fr]
  exact ⟨fr, _, poly, hr⟩

/-! ## Circularities -/

theorem finite_div {a b : Float64} (fb : Num.isFinite b = true) (h : Num.isFinite (a /. b) = true) :
    Num.isFinite a = true ∧ value b ≠ 0 := by
  obtain ⟨t, n, rfl⟩ := isFinite_iff.1 fb
  cases a with
  | nan => cases h
  | inf s =>
    have h : Num.isFinite (inf (s != t) : Float64) = true := h
    cases hst : (s != t) <;> rw [hst] at h <;> cases h
  | fin s m =>
    refine ⟨rfl, fun h0 => ?_⟩
    have hn : n.val = 0 := by
      cases t
      · exact h0
      · have h0 : -n.val = 0 := h0
        linarith
    have h : Num.isFinite (div (fin s m) (fin t n) : Float64) = true := h
    rw [div_fin, if_pos hn] at h
    split_ifs at h
    · cases h
    · cases hst : (s != t) <;> rw [hst] at h <;> cases h

/-- a fraction of the largest value -/
theorem share_err {z M : Float64} (fz : Num.isFinite z = true) (fM : Num.isFinite M = true)
    (hM : 0 < value M) (h : |value z| ≤ value M) : Num.isFinite (z /. M) = true ∧
      |(value (z /. M) : ℝ) - value z / value M| ≤ 1 / 2 ^ 53 + tiny ∧
      |(value (z /. M) : ℝ)| ≤ 1 + 1 / 100 := by
  have rM : (0 : ℝ) < value M := by exact_mod_cast hM
  have rh : |(value z : ℝ)| ≤ value M := by exact_mod_cast h
  have h1 : |(value z / value M : ℝ)| ≤ 1 := by
    rw [abs_div, abs_of_pos rM, div_le_one rM]
    exact rh
  have big : (1 : ℝ) ≤ 2 ^ (1000 : ℤ) := one_le_zpow₀ (by norm_num) (by norm_num)
  obtain ⟨f, e⟩ := err_div fz fM hM.ne' (h1.trans big)
  have e' : |(value (z /. M) : ℝ) - value z / value M| ≤ 1 / 2 ^ 53 + tiny := by
    refine e.trans (add_le_add ?_ le_rfl)
    exact div_le_div_of_nonneg_right h1 (by positivity)
  refine ⟨f, e', ?_⟩
  have h2 := abs_sub_abs_le_abs_sub (value (z /. M) : ℝ) (value z / value M)
  have h3 := tiny_small
  norm_num at h3 e' ⊢
  linarith

/-- a quotient of a fraction and the interpolated value -/
theorem quotient_err {q c e : Float64} {L x : ℝ} (fq : Num.isFinite q = true)
    (fc : Num.isFinite c = true) (he : q /. c = e) (fe : Num.isFinite e = true)
    (hq1 : |(value q : ℝ)| ≤ 1 + 1 / 100) (hq : |(value q : ℝ) - x| ≤ 1 / 2 ^ 53 + tiny)
    (hc1 : |(value c : ℝ)| ≤ 2) (hc : |(value c : ℝ) - L| ≤ 8 * (1 / 2 ^ 53)) :
    |(value e : ℝ) * L - x| ≤ (1 + |(value e : ℝ)|) / 2 ^ 50 := by
  have hc0 := (finite_div fc (he ▸ fe)).2
  have rc0 : (value c : ℝ) ≠ 0 := by exact_mod_cast hc0
  have e1 : |(value e : ℝ) * value c - value q| ≤ |(value q : ℝ)| / 2 ^ 53 + tiny * |(value c : ℝ)| := by
    have d := toExt_div (toExt_value fq) (toExt_value fc) hc0
    change toExt (q /. c) = _ at d
    have hv : value e = Fmt.binary64.srnd (value q / value c) := by
      rw [he, toExt_value fe] at d
      unfold Fmt.clip at d
      split_ifs at d
      exact Ext.fin.inj d
    rw [hv]
    have h := srnd64_err (value q / value c)
    rw [Rat.cast_div] at h
    have h' := mul_le_mul_of_nonneg_right h (abs_nonneg (value c : ℝ))
    rw [← abs_mul, sub_mul, div_mul_cancel₀ _ rc0] at h'
    refine h'.trans (le_of_eq ?_)
    rw [add_mul, abs_div]
    have : |(value c : ℝ)| ≠ 0 := abs_ne_zero.2 rc0
    field_simp
  have e2 : (value e : ℝ) * L - x = value e * (L - value c) + (value e * value c - value q) + (value q - x) := by
    ring
  rw [e2]
  refine (abs_add_three _ _ _).trans ?_
  rw [abs_mul, abs_sub_comm L]
  have e3 := mul_le_mul_of_nonneg_left hc (abs_nonneg (value e : ℝ))
  have e4 := mul_le_mul_of_nonneg_left hc1 tiny_pos'.le
  have e5 := tiny_small
  have e6 : |(value q : ℝ)| / 2 ^ 53 ≤ (1 + 1 / 100) / 2 ^ 53 :=
    div_le_div_of_nonneg_right hq1 (by positivity)
  generalize |(value e : ℝ)| = E at *
  norm_num at *
  linarith

/-- the largest value of `f` on the bound particles of the galaxy -/
def LargestOf (b : BGalaxy Float64) (f : Body Float64 → Float64) (J : ℝ) : Prop :=
  (∃ c ∈ b.all, ¬ Unbound c.energy ∧ J = |(value (f c) : ℝ)|) ∧
    ∀ c ∈ b.all, ¬ Unbound c.energy → |(value (f c) : ℝ)| ≤ J

theorem largest_amax {b : BGalaxy Float64} {f : Body Float64 → Float64} {M : Float64}
    (h : Np.amax (b.bound.map fun a => Num.abs (f a)) = .ok M)
    (hf : ∀ c ∈ b.all, ¬ Unbound c.energy → Num.isFinite (f c) = true) :
    Num.isFinite M = true ∧ 0 ≤ value M ∧ LargestOf b f (value M) := by
  have hn : ∀ a ∈ b.bound, Num.isNaN (Num.abs (f a)) = false := by
    intro a ha
    obtain ⟨h1, h2⟩ := mem_bound.1 ha
    exact NumOrd.finite_not_nan (finite_abs (hf a h1 h2))
  obtain ⟨⟨c, hc, hcM⟩, hle⟩ := isMaxOf_amax h hn
  obtain ⟨c1, c2⟩ := mem_bound.1 hc
  have fM : Num.isFinite M = true := hcM ▸ finite_abs (hf c c1 c2)
  have vM : value M = |value (f c)| := by rw [← hcM, value_abs]
  refine ⟨fM, vM ▸ abs_nonneg _, ⟨c, c1, c2, by rw [vM]; push_cast; rfl⟩, ?_⟩
  intro d hd hdb
  have h1 := hle d (mem_bound.2 ⟨hd, hdb⟩)
  have h2 := (le_value (toExt_value (finite_abs (hf d hd hdb))) (toExt_value fM)).1 h1
  rw [value_abs] at h2
  exact_mod_cast h2

/-- the table of a galaxy with finite angular momenta -/
theorem farTable {env : CircEnv Float64} (henv : env.OK) {b : BGalaxy Float64}
    {bin0 bin1 : Float64} (hbins : BinsIncrease bin0 bin1) {j : JCirc Float64}
    (h : jcirc env (Galaxy.ofBodies b) bin0 bin1 = .ok j)
    (hz : ∀ c ∈ b.all, ¬ Unbound c.energy → Num.isFinite c.jz = true)
    {n : CircNorm Float64} (hn : circNorm env b bin0 bin1 = .ok n) (hj : j = circResult env n b.stars)
    (hJ : 0 < value n.jzMax) : FarTable j.x j.y ∧ j.x.head? = some (Num.ofRat (-1)) := by
  obtain ⟨hlen, hhead, hinc, hx, hy01, -⟩ := C65_profile env henv b bin0 bin1 hbins j h
  have hne : j.x ≠ [] := by
    intro h0
    rw [h0] at hhead
    cases hhead
  subst hj
  obtain ⟨hbne, h1, h2, h3, aux, hb, haux, hprof⟩ := circNorm_inv hn
  obtain ⟨fM, _, hmax⟩ := largest_amax h2 hz
  obtain ⟨aux', hb', hsorted, hhead'⟩ := hbins
  rw [hb] at hb'
  cases hb'
  have hneg1 : Num.isNaN (Num.ofRat (-1) : Float64) = false :=
    NumOrd.finite_not_nan (NumOrd.ofRat_finite (by norm_num) (by norm_num))
  have hap := profile_apart henv.argsort _ _ _ _ ⟨hsorted, _, hhead', le_refl' hneg1⟩ _ hbne hprof
  obtain ⟨i0, a0, _, hget, _, hmem⟩ := profile_mem henv.argsort _ _ _ _ _ hbne hprof
  have hyn : ∀ a ∈ b.bound, Num.isNaN (Num.abs (n.jz a)) = false := by
    intro a ha
    obtain ⟨c1, c2⟩ := mem_bound.1 ha
    have := hmax.2 a c1 c2
    have := (share_err (hz a c1 c2) fM hJ (by exact_mod_cast this)).1
    exact NumOrd.finite_not_nan (finite_abs this)
  refine ⟨⟨hlen, hne, hinc, hx, ?_, ?_⟩, hhead⟩
  · intro w hw
    refine (hy01 w hw).resolve_left ?_
    obtain ⟨p, hp, rfl⟩ := List.mem_map.1 hw
    rw [Bool.not_eq_true]
    rcases hmem p hp with rfl | ⟨a, ha, rfl⟩
    · exact hyn a0 (List.mem_of_getElem? hget)
    · exact hyn a ha
  · show (n.pts.map (·.1)).Pairwise _
    rw [List.pairwise_map]
    have hxp : ∀ p ∈ n.pts, (Num.ofRat (-1) <=. p.1) = true ∧ (p.1 <=. Num.ofRat 0) = true :=
      fun p hp => hx p.1 (List.mem_map.2 ⟨p, hp, rfl⟩)
    refine hap.imp_of_mem ?_
    rintro p q hp hq ⟨t, ht, hpt, htq⟩
    obtain ⟨p1, p2, p3⟩ := between_value toExt_neg_one toExt_zero (hxp p hp).1 (hxp p hp).2
    obtain ⟨q1, q2, q3⟩ := between_value toExt_neg_one toExt_zero (hxp q hq).1 (hxp q hq).2
    obtain ⟨t1, t2, t3⟩ := between_value p1 q1 hpt (le_of_lt' htq)
    have t4 := (lt_value t1 q1).1 htq
    have t5 := energyBins_far hb ht t1 (by linarith)
    exact value_gap (by linarith) (by linarith) q3

theorem kept_abs {e : Float64} (h : keepEps e = true) (fe : Num.isFinite e = true) :
    |(value e : ℝ)| ≤ 1 := by
  unfold keepEps at h
  simp only [Bool.and_eq_true, Bool.not_eq_true'] at h
  have h1 : value e ≤ 1 := by
    by_contra hc
    have := (lt_value toExt_one (toExt_value fe)).2 (not_le.1 hc)
    exact Bool.false_ne_true (h.1.symm.trans this)
  have h2 : -1 ≤ value e := by
    by_contra hc
    have := (lt_value (toExt_value fe) toExt_neg_one).2 (not_le.1 hc)
    exact Bool.false_ne_true (h.2.symm.trans this)
  rw [abs_le]
  exact ⟨by exact_mod_cast h2, by exact_mod_cast h1⟩

/-- C86: in double precision a circularity times the height of the polygon through the returned
profile, at the returned energy of the star, is `Jz` over the largest `|Jz|`, with an error of at
most `2^-49`; a projected circularity times this height is the in-plane angular momentum over the
largest one, with an error of at most `(1 + eps_r) 2^-50`. -/
theorem C86_circularity (env : CircEnv Float64) (henv : env.OK) (b : BGalaxy Float64)
    (bin0 bin1 : Float64) (hbins : BinsIncrease bin0 bin1) (j : JCirc Float64)
    (h : jcirc env (Galaxy.ofBodies b) bin0 bin1 = .ok j)
    (hz : ∀ c ∈ b.all, ¬ Unbound c.energy → Num.isFinite c.jz = true)
    (i : Nat) (a : Body Float64) (ha : b.stars[i]? = some a) (k e : Float64)
    (hk : j.normalizedStarEnergy[i]? = some k) (he : j.eps[i]? = some e)
    (fk : Num.isFinite k = true) (fe : Num.isFinite e = true) :
    ∃ J L : ℝ, LargestOf b Body.jz J ∧ 0 < J ∧
      OnPolygon (reals j.x) (reals j.y) (value k) L ∧ (0 ≤ L ∧ L ≤ 1) ∧
      |value e * L - value a.jz / J| ≤ 1 / 2 ^ 49 ∧
      ((∀ c ∈ b.all, ¬ Unbound c.energy → Num.isFinite c.jr = true) →
        ∀ r : Float64, j.epsR[i]? = some r → Num.isFinite r = true →
        ∃ R : ℝ, LargestOf b Body.jr R ∧ 0 < R ∧
          |value r * L - value a.jr / R| ≤ (1 + |(value r : ℝ)|) / 2 ^ 50) := by
  obtain ⟨_, _, n, hn, hj⟩ := jcirc_inv h
  obtain ⟨_, h1, h2, h3, _⟩ := circNorm_inv hn
  obtain ⟨fM, hM0, hmax⟩ := largest_amax h2 hz
  have hk' := hk
  have he' := he
  rw [hj] at hk' he'
  simp only [circResult, List.getElem?_map, ha, Option.map_some, Option.some.injEq] at hk' he'
  by_cases hok : (isBound a.energy && keepEps (n.eps env a)) = true
  swap
  · rw [if_neg hok] at he'
    rw [← he'] at fe
    cases fe
  rw [if_pos hok] at hk' he'
  obtain ⟨hb, hkeep⟩ := Bool.and_eq_true _ _ ▸ hok
  have hall : a ∈ b.all := by
    unfold BGalaxy.all
    simp [List.mem_of_getElem? ha]
  have hbd : ¬ Unbound a.energy := by
    rw [← isBound_eq_false, hb]
    simp
  -- the largest Jz is positive
  have hc0 : Num.isFinite (n.jz a /. n.jc env a) = true := by
    change n.eps env a = e at he'
    change Num.isFinite (n.eps env a) = true
    rw [he']
    exact fe
  have hqn : Num.isNaN (n.jz a) = false := by
    cases hq : n.jz a with
    | nan => rw [hq] at hc0; cases hc0
    | inf s => cases s <;> rfl
    | fin s m => rfl
  have hJ : 0 < value n.jzMax := by
    refine lt_of_le_of_ne hM0 fun h0 => ?_
    have hz0 : value a.jz = 0 := by
      have := hmax.2 a hall hbd
      rw [← h0] at this
      simpa using this
    obtain ⟨s, m, hs⟩ := isFinite_iff.1 (hz a hall hbd)
    obtain ⟨t, m', ht⟩ := isFinite_iff.1 fM
    have zero : ∀ (s : Bool) (m : Fmt.binary64.Mag), value (fin s m : Float64) = 0 → m.val = 0 := by
      intro s m h0
      cases s
      · exact h0
      · have h0 : -m.val = 0 := h0
        linarith
    have hq : n.jz a = nan := by
      show a.jz /. n.jzMax = nan
      rw [hs, ht]
      show div _ _ = _
      rw [div_fin, if_pos (zero t m' (ht ▸ h0.symm)), if_pos (zero s m (hs ▸ hz0))]
    rw [hq] at hqn
    cases hqn
  obtain ⟨hT, hhead⟩ := farTable henv hbins h hz hn hj hJ
  have hkr : -1 ≤ value k := by
    have ha' : a ∈ b.bound := mem_bound.2 ⟨hall, hbd⟩
    rcases norm_energy_range hn ha' with hr | hr
    · rw [hk', NumOrd.finite_not_nan fk] at hr
      cases hr
    · rw [hk'] at hr
      exact (le_value toExt_neg_one (toExt_value fk)).1 hr.1
  obtain ⟨fc, L, hL, hcL⟩ := interp_err henv.locate hT fk hkr hhead
  have hjc : Np.interp1 env.locate j.x j.y k = n.jc env a := by
    rw [hj, ← hk']
    rfl
  rw [hjc] at fc hcL
  have rJ : (0 : ℝ) < value n.jzMax := by exact_mod_cast hJ
  obtain ⟨fq, hq, hq1⟩ := share_err (hz a hall hbd) fM hJ (by exact_mod_cast hmax.2 a hall hbd)
  -- the interpolated value is at most about 1
  have hL1 : 0 ≤ L ∧ L ≤ 1 := by
    have hyr : ∀ {m : Nat} {w : ℝ}, (reals j.y)[m]? = some w → 0 ≤ w ∧ w ≤ 1 := by
      intro m w hw
      simp only [reals, List.getElem?_map, Option.map_eq_some_iff] at hw
      obtain ⟨y, hy, rfl⟩ := hw
      obtain ⟨_, y2, y3⟩ := between_value toExt_zero toExt_one
        (hT.y y (List.mem_of_getElem? hy)).1 (hT.y y (List.mem_of_getElem? hy)).2
      exact ⟨by exact_mod_cast y2, by exact_mod_cast y3⟩
    rcases hL with ⟨x, _, _, hy⟩ | ⟨x, _, _, hy⟩ | ⟨m, x0, x1, y0, y1, _, _, g0, g1, l0, l1, rfl⟩
    · rw [List.head?_eq_getElem?] at hy
      exact hyr hy
    · rw [List.getLast?_eq_getElem?] at hy
      exact hyr hy
    · exact mix_range (hyr g0).1 (hyr g0).2 (hyr g1).1 (hyr g1).2
        (div_nonneg (by linarith) (by linarith)) ((div_le_one (by linarith)).2 (by linarith))
  have hc2 : |(value (n.jc env a) : ℝ)| ≤ 2 := by
    have h1 := abs_sub_abs_le_abs_sub (value (n.jc env a) : ℝ) L
    rw [abs_of_nonneg hL1.1] at h1
    have h2 : (8 : ℝ) * (1 / 2 ^ 53) ≤ 1 := by norm_num
    linarith [hL1.2]
  refine ⟨value n.jzMax, L, hmax, rJ, hL, hL1, ?_, ?_⟩
  · have := quotient_err fq fc he' fe hq1 hq hc2 hcL
    refine this.trans ?_
    have h1 : |(value e : ℝ)| ≤ 1 := by
      rw [← he']
      exact kept_abs hkeep (by rw [he']; exact fe)
    calc (1 + |(value e : ℝ)|) / 2 ^ 50 ≤ (1 + 1) / 2 ^ 50 :=
        div_le_div_of_nonneg_right (by linarith) (by positivity)
      _ = 1 / 2 ^ 49 := by norm_num
  · intro hr r hri fr
    obtain ⟨fR, hR0, hmaxR⟩ := largest_amax h3 hr
    rw [hj] at hri
    simp only [circResult, List.getElem?_map, ha, Option.map_some, Option.some.injEq] at hri
    rw [if_pos hok] at hri
    have hfin : Num.isFinite ((a.jr /. n.jrMax) /. n.jc env a) = true := by
      change Num.isFinite (n.epsR env a) = true
      rw [hri]
      exact fr
    have hRn := (finite_div fR (finite_div fc hfin).1).2
    have hR : 0 < value n.jrMax := lt_of_le_of_ne hR0 (Ne.symm hRn)
    obtain ⟨fq', hq', hq1'⟩ := share_err (hr a hall hbd) fR hR (by exact_mod_cast hmaxR.2 a hall hbd)
    exact ⟨_, hmaxR, by exact_mod_cast hR, quotient_err fq' fc hri fr hq1' hq' hc2 hcL⟩

/-- a galaxy for which the hypotheses of `C86_circularity` hold -/
example : (∀ c ∈ exOvershoot.all, Num.isFinite c.jz = true ∧ Num.isFinite c.jr = true) ∧
    ∃ (j : JCirc Float64) (k e : Float64), jcirc sortEnv (Galaxy.ofBodies exOvershoot)
      (defaultCbin (F := Float64)).1 defaultCbin.2 = .ok j ∧ j.x.length = 4 ∧
      j.normalizedStarEnergy[3]? = some k ∧ Num.isFinite k = true ∧
      j.eps[3]? = some e ∧ Num.isFinite e = true := by
  refine ⟨by decide +kernel, ?_⟩
  have h : ((jcirc (sortEnv (F := Float64)) (Galaxy.ofBodies exOvershoot)
      (defaultCbin (F := Float64)).1 defaultCbin.2).toOption.bind fun j =>
        j.normalizedStarEnergy[3]?.bind fun k => j.eps[3]?.map fun e =>
          decide (j.x.length = 4) && (Num.isFinite k && Num.isFinite e)) = some true := by
    decide +kernel
  cases hj : jcirc (sortEnv (F := Float64)) (Galaxy.ofBodies exOvershoot)
      (defaultCbin (F := Float64)).1 defaultCbin.2 with
  | error e => rw [hj] at h; cases h
  | ok j =>
    rw [hj] at h
    simp only [Except.toOption, Option.bind_some, Option.bind_eq_some_iff,
      Option.map_eq_some_iff, Bool.and_eq_true, decide_eq_true_eq] at h
    obtain ⟨k, hk, e, he, h1, h2, h3⟩ := h
    exact ⟨j, k, e, rfl, h1, hk, h2, he, h3⟩

end GChop
