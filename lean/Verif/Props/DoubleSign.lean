import Verif.Lemmas.BinaryAdd
import Verif.Props.Double
import Verif.Props.DoubleCenter

/-!
# C80: the sign of the circularity in double precision
-/

namespace GChop
open Flt

theorem getD_lt {l : List Float64} {k : Nat} (h : k < l.length) : l.getD k Num.nan = l[k] := by
  simp [List.getD, h]

/-! ## One interpolation step -/

theorem Fmt.abs_srnd_bound (fmt : Fmt) (x : ℚ) :
    |fmt.srnd x| ≤ |x| * (1 + 2 ^ (-(fmt.prec : ℤ))) + 2 ^ fmt.emin := by
  rw [fmt.srnd_abs]
  have hp : (0 : ℚ) < 2 ^ (-(fmt.prec : ℤ)) := zpow_pos (by norm_num) _
  have he : (0 : ℚ) < 2 ^ fmt.emin := zpow_pos (by norm_num) _
  rcases (abs_nonneg x).eq_or_lt with h0 | h0
  · rw [← h0, fmt.roundPos_zero]
    linarith
  by_cases hn : fmt.emin ≤ Int.log 2 |x| - (fmt.prec - 1 : Int)
  · have := (abs_le.1 (fmt.roundPos_rel h0 hn)).2
    linarith
  · have hu : fmt.ulp |x| = 2 ^ fmt.emin := by
      rw [fmt.ulp_eq]
      congr 1
      unfold Fmt.uexp
      omega
    have := (abs_le.1 (fmt.roundPos_err |x|)).2
    rw [hu] at this
    have := mul_pos h0 hp
    linarith

theorem le_value {a b : Float64} {v w : ℚ} (ha : toExt a = .fin v) (hb : toExt b = .fin w) :
    (a <=. b) = true ↔ v ≤ w := by
  show Ext.le (toExt a) (toExt b) = true ↔ _
  rw [ha, hb]
  simp [Ext.le]

theorem lt_value {a b : Float64} {v w : ℚ} (ha : toExt a = .fin v) (hb : toExt b = .fin w) :
    (a <. b) = true ↔ v < w := by
  rw [lt_iff, le_value ha hb, ← Bool.not_eq_true, le_value hb ha, not_le]
  exact ⟨fun h => h.2, fun h => ⟨h.le, h⟩⟩

theorem between_value {lo hi : ℚ} {l h a : Float64} (hl : toExt l = .fin lo) (hh : toExt h = .fin hi)
    (h1 : (l <=. a) = true) (h2 : (a <=. h) = true) :
    toExt a = .fin (value a) ∧ lo ≤ value a ∧ value a ≤ hi := by
  have e1 : Ext.le (toExt l) (toExt a) = true := h1
  have e2 : Ext.le (toExt a) (toExt h) = true := h2
  rw [hl] at e1
  rw [hh] at e2
  cases ha : toExt a with
  | fin v =>
    rw [ha] at e1 e2
    rw [value_eq ha]
    exact ⟨rfl, by simpa [Ext.le] using e1, by simpa [Ext.le] using e2⟩
  | nan => rw [ha] at e1; cases e1
  | pinf => rw [ha] at e2; cases e2
  | ninf => rw [ha] at e1; cases e1

/-- a positive number or an infinity -/
def Upright (r : Float64) : Prop :=
  (∃ v : ℚ, toExt r = .fin v ∧ 0 < v) ∨ toExt r = .pinf ∨ toExt r = .ninf

theorem interp_step {x0 x1 y0 y1 key : Float64} {a b k c d : ℚ}
    (hx0 : toExt x0 = .fin a) (hx1 : toExt x1 = .fin b) (hk : toExt key = .fin k)
    (hy0 : toExt y0 = .fin c) (hy1 : toExt y1 = .fin d)
    (ha : -1 ≤ a) (hb : b ≤ 0) (hak : a < k) (hkb : k < b)
    (hc : 1 / 2 ^ 50 ≤ c) (hc1 : c ≤ 1) (hd : 1 / 2 ^ 50 ≤ d) (hd1 : d ≤ 1) :
    Upright ((((y1 -. y0) /. (x1 -. x0)) *. (key -. x0)) +. y0) := by
  have fx0 := value_eq hx0
  have fx1 := value_eq hx1
  have fk := value_eq hk
  have fy0 := value_eq hy0
  have fy1 := value_eq hy1
  have big : (2 : ℚ) ^ 2 ≤ 2 ^ Fmt.binary64.emax := by
    rw [← zpow_natCast]
    exact zpow_le_zpow_right₀ (by norm_num) (by decide)
  have fin1 : ∀ {u v : Float64}, Num.isFinite u = true → Num.isFinite v = true →
      |value u - value v| ≤ 4 →
      toExt (u -. v) = .fin (Fmt.binary64.srnd (value u - value v)) := by
    intro u v hu hv h
    exact value_sub hu hv (h.trans (by linarith))
  have hv := fin1 (isFinite_of hy1) (isFinite_of hy0) (by rw [fy0, fy1, abs_le]; constructor <;> linarith)
  have hdd := fin1 (isFinite_of hx1) (isFinite_of hx0) (by rw [fx0, fx1, abs_le]; constructor <;> linarith)
  have htt := fin1 (isFinite_of hk) (isFinite_of hx0) (by rw [fk, fx0, abs_le]; constructor <;> linarith)
  have ev := srnd_sub_rel y1 y0
  have z1 := srnd_sub_eq_zero x1 x0
  have z2 := srnd_sub_eq_zero key x0
  rw [fy1, fy0] at hv ev
  rw [fx1, fx0] at hdd z1
  rw [fk, fx0] at htt z2
  rw [pow_prec] at ev
  -- the two distances
  have hD1 : Fmt.binary64.srnd (b - a) ≤ 1 := Fmt.srnd_le _ (by linarith) (Fmt.srnd_one _)
  have hT0 : 0 < Fmt.binary64.srnd (k - a) := by
    refine lt_of_le_of_ne ?_ (fun h => hak.ne' (z2.1 h.symm))
    rw [← Fmt.srnd_zero Fmt.binary64]
    exact Fmt.srnd_mono _ (by linarith)
  have hTD : Fmt.binary64.srnd (k - a) ≤ Fmt.binary64.srnd (b - a) := Fmt.srnd_mono _ (by linarith)
  -- the rise
  have hvs : c ≤ d → 0 ≤ Fmt.binary64.srnd (d - c) := by
    intro h
    rw [← Fmt.srnd_zero Fmt.binary64]
    exact Fmt.srnd_mono _ (by linarith)
  have hva : |Fmt.binary64.srnd (d - c)| ≤ |d - c| * (1 + 1 / 2 ^ 53) := by
    have := abs_sub_abs_le_abs_sub (Fmt.binary64.srnd (d - c)) (d - c)
    linarith
  generalize Fmt.binary64.srnd (d - c) = V at *
  generalize Fmt.binary64.srnd (b - a) = D at *
  generalize Fmt.binary64.srnd (k - a) = T at *
  have hD0 : 0 < D := hT0.trans_le hTD
  have hslope := toExt_div hv hdd hD0.ne'
  have bs := Fmt.binary64.abs_srnd_bound (V / D)
  have hs0 : c ≤ d → 0 ≤ Fmt.binary64.srnd (V / D) := by
    intro h
    rw [← Fmt.srnd_zero Fmt.binary64]
    exact Fmt.srnd_mono _ (div_nonneg (hvs h) hD0.le)
  rw [pow_prec] at bs
  have etap : (0 : ℚ) < 2 ^ Fmt.binary64.emin := zpow_pos (by norm_num) _
  have etas : (2 : ℚ) ^ Fmt.binary64.emin ≤ 1 / 2 ^ 60 := by
    rw [show (1 : ℚ) / 2 ^ 60 = 2 ^ (-60 : ℤ) by norm_num]
    exact zpow_le_zpow_right₀ (by norm_num) (by decide)
  generalize heta : (2 : ℚ) ^ Fmt.binary64.emin = eta at *
  generalize Fmt.binary64.srnd (V / D) = S at *
  -- an infinite slope
  unfold Fmt.clip at hslope
  split_ifs at hslope with o1 o2
  rotate_left
  · right; right
    rw [toExt_add_rnd, toExt_mul_rnd, hslope, htt, hy0]
    simp only [Ext.mul, Ext.signInf_pos hT0]
    rfl
  · right; left
    rw [toExt_add_rnd, toExt_mul_rnd, hslope, htt, hy0]
    simp only [Ext.mul, Ext.signInf_pos hT0]
    rfl
  left
  -- the product
  have hST : |S * T| ≤ |V| * (1 + 1 / 2 ^ 53) + eta := by
    rw [abs_mul, abs_of_pos hT0]
    have h1 := mul_le_mul_of_nonneg_right bs hT0.le
    have h2 : |V / D| * T ≤ |V| := by
      rw [abs_div, abs_of_pos hD0, div_mul_eq_mul_div, div_le_iff₀ hD0]
      exact mul_le_mul_of_nonneg_left hTD (abs_nonneg _)
    have h3 : eta * T ≤ eta := by nlinarith
    calc |S| * T ≤ (|V / D| * (1 + 1 / 2 ^ 53) + eta) * T := h1
      _ = |V / D| * T * (1 + 1 / 2 ^ 53) + eta * T := by ring
      _ ≤ _ := by
        have := mul_le_mul_of_nonneg_right h2 (show (0 : ℚ) ≤ 1 + 1 / 2 ^ 53 by norm_num)
        linarith
  have bp := Fmt.binary64.abs_srnd_bound (S * T)
  rw [pow_prec, heta] at bp
  have hprod := toExt_mul hslope htt
  have hp0 : c ≤ d → 0 ≤ Fmt.binary64.srnd (S * T) := by
    intro h
    rw [← Fmt.srnd_zero Fmt.binary64]
    exact Fmt.srnd_mono _ (mul_nonneg (hs0 h) hT0.le)
  have hdc : |d - c| ≤ 1 := by rw [abs_le]; constructor <;> linarith
  have hP : |Fmt.binary64.srnd (S * T)| ≤ |d - c| + 3 / 2 ^ 52 := by
    have := abs_nonneg (d - c)
    have := etas
    norm_num at *
    linarith
  have hpe : toExt (((y1 -. y0) /. (x1 -. x0)) *. (key -. x0)) = .fin (Fmt.binary64.srnd (S * T)) := by
    rw [hprod]
    exact clip_srnd (e := 1) (by rw [zpow_one]; norm_num at *; linarith) (by decide) (by decide)
  have hsum := srnd_add_rel (((y1 -. y0) /. (x1 -. x0)) *. (key -. x0)) y0
  rw [value_eq hpe, fy0, pow_prec] at hsum
  have hs := toExt_add hpe hy0
  generalize Fmt.binary64.srnd (S * T) = P at *
  have hpos : 0 < P + c := by
    rcases le_total c d with h | h
    · have := hp0 h
      have : (0 : ℚ) < 1 / 2 ^ 50 := by positivity
      linarith
    · rw [abs_of_nonpos (sub_nonpos.2 h)] at hP
      have := neg_abs_le P
      norm_num at hP hd ⊢
      linarith
  refine ⟨Fmt.binary64.srnd (P + c), ?_, ?_⟩
  · rw [hs]
    refine clip_srnd (e := 2) ?_ (by decide) (by decide)
    have := abs_add_le P c
    rw [abs_of_nonneg (show 0 ≤ c by norm_num at hc ⊢; linarith)] at this
    norm_num at *
    linarith
  · rw [abs_of_pos hpos] at hsum
    have := (abs_le.1 hsum).1
    norm_num at this
    linarith

/-! ## Interpolation -/

/-- a table of the circular orbits with no orbit below `2^-50` -/
structure GoodTable (xs ys : List Float64) : Prop where
  len : xs.length = ys.length
  ne : xs ≠ []
  inc : xs.Pairwise fun u v => (u <. v) = true
  x : ∀ u ∈ xs, (Num.ofRat (-1) <=. u) = true ∧ (u <=. Num.ofRat 0) = true
  y : ∀ w ∈ ys, (Num.ofRat (1 / 2 ^ 50) <=. w) = true ∧ (w <=. Num.ofRat 1) = true

theorem toExt_cut : toExt (Num.ofRat (1 / 2 ^ 50) : Float64) = .fin (1 / 2 ^ 50) := by decide +kernel

theorem interp_upright {locate : List Float64 → Float64 → Nat} (hl : Np.LocateOK locate)
    {xs ys : List Float64} (h : GoodTable xs ys) (key : Float64) :
    Upright (Np.interp1 locate xs ys key) ∨ Np.interp1 locate xs ys key = nan := by
  have hpos : 0 < xs.length := List.length_pos_iff.2 h.ne
  have hyv : ∀ (k : Nat) (hk : k < ys.length),
      toExt ys[k] = .fin (value ys[k]) ∧ 1 / 2 ^ 50 ≤ value ys[k] ∧ value ys[k] ≤ 1 := fun k hk =>
    between_value toExt_cut toExt_one (h.y _ (List.getElem_mem hk)).1 (h.y _ (List.getElem_mem hk)).2
  have hxv : ∀ (k : Nat) (hk : k < xs.length),
      toExt xs[k] = .fin (value xs[k]) ∧ -1 ≤ value xs[k] ∧ value xs[k] ≤ 0 := fun k hk =>
    between_value toExt_neg_one toExt_zero (h.x _ (List.getElem_mem hk)).1
      (h.x _ (List.getElem_mem hk)).2
  have hyp : ∀ (k : Nat), k < xs.length → Upright (ys.getD k Num.nan) := by
    intro k hk
    have hk' : k < ys.length := h.len ▸ hk
    rw [getD_lt hk']
    left
    obtain ⟨e1, e2, _⟩ := hyv k hk'
    exact ⟨_, e1, lt_of_lt_of_le (by positivity) e2⟩
  unfold Np.interp1
  simp only
  split
  · left; exact hyp 0 hpos
  rename_i h1
  cases hn : Num.isNaN key with
  | true =>
    right
    have : key = nan := by
      cases key with
      | nan => rfl
      | inf s => cases s <;> cases hn
      | fin s m => cases hn
    rw [if_pos rfl, this]
  | false =>
  simp only [Bool.false_eq_true, if_false]
  rw [getD_lt (show xs.length - 1 < xs.length by omega),
    getD_lt hpos]
  split
  · left; exact hyp _ (by omega)
  rename_i h2
  split
  · left; exact hyp _ hpos
  rename_i h3
  obtain ⟨hj, hsorted⟩ := hl xs key h.ne
  have hx0n := (not_nan_of_lt (List.pairwise_iff_getElem.1 h.inc 0 1 hpos (by omega) (by omega))).1
  obtain ⟨hja, hjb⟩ := hsorted (h.inc.imp fun h => le_of_lt' h) (by
    intro a ha
    rw [List.getElem?_eq_getElem hpos] at ha
    cases ha
    exact le_of_not_lt hx0n hn (by simpa using h3))
  generalize locate xs key = j at *
  split
  · left; exact hyp _ hj
  rename_i h4
  have hj1 : j + 1 < xs.length := by omega
  split
  · left; exact hyp _ hj
  rename_i h5
  have q1 := hja _ (List.getElem?_eq_getElem hj)
  have q2 := hjb (j + 1) _ (by omega) (List.getElem?_eq_getElem hj1)
  rw [getD_lt hj] at h5
  have gj : j < ys.length := h.len ▸ hj
  have gj1 : j + 1 < ys.length := h.len ▸ hj1
  rw [getD_lt hj, getD_lt hj1, getD_lt gj, getD_lt gj1]
  obtain ⟨a1, a2, a3⟩ := hxv j hj
  obtain ⟨b1, b2, b3⟩ := hxv (j + 1) hj1
  obtain ⟨c1, c2, c3⟩ := hyv j gj
  obtain ⟨d1, d2, d3⟩ := hyv (j + 1) gj1
  obtain ⟨k1, k2, k3⟩ := between_value a1 b1 q1 (le_of_lt' q2)
  have k4 := (lt_value k1 b1).1 q2
  have k5 : value xs[j] < value key := by
    refine lt_of_le_of_ne k2 fun heq => h5 ?_
    show (Ext.le (toExt xs[j]) (toExt key) && Ext.le (toExt key) (toExt xs[j])) = true
    rw [a1, k1, heq]
    simp [Ext.le]
  have hr := interp_step a1 b1 k1 c1 d1 a2 b3 k5 k4 c2 c3 d2 d3
  have hnn : Num.isNaN ((((ys[j + 1] -. ys[j]) /. (xs[j + 1] -. xs[j])) *. (key -. xs[j])) +. ys[j])
      = false := by
    show Ext.isNaN (toExt _) = false
    rcases hr with ⟨v, hv, _⟩ | hv | hv <;> rw [hv] <;> rfl
  rw [hnn]
  left
  exact hr

theorem amax_mem {l : List Float64} {m : Float64} (h : Np.amax l = .ok m) : m ∈ l := by
  have key : ∀ (xs : List Float64) (x : Float64), xs.foldl Np.max2 x = x ∨ xs.foldl Np.max2 x ∈ xs := by
    intro xs
    induction xs with
    | nil => intro x; exact Or.inl rfl
    | cons y ys ih =>
      intro x
      rw [List.foldl_cons]
      have hm : Np.max2 x y = x ∨ Np.max2 x y = y := by
        unfold Np.max2
        split_ifs <;> simp
      rcases ih (Np.max2 x y) with h | h
      · rw [h]
        rcases hm with h | h <;> rw [h] <;> simp
      · exact Or.inr (List.mem_cons_of_mem _ h)
  cases l with
  | nil => cases h
  | cons x xs =>
    cases h
    rcases key xs x with h | h
    · rw [h]; simp
    · exact List.mem_cons_of_mem _ h

theorem plus_abs (a : Float64) : Plus (Num.abs a) := by
  show Plus (Flt.abs a)
  cases a with
  | fin s m => exact Or.inr (Or.inr ⟨m, rfl⟩)
  | inf s => exact Or.inr (Or.inl rfl)
  | nan => exact Or.inl rfl

/-- a quotient with a denominator without a minus sign is not positive if the numerator is not -/
theorem div_not_pos {a b : Float64} (h1 : (Num.ofRat 0 <. a) = false) (hb : Plus b) :
    (Num.ofRat 0 <. (a /. b)) = false := by
  have h0 : toExt (Num.ofRat 0 : Float64) = .fin 0 := toExt_zero
  rw [lt_false_iff, h0] at h1 ⊢
  rw [toExt_div_rnd _ hb, ← rnd_zero (fmt := Fmt.binary64)]
  apply rnd_mono
  have hb := hb.toExt
  generalize toExt a = a at *
  generalize toExt b = b at *
  cases b with
  | nan => left; cases a <;> rfl
  | ninf => simp [Ext.NotGt, Ext.le] at hb
  | pinf => cases a <;> simp_all [Ext.NotGt, Ext.le, Ext.div]
  | fin z =>
    have hz : 0 ≤ z := by simpa [Ext.NotGt, Ext.le] using hb
    have hz' : ¬ z < 0 := not_lt.2 hz
    cases a with
    | nan => left; rfl
    | pinf => simp [Ext.NotGt, Ext.le] at h1
    | ninf => right; right; simp [Ext.div, hz', Ext.le]
    | fin x =>
      have hx : x ≤ 0 := by simpa [Ext.NotGt, Ext.le] using h1
      simp only [Ext.div]
      split_ifs
      · rcases hx.eq_or_lt with rfl | hx
        · rw [Ext.signInf_zero]; left; rfl
        · rw [Ext.signInf_neg hx]; right; right; rfl
      · right; right
        exact decide_eq_true (div_nonpos_of_nonpos_of_nonneg hx hz)

theorem plus_of_pos {r : Float64} {v : ℚ} (h : toExt r = .fin v) (hv : 0 < v) : Plus r := by
  obtain ⟨s, m, rfl, hs⟩ := toExt_fin h
  cases s
  · exact Or.inr (Or.inr ⟨m, rfl⟩)
  · have : -m.val = v := hs
    have := m.nonneg
    linarith

/-- a finite number (or NaN) over an infinity -/
theorem div_inf {a r : Float64} (ha : Num.isNaN a = true ∨ Num.isFinite a = true)
    (hr : toExt r = .pinf ∨ toExt r = .ninf) :
    (Num.ofRat 0 <. (a /. r)) = false ∧ ((a /. r) <. Num.ofRat 0) = false := by
  have hr' : ∃ s, r = inf s := by
    cases r with
    | inf s => exact ⟨s, rfl⟩
    | nan => simp [toExt] at hr
    | fin s m => simp [toExt] at hr
  obtain ⟨s, rfl⟩ := hr'
  have h0 : toExt (Num.ofRat 0 : Float64) = .fin 0 := toExt_zero
  have : toExt (a /. inf s) = .fin 0 ∨ toExt (a /. inf s) = .nan := by
    cases a with
    | nan => right; rfl
    | inf t => rcases ha with ha | ha <;> cases t <;> cases ha
    | fin t m => left; exact toExt_ofExact_zero _
  rw [lt_false_iff, lt_false_iff, h0]
  rcases this with h | h <;> rw [h] <;> simp [Ext.NotGt, Ext.le]

/-- a fraction of at most 1 is finite or NaN -/
theorem fraction_finite {a M : Float64} (h : (Num.abs a <=. M) = true ∨ Num.isNaN M = true) :
    Num.isNaN (a /. M) = true ∨ Num.isFinite (a /. M) = true := by
  rcases abs_div_range h with h | ⟨_, h⟩
  · left
    generalize a /. M = q at *
    cases q with
    | nan => rfl
    | inf s => cases h
    | fin s m => cases h
  · generalize a /. M = q at *
    cases q with
    | nan => left; rfl
    | inf s =>
      have h' : Ext.le .pinf (toExt (Num.ofRat 1 : Float64)) = true := h
      rw [show toExt (Num.ofRat 1 : Float64) = .fin 1 from toExt_one] at h'
      cases h'
    | fin s m => right; rfl

/-- C80: in double precision, if no `|Jz|` of the circular profile is below `2^-50` of the largest
one, a circularity never has the wrong sign and a projected circularity is never negative. -/
theorem C80_sign (env : CircEnv Float64) (henv : env.OK) (b : BGalaxy Float64)
    (bin0 bin1 : Float64) (hbins : BinsIncrease bin0 bin1) (j : JCirc Float64)
    (h : jcirc env (Galaxy.ofBodies b) bin0 bin1 = .ok j)
    (hy : ∀ w ∈ j.y, (Num.ofRat (1 / 2 ^ 50) <=. w) = true)
    (i : Nat) (a : Body Float64) (ha : b.stars[i]? = some a) :
    (∃ e, j.eps[i]? = some e ∧ ((Num.ofRat 0 <. e) = true → (Num.ofRat 0 <. a.jz) = true) ∧
      ((e <. Num.ofRat 0) = true → (a.jz <. Num.ofRat 0) = true)) ∧
    ∃ r, j.epsR[i]? = some r ∧ (r <. Num.ofRat 0) = false := by
  obtain ⟨hlen, hhead, hinc, hx, hy01, -⟩ := C65_profile env henv b bin0 bin1 hbins j h
  have hne : j.x ≠ [] := by
    intro h0
    rw [h0] at hhead
    cases hhead
  have hgood : GoodTable j.x j.y := by
    refine ⟨hlen, hne, hinc, hx, fun w hw => ⟨hy w hw, ?_⟩⟩
    rcases hy01 w hw with h0 | h0
    · have := (NumOrd.not_nan_of_le (hy w hw)).2
      rw [h0] at this
      cases this
    · exact h0.2
  obtain ⟨_, _, n, hn, rfl⟩ := jcirc_inv h
  obtain ⟨_, h1, h2, h3, _⟩ := circNorm_inv hn
  have hJ : Plus n.jzMax := by
    obtain ⟨c, _, hc⟩ := List.mem_map.1 (amax_mem h2)
    rw [← hc]; exact plus_abs _
  have hR : Plus n.jrMax := by
    obtain ⟨c, _, hc⟩ := List.mem_map.1 (amax_mem h3)
    rw [← hc]; exact plus_abs _
  have nn : (Num.ofRat 0 <. (Num.nan : Float64)) = false ∧ ((Num.nan : Float64) <. Num.ofRat 0) = false := by
    decide +kernel
  simp only [circResult, List.getElem?_map, ha, Option.map_some, Option.some.injEq]
  by_cases hok : (isBound a.energy && keepEps (n.eps env a)) = true
  swap
  · rw [if_neg hok, if_neg hok]
    exact ⟨⟨_, rfl, by rw [nn.1]; simp, by rw [nn.2]; simp⟩, _, rfl, nn.2⟩
  rw [if_pos hok, if_pos hok]
  have hb : isBound a.energy = true := (Bool.and_eq_true _ _ ▸ hok).1
  have hab : a ∈ b.bound := by
    refine List.mem_filter.2 ⟨?_, hb⟩
    unfold BGalaxy.all
    simp [List.mem_of_getElem? ha]
  have fz : Num.isNaN (n.jz a) = true ∨ Num.isFinite (n.jz a) = true :=
    fraction_finite (amax_le_or_nan h2 _ (List.mem_map.2 ⟨a, hab, rfl⟩))
  have fr : Num.isNaN (a.jr /. n.jrMax) = true ∨ Num.isFinite (a.jr /. n.jrMax) = true :=
    fraction_finite (amax_le_or_nan h3 _ (List.mem_map.2 ⟨a, hab, rfl⟩))
  have hjr : (a.jr <. Num.ofRat 0) = false :=
    not_neg_iff.2 (Plus.sqrt ((plus_sq _).add (plus_sq _))).toExt
  have hjc := interp_upright henv.locate hgood (n.e a)
  change Upright (n.jc env a) ∨ n.jc env a = nan at hjc
  have goal : ∀ hp : Plus (n.jc env a),
      (∃ e, n.eps env a = e ∧ ((Num.ofRat 0 <. e) = true → (Num.ofRat 0 <. a.jz) = true) ∧
      ((e <. Num.ofRat 0) = true → (a.jz <. Num.ofRat 0) = true)) ∧
      ∃ r, n.epsR env a = r ∧ (r <. Num.ofRat 0) = false := by
    intro hp
    refine ⟨⟨_, rfl, ?_, ?_⟩, _, rfl, div_not_neg (div_not_neg hjr hR) hp⟩
    · intro he
      by_contra hz
      rw [Bool.not_eq_true] at hz
      have : (Num.ofRat 0 <. n.eps env a) = false := div_not_pos (div_not_pos hz hJ) hp
      rw [this] at he
      cases he
    · intro he
      by_contra hz
      rw [Bool.not_eq_true] at hz
      have : (n.eps env a <. Num.ofRat 0) = false := div_not_neg (div_not_neg hz hJ) hp
      rw [this] at he
      cases he
  rcases hjc with (⟨v, hv, hpos⟩ | hinf) | hnan
  · exact goal (plus_of_pos hv hpos)
  · have e1 : (Num.ofRat 0 <. n.eps env a) = false ∧ (n.eps env a <. Num.ofRat 0) = false :=
      div_inf fz hinf
    have e2 : (Num.ofRat 0 <. n.epsR env a) = false ∧ (n.epsR env a <. Num.ofRat 0) = false :=
      div_inf fr hinf
    exact ⟨⟨_, rfl, by rw [e1.1]; simp, by rw [e1.2]; simp⟩, _, rfl, e2.2⟩
  · exact goal (Or.inl hnan)

/-! ## A profile that touches zero -/

/-- a particle of mass 1 at `(1, 0, 0)` with velocity `(0, vy, vz)`: its `Jz` is `vy`, its `Jr` is
`|vz|` -/
def dblTilted (vy vz pot : ℚ) : Body Float64 :=
  ⟨Num.ofRat 1, Num.ofRat 1, Num.ofRat 0, Num.ofRat 0, Num.ofRat 0, Num.ofRat vy, Num.ofRat vz,
    Num.ofRat pot⟩

/-- The third star is at rest with energy -6/23, the second has an energy that is smaller by one
unit in the last place and rotates slowly. -/
def exSign (pot : ℚ) : BGalaxy Float64 where
  stars := [dblTilted (3/16) 0 (-1 - 9/512),
    dblTilted (1/2^56) (1/4) (pot - 1/32 - 1/2^54), dblTilted 0 0 pot,
    dblTilted 1 0 (-1/2 - 1/1024)]
  dm := []
  gas := []
  hasPot := true
  softS := Num.ofRat 0
  softDm := Num.ofRat 0
  softG := Num.ofRat 0

/-- C80 (negation without the condition on the profile): with the default bins a star with positive
`Jz` gets the circularity -1/2 and a negative projected circularity. -/
theorem C80_wrong_sign : (sortEnv (F := Float64)).OK ∧ ∃ (j : JCirc Float64) (a : Body Float64),
    jcirc sortEnv (Galaxy.ofBodies (exSign (-4699408306821387/2^54)))
      (defaultCbin (F := Float64)).1 defaultCbin.2 = .ok j ∧
    (exSign (-4699408306821387/2^54)).stars[1]? = some a ∧ (Num.ofRat 0 <. a.jz) = true ∧
    j.eps[1]? = some (Num.ofRat (-1/2)) ∧ ∃ r, j.epsR[1]? = some r ∧ (r <. Num.ofRat (-1)) = true := by
  refine ⟨sortEnv_ok, ?_⟩
  have h : ((jcirc (sortEnv (F := Float64)) (Galaxy.ofBodies (exSign (-4699408306821387/2^54)))
      (defaultCbin (F := Float64)).1 defaultCbin.2).toOption.bind
        fun j => j.eps[1]?.bind fun e => j.epsR[1]?.map fun r =>
          (decide (e = Num.ofRat (-1/2)), r <. Num.ofRat (-1))) = some (true, true) := by
    decide +kernel
  cases hj : jcirc (sortEnv (F := Float64)) (Galaxy.ofBodies (exSign (-4699408306821387/2^54)))
      (defaultCbin (F := Float64)).1 defaultCbin.2 with
  | error e => rw [hj] at h; cases h
  | ok j =>
    rw [hj] at h
    simp only [Except.toOption, Option.bind_some, Option.bind_eq_some_iff,
      Option.map_eq_some_iff, Prod.mk.injEq, decide_eq_true_eq] at h
    obtain ⟨e, he, r, hr, rfl, h2⟩ := h
    exact ⟨j, _, rfl, rfl, by decide +kernel, he, r, hr, h2⟩

/-- a galaxy for which the hypotheses of `C80_sign` hold -/
example : ∃ j : JCirc Float64, jcirc sortEnv (Galaxy.ofBodies exOvershoot)
    (defaultCbin (F := Float64)).1 defaultCbin.2 = .ok j ∧
    ∀ w ∈ j.y, (Num.ofRat (1 / 2 ^ 50) <=. w) = true := by
  have h : ((jcirc (sortEnv (F := Float64)) (Galaxy.ofBodies exOvershoot)
      (defaultCbin (F := Float64)).1 defaultCbin.2).toOption.map fun j =>
        j.y.all fun w => Num.ofRat (1 / 2 ^ 50) <=. w) = some true := by
    decide +kernel
  cases hj : jcirc (sortEnv (F := Float64)) (Galaxy.ofBodies exOvershoot)
      (defaultCbin (F := Float64)).1 defaultCbin.2 with
  | error e => rw [hj] at h; cases h
  | ok j =>
    rw [hj] at h
    simp only [Except.toOption, Option.map_some, Option.some.injEq, List.all_eq_true] at h
    exact ⟨j, rfl, h⟩

end GChop
