import Verif.Lemmas.BinaryEdges
import Verif.Props.HistogramExact
import Verif.Props.HistogramGalaxy

/-!
# C66: the histogram models in double precision

Everything here is about `Float64`, IEEE-754 binary64 with its rounding errors.
-/

set_option linter.unusedSectionVars false

namespace GChop
open Flt

variable {σ : Type}

theorem wide64 : Wide Fmt.binary64 :=
  ⟨by decide, by decide +kernel⟩

/-- `10.0**d` is a finite integer for `d` up to 308 -/
theorem digits64 {d : Nat} (hd : d ≤ 308) : ∃ k, Digits Fmt.binary64 d k := by
  obtain ⟨k, hk⟩ := Fmt.binary64.roundPos_int (10 ^ d)
  have h10 : ((10 ^ d : ℕ) : ℚ) = 10 ^ d := by push_cast; rfl
  rw [h10] at hk
  have h1 : (1 : ℚ) ≤ 10 ^ d := one_le_pow₀ (by norm_num)
  have hk1 : (1 : ℚ) ≤ k := by
    rw [← hk, ← Fmt.binary64.roundPos_one]
    exact Fmt.binary64.roundPos_mono (by norm_num) h1
  have hmax : (k : ℚ) ≤ Fmt.binary64.maxFin := by
    rw [← hk]
    refine le_trans (Fmt.binary64.roundPos_mono (y := 10 ^ 308) (by positivity) ?_) (by decide +kernel)
    exact pow_le_pow_right₀ (by norm_num) hd
  have hs : Fmt.binary64.srnd (10 ^ d) = k := by
    rw [Fmt.srnd_of_nonneg _ (by positivity), hk]
  refine ⟨k, by exact_mod_cast hk1, ?_, hmax, ?_⟩
  · rw [Fmt.srnd_of_nonneg _ (by positivity), ← hk]
    exact Fmt.binary64.roundPos_idem (by positivity)
  · rw [toExt_ofExact, hs, Fmt.clip_fin]
    rwa [abs_of_nonneg (by positivity)]

/-- `10.0**d` is exact for `d` up to 15 -/
theorem digits64_exact {d : Nat} (hd : d ≤ 15) : Digits Fmt.binary64 d (10 ^ d) := by
  obtain ⟨k, hk⟩ := digits64 (d := d) (by omega)
  have hle : 10 ^ d ≤ 2 ^ Fmt.binary64.prec :=
    le_trans (Nat.pow_le_pow_right (by norm_num) hd) (by decide +kernel)
  have h10 : ((10 ^ d : ℕ) : ℚ) = 10 ^ d := by push_cast; rfl
  have hs := srnd_nat (fmt := Fmt.binary64) hle
  have hmax : ((10 ^ d : ℕ) : ℚ) ≤ Fmt.binary64.maxFin := by
    refine le_trans ?_ wide64.large
    exact_mod_cast hle
  refine ⟨by positivity, hs, hmax, ?_⟩
  rw [← h10, toExt_ofExact, hs, Fmt.clip_fin]
  rwa [abs_of_nonneg (by positivity)]

/-- C66: the rounded edges are in order and reach from -1 to 1 in double precision, for every number
of bins up to 2^53 and every number of digits up to 308. -/
theorem C66_edges (n d : Nat) (hn : 0 < n) (h : n ≤ 2 ^ 53) (hd : d ≤ 308) :
    EdgesSorted (roundedEdges (n : Int) (d : Int) : List Float64) n ∧
    EdgesCover (roundedEdges (n : Int) (d : Int) : List Float64) n := by
  obtain ⟨k, hk⟩ := digits64 hd
  exact ⟨roundedEdges_sorted wide64 hk hn h, roundedEdges_cover wide64 hk hn h⟩

/-- C66: the energy edges are in order in double precision. -/
theorem C66_energy_edges (n : Nat) (h : n ≤ 2 ^ 53) :
    EdgesSorted (energyEdges n : List Float64) n := energyEdges_sorted wide64 h

/-- the rounded edge `i` is zero or not, from the distance of the exact one from zero -/
theorem zero_edge64 {n d : Nat} (hn : 0 < n) (h : n ≤ 2 ^ 53) (hd : d ≤ 15) {i : Nat} (hi : i < n) :
    (2 * i = n → (edge (roundedEdges (n : Int) (d : Int) : List Float64) i ==. Num.ofRat 0) = true) ∧
    (n ≤ 10 ^ d * (2 * (i : ℤ) - n).natAbs →
      (edge (roundedEdges (n : Int) (d : Int) : List Float64) i ==. Num.ofRat 0) = false) := by
  have hk := digits64_exact hd
  have hv := (roundedEdges_val wide64 hk hn h hi).1
  have herr := linVal_err wide64 hn h hi
  have hn' : (0 : ℚ) < n := by exact_mod_cast hn
  have hP : (0 : ℚ) < ((10 ^ d : ℕ) : ℚ) := by positivity
  have hP15 : ((10 ^ d : ℕ) : ℚ) ≤ 10 ^ 15 := by
    exact_mod_cast Nat.pow_le_pow_right (by norm_num : 0 < 10) hd
  have hu : (7 / 2 : ℚ) * 2 ^ (-((Fmt.binary64.prec : ℕ) : ℤ)) * 10 ^ 15 ≤ 39 / 100 := by decide +kernel
  have hu0 : (0 : ℚ) ≤ 7 / 2 * 2 ^ (-((Fmt.binary64.prec : ℕ) : ℤ)) := by decide +kernel
  have hu2 : (7 / 2 : ℚ) * 2 ^ (-((Fmt.binary64.prec : ℕ) : ℤ)) * ((10 ^ d : ℕ) : ℚ) ≤ 39 / 100 :=
    le_trans (mul_le_mul_of_nonneg_left hP15 hu0) hu
  have hzero : (toExt (Num.ofRat 0 : Float64)) = .fin 0 := toExt_zero
  constructor
  · intro h2
    have hex : 2 * (i : ℚ) / n - 1 = 0 := by
      have : 2 * (i : ℚ) = n := by exact_mod_cast h2
      rw [this, div_self hn'.ne', sub_self]
    rw [hex, sub_zero] at herr
    have : decVal Fmt.binary64 ((10 ^ d : ℕ) : ℚ) (linVal Fmt.binary64 2 n i) = 0 := by
      refine decVal_eq_zero (b := 7 / 16) hP ?_ (by norm_num) (by decide +kernel)
      have := mul_le_mul_of_nonneg_right herr hP.le
      linarith
    rw [this] at hv
    show Ext.eq (toExt _) (toExt _) = true
    rw [hv, hzero]
    decide +kernel
  · intro h2
    have hex : 2 * (i : ℚ) / n - 1 = ((2 * (i : ℤ) - n : ℤ) : ℚ) / n := by
      push_cast
      field_simp
    have hb : 1 ≤ |2 * (i : ℚ) / n - 1| * ((10 ^ d : ℕ) : ℚ) := by
      rw [hex, abs_div, abs_of_pos hn', div_mul_eq_mul_div, le_div_iff₀ hn', one_mul, ← Int.cast_abs,
        Int.abs_eq_natAbs]
      have : n ≤ (2 * (i : ℤ) - n).natAbs * 10 ^ d := by rwa [mul_comm]
      exact_mod_cast this
    have habs : |2 * (i : ℚ) / n - 1| - 7 / 2 * 2 ^ (-((Fmt.binary64.prec : ℕ) : ℤ))
        ≤ |linVal Fmt.binary64 2 n i| := by
      have := abs_sub_abs_le_abs_sub (2 * (i : ℚ) / n - 1) (linVal Fmt.binary64 2 n i)
      rw [abs_sub_comm (2 * (i : ℚ) / n - 1) (linVal Fmt.binary64 2 n i)] at this
      linarith
    have : decVal Fmt.binary64 ((10 ^ d : ℕ) : ℚ) (linVal Fmt.binary64 2 n i) ≠ 0 := by
      refine decVal_ne_zero (b := 9 / 16) (c := 1 / 2 ^ 50) hP ?_ (by norm_num) (by decide +kernel) ?_
        (by positivity) (by decide +kernel)
      · have := mul_le_mul_of_nonneg_right habs hP.le
        rw [sub_mul] at this
        linarith
      · apply one_div_le_one_div_of_le hP
        refine hP15.trans (by norm_num)
    show Ext.eq (toExt _) (toExt _) = false
    rw [hv, hzero]
    rw [Bool.eq_false_iff]
    intro hc
    simp only [Ext.eq, Ext.le, Bool.and_eq_true, decide_eq_true_eq] at hc
    exact this (le_antisymm hc.1 hc.2)

/-- C66: an even number of bins `2m` has a zero edge in double precision, for up to 15 digits; if `m`
is at most `10^digits`, it is the middle one and the only one. -/
theorem C66_even (m d : Nat) (hm : 0 < m) (h : 2 * m ≤ 2 ^ 53) (hd : d ≤ 15) :
    ∃ bin0 ≤ m, makeHistogram (F := Float64) (2 * m : ℤ) d = .ok (roundedEdges (2 * m : ℤ) d, bin0) ∧
      (m ≤ 10 ^ d → bin0 = m) := by
  have hcast : (2 * m : ℤ) = ((2 * m : ℕ) : ℤ) := by push_cast; rfl
  rw [hcast]
  have hmid := (zero_edge64 (n := 2 * m) (by omega) h hd (i := m) (by omega)).1 rfl
  have hl : m < (roundedEdges ((2 * m : ℕ) : ℤ) (d : ℤ) : List Float64).length := by
    simp [roundedEdges, Np.linspace]; omega
  cases hh : makeHistogram (F := Float64) ((2 * m : ℕ) : ℤ) d with
  | error e =>
    exfalso
    rcases makeHistogram_error hh with ⟨h, _⟩ | ⟨_, _, h⟩
    · omega
    · have hmem : edge (roundedEdges ((2 * m : ℕ) : ℤ) (d : ℤ) : List Float64) m
          ∈ (roundedEdges ((2 * m : ℕ) : ℤ) (d : ℤ) : List Float64) := by
        simp only [edge, List.getD_eq_getElem?_getD, List.getElem?_eq_getElem hl, Option.getD_some]
        exact List.getElem_mem hl
      rw [h _ hmem] at hmid
      cases hmid
  | ok r =>
    obtain ⟨edges, bin0⟩ := r
    obtain ⟨-, hlen, hed, hb, hz, hfirst⟩ := makeHistogram_inv hh
    have hed' : edges = roundedEdges ((2 * m : ℕ) : ℤ) (d : ℤ) := hed
    subst hed'
    have hle : bin0 ≤ m := by
      by_contra hc
      have := hfirst m (by omega)
      rw [this] at hmid
      cases hmid
    refine ⟨bin0, hle, rfl, ?_⟩
    intro hmd
    by_contra hne
    have := (zero_edge64 (n := 2 * m) (by omega) h hd (i := bin0) (by omega)).2 ?_
    · rw [this] at hz
      cases hz
    · have : 2 ≤ (2 * (bin0 : ℤ) - ((2 * m : ℕ) : ℤ)).natAbs := by push_cast; omega
      nlinarith

/-- C66: an odd number of bins up to `10^digits` has no zero edge in double precision either, and both
histogram models raise `IndexError`. -/
theorem C66_odd (n d : Nat) (hodd : n % 2 = 1) (hn : n ≤ 10 ^ d) (hd : d ≤ 15) :
    makeHistogram (F := Float64) (n : ℤ) d = .error .indexError := by
  have h53 : n ≤ 2 ^ 53 := by
    refine hn.trans (le_trans (Nat.pow_le_pow_right (by norm_num) hd) (by norm_num))
  have hk := digits64_exact hd
  cases hh : makeHistogram (F := Float64) (n : ℤ) d with
  | error e =>
    rcases makeHistogram_error hh with ⟨h, _⟩ | ⟨_, rfl, h⟩
    · omega
    · rfl
  | ok r =>
    exfalso
    obtain ⟨edges, bin0⟩ := r
    obtain ⟨-, hlen, hed, hb, hz, -⟩ := makeHistogram_inv hh
    have hed' : edges = roundedEdges (n : ℤ) (d : ℤ) := hed
    subst hed'
    rcases Nat.lt_or_ge bin0 n with hlt | hge
    · have := (zero_edge64 (n := n) (by omega) h53 hd (i := bin0) hlt).2 ?_
      · rw [this] at hz
        cases hz
      · have : 1 ≤ (2 * (bin0 : ℤ) - (n : ℤ)).natAbs := by omega
        nlinarith
    · have hb' : bin0 = n := by omega
      rw [hb'] at hz
      have hz' : Ext.eq (toExt (edge (roundedEdges (n : Int) (d : Int) : List Float64) n))
          (toExt (ofExact false 0 : Float64)) = true := hz
      rw [roundedEdges_last hk, toExt_zero] at hz'
      revert hz'
      decide +kernel

theorem half_bound {m d : Nat} (hmd : m ≤ 10 ^ d) (hd : d ≤ 15) : 2 * m ≤ 2 ^ 53 := by
  have h1 : (10 : ℕ) ^ d ≤ 10 ^ 15 := Nat.pow_le_pow_right (by norm_num) hd
  have h2 : (2 : ℕ) * 10 ^ 15 ≤ 2 ^ 53 := by norm_num
  omega

/-- what the theorems about the labels ask for -/
theorem histogram64 {m d : Nat} (hm : 0 < m) (hmd : m ≤ 10 ^ d) (hd : d ≤ 15) :
    makeHistogram (F := Float64) (2 * m : ℤ) d = .ok (roundedEdges (2 * m : ℤ) d, m) ∧
    EdgesSorted (roundedEdges (2 * m : ℤ) d : List Float64) (2 * m : ℤ).toNat ∧
    EdgesCover (roundedEdges (2 * m : ℤ) d : List Float64) (2 * m : ℤ).toNat := by
  have h53 := half_bound hmd hd
  obtain ⟨bin0, -, hh, hb⟩ := C66_even m d hm h53 hd
  rw [hb hmd] at hh
  have hto : (2 * m : ℤ).toNat = 2 * m := by omega
  have hcast : (2 * m : ℤ) = ((2 * m : ℕ) : ℤ) := by push_cast; rfl
  have := C66_edges (2 * m) d (by omega) h53 (by omega)
  refine ⟨hh, ?_⟩
  rw [hto, hcast]
  exact this

/-- C66: `JHistogram.split` in double precision, for `2m` bins with `m` at most `10^digits` and up to
15 digits, for every generator and memory content: every star with circularity in [-1, 1] gets label
0 or 1, every counter-rotating one gets 0, and the co-rotating ones with label 0 are not more than the
counter-rotating ones. -/
theorem C66_jhistogram (junk : Nat → Int) (rng : Rng σ) (hr : rng.OK) (m d : Nat) (hm : 0 < m)
    (hmd : m ≤ 10 ^ d) (hd : d ≤ 15) (eps : List Float64)
    (he : ∀ e ∈ eps, (Num.ofRat (-1) <=. e) = true ∧ (e <=. Num.ofRat 1) = true) (s : σ) :
    ∃ labels s', jHistogramSplit junk rng (2 * m : ℤ) d (eps.map fun e => [e]) s = .ok (labels, s') ∧
      labels.length = eps.length ∧ (∀ l ∈ labels, l = 0 ∨ l = 1) ∧
      (∀ (p : Nat) (e : Float64), eps[p]? = some e → (e <. Num.ofRat 0) = true →
        labels[p]? = some 0) ∧
      ((eps.zip labels).filter fun r => !(r.1 <. Num.ofRat 0) && r.2 == 0).length
        ≤ (eps.filter fun e => e <. Num.ofRat 0).length := by
  obtain ⟨hh, hs, hc⟩ := histogram64 hm hmd hd
  obtain ⟨labels, s', h1, h2, h3⟩ := C37_labels junk rng hr hh hs hc eps he s
  refine ⟨labels, s', h1, h2, h3, ?_, ?_⟩
  · intro p e hp hneg
    exact (C39_sides junk rng hr hh hs hc eps he s s' labels h1 p e hp).1 hneg
  · exact C38_corotating_le junk rng hr hh hs hc eps he s s' labels h1

/-- C66: `JEHistogram.split` in double precision returns for stars of energy below zero, for every
positive number of energy bins up to 2^53, with the same labels. -/
theorem C66_jehistogram (junk : Nat → Int) (rng : Rng σ) (hr : rng.OK) (m d nE : Nat) (hm : 0 < m)
    (hmd : m ≤ 10 ^ d) (hd : d ≤ 15) (hE0 : 0 < nE) (hE : nE ≤ 2 ^ 53) (rows : List (Float64 × Float64))
    (he : ∀ r ∈ rows, (Num.ofRat (-1) <=. r.2) = true ∧ (r.2 <=. Num.ofRat 1) = true)
    (hneg : ∀ r ∈ rows, (r.1 <. Num.ofRat 0) = true) (s : σ) :
    ∃ labels s', jeHistogramSplit junk rng (2 * m : ℤ) d nE (rows.map fun r => [r.1, r.2]) s
        = .ok (labels, s') ∧
      labels.length = rows.length ∧ (∀ l ∈ labels, l = 0 ∨ l = 1) ∧
      ∀ (p : Nat) (r : Float64 × Float64), rows[p]? = some r → (r.2 <. Num.ofRat 0) = true →
        labels[p]? = some 0 := by
  obtain ⟨hh, hs, hc⟩ := histogram64 hm hmd hd
  have hEs : EdgesSorted (energyEdges (nE : ℤ).toNat : List Float64) (nE : ℤ).toNat := by
    rw [Int.toNat_natCast]
    exact C66_energy_edges nE hE
  obtain ⟨labels, s', h⟩ := C42_returns_partial junk rng hr (nE : ℤ) (by omega) hEs hh hm rows hneg s
  obtain ⟨h1, h2, h3⟩ := C41_labels junk rng hr (nE : ℤ) hEs hh hs hc rows he s s' labels h
  exact ⟨labels, s', h, h1, h2, fun p r hp hn => (h3 p r hp).1 hn⟩

/-- C66: the whole decomposition with `JHistogram` in double precision: each star with a finite
circularity gets label 0 or 1 and all other particles get none. -/
theorem C66_decompose (junk : Nat → Int) (rng : Rng σ) (hr : rng.OK) (m d : Nat) (hm : 0 < m)
    (hmd : m ≤ 10 ^ d) (hd : d ≤ 15) (s : σ) (env : CircEnv Float64) (cbins : Float64 × Float64)
    (b : BGalaxy Float64) (j : JCirc Float64)
    (hj : jcirc env (Galaxy.ofBodies b) cbins.1 cbins.2 = .ok j) :
    ∃ c, decompose env cbins (jHistogram junk rng (2 * m : ℤ) d s) (Galaxy.ofBodies b) = .ok c ∧
      c.labels.length = b.stars.length + b.dm.length + b.gas.length ∧
      (∀ (i : Nat) (e : Float64), j.eps[i]? = some e →
        if Num.isFinite e then ∃ l, c.labels[i]? = some (some l) ∧ (l = 0 ∨ l = 1)
        else c.labels[i]? = some none) ∧
      (∀ i, b.stars.length ≤ i → i < b.stars.length + b.dm.length + b.gas.length →
        c.labels[i]? = some none) := by
  obtain ⟨hh, hs, hc⟩ := histogram64 hm hmd hd
  exact C37_decompose junk rng hr hh hs hc s env cbins b j hj

/-- C67 in double precision. -/
theorem C67_double (junk : Nat → Int) (rng : Rng σ) (hr : rng.OK) (m d nE : Nat) (hm : 0 < m)
    (hmd : m ≤ 10 ^ d) (hd : d ≤ 15) (hE0 : 0 < nE) (hE : nE ≤ 2 ^ 53) (s : σ)
    (env : CircEnv Float64) (cbins : Float64 × Float64) (b : BGalaxy Float64) (j : JCirc Float64)
    (hj : jcirc env (Galaxy.ofBodies b) cbins.1 cbins.2 = .ok j)
    (hneg : ∀ (i : Nat) (n e : Float64), j.normalizedStarEnergy[i]? = some n → j.eps[i]? = some e →
      Num.isFinite n = true → Num.isFinite e = true → (n <. Num.ofRat 0) = true) :
    ∃ c, decompose env cbins (jeHistogram junk rng (2 * m : ℤ) d nE s) (Galaxy.ofBodies b) = .ok c ∧
      c.labels.length = b.stars.length + b.dm.length + b.gas.length ∧
      (∀ (i : Nat) (n e : Float64), j.normalizedStarEnergy[i]? = some n → j.eps[i]? = some e →
        if Num.isFinite n ∧ Num.isFinite e then
          ∃ l, c.labels[i]? = some (some l) ∧ (l = 0 ∨ l = 1) ∧ ((e <. Num.ofRat 0) = true → l = 0)
        else c.labels[i]? = some none) ∧
      (∀ i, b.stars.length ≤ i → i < b.stars.length + b.dm.length + b.gas.length →
        c.labels[i]? = some none) := by
  obtain ⟨hh, hs, hc⟩ := histogram64 hm hmd hd
  have hEs : EdgesSorted (energyEdges (nE : ℤ).toNat : List Float64) (nE : ℤ).toNat := by
    rw [Int.toNat_natCast]
    exact C66_energy_edges nE hE
  exact C67_jehistogram junk rng hr hh hs hc (nE : ℤ) (by omega) hEs s env cbins b j hj hneg

/-- C66 (beyond 15 digits): with 98 bins and 16 digits there is a zero edge in exact arithmetic, but
not in double precision, where `49 * (1/49)` is not 1. -/
theorem C66_counterexample :
    makeHistogram (F := Float64) 98 16 = .error .indexError ∧
    ∃ r, makeHistogram (F := Ext ℚ) 98 16 = .ok r := by
  refine ⟨by decide +kernel, _, C40_exact_even (K := ℚ) 49 (by norm_num) 16 (by norm_num)⟩

/-- C42 (negation): the stars of `C42_counterexample` fail in double precision as well. -/
theorem C42_counterexample_double (junk : Nat → Int) (rng : Rng σ) (hr : rng.OK) (s : σ) :
    jeHistogramSplit junk rng 100 2 20
      (([(-1/100, -49/100), (0, 49/100), (0, 49/100)] : List (ℚ × ℚ)).map
        fun r => [(Num.ofRat r.1 : Float64), Num.ofRat r.2]) s = .error .valueError := by
  obtain ⟨hh, hs, hc⟩ := histogram64 (m := 50) (d := 2) (by norm_num) (by norm_num) (by norm_num)
  have hEs : EdgesSorted (energyEdges (20 : ℤ).toNat : List Float64) (20 : ℤ).toNat :=
    C66_energy_edges 20 (by norm_num)
  have h0 : jeHistogramSplit (fun _ => 99) firstRng 100 2 20
      (([(-1/100, -49/100), (0, 49/100), (0, 49/100)] : List (ℚ × ℚ)).map
        fun r => [(Num.ofRat r.1 : Float64), Num.ofRat r.2]) () = .error .valueError := by
    decide +kernel
  have hX : (([(-1/100, -49/100), (0, 49/100), (0, 49/100)] : List (ℚ × ℚ)).map
      fun r => [(Num.ofRat r.1 : Float64), Num.ofRat r.2]) =
      (([(-1/100, -49/100), (0, 49/100), (0, 49/100)] : List (ℚ × ℚ)).map
      fun r => ((Num.ofRat r.1 : Float64), (Num.ofRat r.2 : Float64))).map fun r => [r.1, r.2] := rfl
  rw [hX] at h0 ⊢
  exact (C42_failure junk rng hr 20 hEs hh (by norm_num) _ s .valueError).2
    ((C42_failure (fun _ => 99) firstRng firstRng_ok 20 hEs hh (by norm_num) _ () .valueError).1 h0)

/-- C66 on concrete stars, for the default parameters: the hypotheses hold and the result is not
trivial -/
example : (jHistogramSplit (fun _ => 99) firstRng 100 2
    (([-3/10, 1/3, 1/3, 9/10, 1/10] : List ℚ).map fun e => [(Num.ofRat e : Float64)]) ()).toOption.map
      Prod.fst = some [0, 1, 1, 1, 1] := by decide +kernel

example : (jHistogramSplit (fun _ => 99) firstRng 100 2
    (([-1/3, 1/3, 1/3, 9/10, 1/10] : List ℚ).map fun e => [(Num.ofRat e : Float64)]) ()).toOption.map
      Prod.fst = some [0, 0, 1, 1, 1] := by decide +kernel

example : (50 : ℕ) ≤ 10 ^ 2 ∧ ∀ e ∈ (([-1/3, 1/3, 1/3, 9/10, 1/10] : List ℚ).map
    fun e => (Num.ofRat e : Float64)),
    (Num.ofRat (-1) <=. e) = true ∧ (e <=. Num.ofRat 1) = true := by decide +kernel

example : (jeHistogramSplit (fun _ => 99) firstRng 100 2 20
    (([(-1/2, -1/3), (-1/3, 1/3), (-1/2, 1/3), (-1/5, 9/10)] : List (ℚ × ℚ)).map
      fun r => [(Num.ofRat r.1 : Float64), Num.ofRat r.2]) ()).toOption.map
      Prod.fst = some [0, 1, 0, 1] := by decide +kernel

end GChop
