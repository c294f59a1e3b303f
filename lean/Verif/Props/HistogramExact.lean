import Verif.Props.Histogram
import Verif.Lemmas.Ext
import Mathlib.Tactic.Ring
import Mathlib.Tactic.FieldSimp
import Mathlib.Tactic.Positivity

/-!
# C37 – C40 in exact arithmetic: the edges
-/

set_option linter.unusedSectionVars false

namespace GChop
open Ext

variable {K : Type} [Field K] [LinearOrder K] [IsStrictOrderedRing K] [FloorRing K] [HasSqrt K]
variable {σ : Type}

theorem roundHalfEven_bounds (x : K) : ⌊x⌋ ≤ roundHalfEven x ∧ roundHalfEven x ≤ ⌊x⌋ + 1 := by
  unfold roundHalfEven
  simp only
  split
  · omega
  · split
    · omega
    · split <;> omega

theorem roundHalfEven_mono {x y : K} (h : x ≤ y) : roundHalfEven x ≤ roundHalfEven y := by
  rcases lt_or_eq_of_le (Int.floor_mono h) with hlt | heq
  · have h1 := (roundHalfEven_bounds x).2
    have h2 := (roundHalfEven_bounds y).1
    omega
  · unfold roundHalfEven
    simp only
    rw [← heq]
    have hr : x - (⌊x⌋ : K) ≤ y - (⌊x⌋ : K) := by linarith
    by_cases a1 : y - (⌊x⌋ : K) < 1 / 2
    · rw [if_pos a1, if_pos (lt_of_le_of_lt hr a1)]
    · by_cases a2 : 1 / 2 < x - (⌊x⌋ : K)
      · have a3 : ¬ x - (⌊x⌋ : K) < 1 / 2 := not_lt.2 (le_of_lt a2)
        rw [if_neg a3, if_pos a2, if_neg a1, if_pos (lt_of_lt_of_le a2 hr)]
      · by_cases a3 : x - (⌊x⌋ : K) < 1 / 2
        · rw [if_pos a3, if_neg a1]
          split
          · omega
          · split <;> omega
        · rw [if_neg a3, if_neg a2, if_neg a1]
          split
          · split <;> omega
          · split <;> omega

theorem roundHalfEven_int (z : ℤ) : roundHalfEven (z : K) = z := by
  unfold roundHalfEven
  simp

/-- rounding to zero -/
theorem roundHalfEven_eq_zero (x : K) : roundHalfEven x = 0 ↔ |x| ≤ 1 / 2 := by
  rw [abs_le]
  constructor
  · intro h
    have hb := roundHalfEven_bounds x
    have hf1 := Int.floor_le x
    have hf2 := Int.lt_floor_add_one x
    unfold roundHalfEven at h
    simp only at h
    split at h
    · rename_i h1
      rw [h] at h1 hf1
      push_cast at h1 hf1
      constructor <;> linarith
    · split at h
      · rename_i h1 h2
        have : ⌊x⌋ = -1 := by omega
        rw [this] at h2 hf2
        push_cast at h2 hf2
        constructor <;> linarith
      · rename_i h1 h2
        have e : x - (⌊x⌋ : K) = 1 / 2 := le_antisymm (not_lt.1 h2) (not_lt.1 h1)
        split at h
        · rw [h] at e
          push_cast at e
          constructor <;> linarith
        · have : ⌊x⌋ = -1 := by omega
          rw [this] at e
          push_cast at e
          constructor <;> linarith
  · rintro ⟨h1, h2⟩
    unfold roundHalfEven
    simp only
    rcases lt_or_ge x 0 with hx | hx
    · have hf : ⌊x⌋ = -1 := by
        rw [Int.floor_eq_iff]
        push_cast
        constructor <;> linarith
      rw [hf]
      push_cast
      rw [if_neg (by linarith)]
      split
      · rfl
      · rfl
    · have hf : ⌊x⌋ = 0 := by
        rw [Int.floor_eq_iff]
        push_cast
        constructor <;> linarith
      rw [hf]
      push_cast
      split
      · rfl
      · rw [if_neg (by linarith)]

/-- the rule is symmetric -/
theorem roundHalfEven_neg (x : K) : roundHalfEven (-x) = - roundHalfEven x := by
  have hf1 := Int.floor_le x
  have hf2 := Int.lt_floor_add_one x
  rcases eq_or_lt_of_le hf1 with he | hlt
  · rw [← he, ← Int.cast_neg, roundHalfEven_int, roundHalfEven_int]
  · have hfn : ⌊-x⌋ = -⌊x⌋ - 1 := by
      rw [Int.floor_eq_iff]
      push_cast
      constructor <;> linarith
    unfold roundHalfEven
    simp only
    rw [hfn]
    push_cast
    by_cases a : x - (⌊x⌋ : K) < 1 / 2
    · rw [if_pos a, if_neg (by linarith), if_pos (by linarith)]; omega
    · by_cases b : 1 / 2 < x - (⌊x⌋ : K)
      · rw [if_neg a, if_pos b, if_pos (by linarith)]; omega
      · have e : x - (⌊x⌋ : K) = 1 / 2 := le_antisymm (not_lt.1 b) (not_lt.1 a)
        rw [if_neg a, if_neg b, if_neg (by linarith), if_neg (by linarith)]
        split <;> split <;> omega

/-- a number rounded to `d` decimals -/
def roundK (d : ℤ) (x : K) : K := (roundHalfEven (x * (10 : K) ^ d) : K) / (10 : K) ^ d

theorem num_roundDec (d : ℤ) (x : K) : (Num.roundDec d (fin x) : Ext K) = fin (roundK d x) := rfl

theorem ten_pow_pos (d : ℤ) : (0 : K) < (10 : K) ^ d := zpow_pos (by norm_num) d

theorem roundK_mono (d : ℤ) {x y : K} (h : x ≤ y) : roundK d x ≤ roundK d y := by
  unfold roundK
  have hp := ten_pow_pos (K := K) d
  apply div_le_div_of_nonneg_right _ hp.le
  exact_mod_cast roundHalfEven_mono (mul_le_mul_of_nonneg_right h hp.le)

theorem roundK_neg (d : ℤ) (x : K) : roundK d (-x) = - roundK d x := by
  unfold roundK
  rw [neg_mul, roundHalfEven_neg]
  push_cast
  rw [neg_div]

theorem roundK_one (d : ℤ) (hd : 0 ≤ d) : roundK d (1 : K) = 1 := by
  obtain ⟨n, rfl⟩ := Int.eq_ofNat_of_zero_le hd
  unfold roundK
  have : (1 : K) * (10 : K) ^ (n : ℤ) = (((10 : ℤ) ^ n : ℤ) : K) := by push_cast; simp
  rw [this, roundHalfEven_int, ← this, one_mul, div_self (ten_pow_pos _).ne']

theorem roundK_eq_zero (d : ℤ) (x : K) : roundK d x = 0 ↔ |x| * (10 : K) ^ d ≤ 1 / 2 := by
  unfold roundK
  have hp := ten_pow_pos (K := K) d
  rw [div_eq_zero_iff, or_iff_left hp.ne', Int.cast_eq_zero, roundHalfEven_eq_zero, abs_mul,
    abs_of_pos hp]

/-- edge `i` before rounding -/
def edgeK (n i : Nat) : K := -1 + 2 * (i : K) / (n : K)

theorem linspace_get (n : Nat) (hn : 0 < n) (i : Nat) (hi : i ≤ n) :
    (Np.linspace (Num.ofRat (-1)) (Num.ofRat 1) n : List (Ext K))[i]? = some (fin (edgeK n i)) := by
  have hn' : (n : K) ≠ 0 := by exact_mod_cast hn.ne'
  unfold Np.linspace edgeK
  simp only
  rcases lt_or_eq_of_le hi with hlt | heq
  · rw [List.getElem?_append_left (by simpa using hlt), List.getElem?_map, List.getElem?_range hlt]
    simp only [Option.map_some, Option.some.injEq, num_ofRat, num_sub]
    have h1 : (Num.ofInt (n : ℤ) : Ext K) = fin (n : K) := by
      simp [Num.ofInt]
    have h2 : (Num.ofInt (i : ℤ) : Ext K) = fin (i : K) := by
      simp [Num.ofInt]
    rw [h1, h2, num_div _ _ hn', num_mul, num_add]
    congr 1
    push_cast
    field_simp
    ring
  · subst heq
    rw [List.getElem?_append_right (by simp)]
    simp
    field_simp
    ring

theorem roundedEdges_edge (nBin d : ℤ) (hn : 0 < nBin) (i : Nat) (hi : i ≤ nBin.toNat) :
    edge (roundedEdges nBin d : List (Ext K)) i = fin (roundK d (edgeK nBin.toNat i)) := by
  unfold edge roundedEdges
  rw [List.getD_eq_getElem?_getD, List.getElem?_map, linspace_get _ (by omega) i hi]
  rfl

theorem edgeK_mono (n : Nat) {i j : Nat} (h : i ≤ j) : edgeK (K := K) n i ≤ edgeK n j := by
  unfold edgeK
  have : (i : K) ≤ j := by exact_mod_cast h
  have hn : (0 : K) ≤ n := Nat.cast_nonneg n
  gcongr

/-- in exact arithmetic the rounded edges are in order, for all `n_bin` and digits -/
theorem exact_sorted (nBin d : ℤ) (hn : 0 < nBin) :
    EdgesSorted (roundedEdges nBin d : List (Ext K)) nBin.toNat := by
  intro i hi
  rw [roundedEdges_edge nBin d hn i (by omega), roundedEdges_edge nBin d hn (i + 1) (by omega)]
  simp [roundK_mono d (edgeK_mono (K := K) nBin.toNat (Nat.le_succ i))]

/-- in exact arithmetic the end edges are -1 and 1, for all digits from 0 on -/
theorem exact_cover (nBin d : ℤ) (hn : 0 < nBin) (hd : 0 ≤ d) :
    EdgesCover (roundedEdges nBin d : List (Ext K)) nBin.toNat := by
  have hn' : (nBin.toNat : K) ≠ 0 := by
    have : nBin.toNat ≠ 0 := by omega
    exact_mod_cast this
  unfold EdgesCover
  rw [roundedEdges_edge nBin d hn 0 (by omega), roundedEdges_edge nBin d hn _ (le_refl _)]
  have h0 : edgeK (K := K) nBin.toNat 0 = -1 := by simp [edgeK]
  have h1 : edgeK (K := K) nBin.toNat nBin.toNat = 1 := by
    unfold edgeK; field_simp; ring
  rw [h0, h1, roundK_neg, roundK_one d hd]
  simp

/-- C38: in exact arithmetic edge `n - i` is the mirror image of edge `i`. -/
theorem C38_mirror_edges (nBin d : ℤ) (hn : 0 < nBin) (i : Nat) (hi : i ≤ nBin.toNat) :
    edge (roundedEdges nBin d : List (Ext K)) (nBin.toNat - i)
      = Num.neg (edge (roundedEdges nBin d) i) := by
  have hn' : (nBin.toNat : K) ≠ 0 := by
    have : nBin.toNat ≠ 0 := by omega
    exact_mod_cast this
  rw [roundedEdges_edge nBin d hn i hi, roundedEdges_edge nBin d hn _ (by omega), num_neg,
    ← roundK_neg]
  congr 2
  unfold edgeK
  push_cast [hi]
  field_simp
  ring

/-- C40: in exact arithmetic there is no zero edge exactly for an odd number of bins below
`2 * 10^digits`. -/
theorem C40_exact_zero_edge (nBin d : ℤ) (hn : 0 < nBin) :
    (∀ x ∈ (roundedEdges nBin d : List (Ext K)), (x ==. Num.ofRat 0) = false) ↔
      nBin % 2 = 1 ∧ (nBin : K) < 2 * (10 : K) ^ d := by
  have hp := ten_pow_pos (K := K) d
  obtain ⟨n, rfl⟩ := Int.eq_ofNat_of_zero_le hn.le
  have hn0 : (0 : K) < n := by
    have : 0 < n := by omega
    exact_mod_cast this
  have hedge : ∀ i, i ≤ n → ∃ x ∈ (roundedEdges (n : ℤ) d : List (Ext K)),
      x = fin (roundK d (edgeK n i)) := by
    intro i hi
    refine ⟨edge (roundedEdges (n : ℤ) d) i, ?_, roundedEdges_edge (n : ℤ) d hn i (by simpa using hi)⟩
    have hl : i < (roundedEdges (n : ℤ) d : List (Ext K)).length := by
      simp [roundedEdges, Np.linspace]; omega
    simp only [edge, List.getD_eq_getElem?_getD, List.getElem?_eq_getElem hl, Option.getD_some]
    exact List.getElem_mem hl
  constructor
  · intro h
    have hodd : n % 2 = 1 := by
      by_contra hc
      obtain ⟨x, hx, rfl⟩ := hedge (n / 2) (by omega)
      have := h _ hx
      have h2 : (2 : K) * ((n / 2 : Nat) : K) = n := by
        have : 2 * (n / 2) = n := by omega
        exact_mod_cast this
      have h3 : edgeK (K := K) n (n / 2) = 0 := by
        unfold edgeK
        rw [h2, div_self hn0.ne']; ring
      rw [h3] at this
      have h4 : roundK d (0 : K) = 0 := by rw [roundK_eq_zero]; simp
      rw [h4] at this
      simp at this
    refine ⟨by omega, ?_⟩
    by_contra hc
    rw [not_lt] at hc
    obtain ⟨x, hx, rfl⟩ := hedge (n / 2) (by omega)
    have := h _ hx
    have h2 : (2 : K) * ((n / 2 : Nat) : K) = n - 1 := by
      have : 2 * (n / 2) + 1 = n := by omega
      have : (2 : K) * ((n / 2 : Nat) : K) + 1 = n := by exact_mod_cast this
      linarith
    have h3 : edgeK (K := K) n (n / 2) = -(1 / n) := by
      unfold edgeK
      rw [h2]; field_simp; ring
    have h4 : roundK d (edgeK (K := K) n (n / 2)) = 0 := by
      rw [roundK_eq_zero, h3, abs_neg, abs_of_pos (by positivity)]
      push_cast at hc
      rw [div_mul_eq_mul_div, one_mul, div_le_div_iff₀ hn0 (by norm_num)]
      linarith
    rw [h4] at this
    simp at this
  · rintro ⟨hodd, hlt⟩ x hx
    obtain ⟨i, hi⟩ := List.mem_iff_getElem?.1 hx
    have hil : i < (roundedEdges (n : ℤ) d : List (Ext K)).length := (List.getElem?_eq_some_iff.1 hi).1
    have hin : i ≤ n := by simp [roundedEdges, Np.linspace] at hil; omega
    have hxe : x = fin (roundK d (edgeK n i)) := by
      have h1 := roundedEdges_edge (K := K) (n : ℤ) d hn i (by simpa using hin)
      rw [edge, List.getD_eq_getElem?_getD, hi] at h1
      simpa using h1
    rw [hxe]
    have hne : roundK d (edgeK (K := K) n i) ≠ 0 := by
      rw [Ne, roundK_eq_zero, not_le]
      have habs : 1 / (n : K) ≤ |edgeK (K := K) n i| := by
        have he : edgeK (K := K) n i = ((2 * (i : ℤ) - n : ℤ) : K) / n := by
          unfold edgeK; push_cast; field_simp; ring
        rw [he, abs_div, abs_of_pos hn0]
        apply div_le_div_of_nonneg_right _ hn0.le
        rw [← Int.cast_abs]
        have : (1 : ℤ) ≤ |2 * (i : ℤ) - n| := Int.one_le_abs (by omega)
        exact_mod_cast this
      have h1 : 1 / (n : K) * (10 : K) ^ d ≤ |edgeK (K := K) n i| * (10 : K) ^ d :=
        mul_le_mul_of_nonneg_right habs hp.le
      refine lt_of_lt_of_le ?_ h1
      rw [div_mul_eq_mul_div, one_mul, div_lt_div_iff₀ (by norm_num) hn0]
      push_cast at hlt
      linarith
    simp [hne]

/-- C40: in exact arithmetic the zero edge of an even number of bins `2m` with `m < 2 * 10^digits`
is the middle one. -/
theorem C40_exact_even (m : Nat) (hm : 0 < m) (d : ℤ) (hd : (m : K) < 2 * (10 : K) ^ d) :
    makeHistogram (F := Ext K) (2 * m : ℤ) d = .ok (roundedEdges (2 * m : ℤ) d, m) := by
  have hn : (0 : ℤ) < 2 * m := by omega
  have hm0 : (0 : K) < m := by exact_mod_cast hm
  have hp := ten_pow_pos (K := K) d
  cases hh : makeHistogram (F := Ext K) (2 * m : ℤ) d with
  | error e =>
    rcases makeHistogram_error hh with ⟨h, _⟩ | ⟨_, _, h⟩
    · omega
    · have := (C40_exact_zero_edge (K := K) (2 * m : ℤ) d hn).1 h
      omega
  | ok r =>
    obtain ⟨edges, bin0⟩ := r
    obtain ⟨-, hlen, hed, hb, hz, hfirst⟩ := makeHistogram_inv hh
    have hed' : edges = roundedEdges (2 * m : ℤ) d := hed
    subst hed'
    have hto : (2 * m : ℤ).toNat = 2 * m := by omega
    have hval : ∀ i, i ≤ 2 * m → edge (roundedEdges (2 * m : ℤ) d : List (Ext K)) i
        = fin (roundK d (edgeK (2 * m) i)) := by
      intro i hi
      have := roundedEdges_edge (K := K) (2 * m : ℤ) d hn i (by omega)
      rwa [hto] at this
    have hek : ∀ i : Nat, edgeK (K := K) (2 * m) i = ((i : K) - m) / m := by
      intro i; unfold edgeK; push_cast; field_simp; ring
    have hzero : ∀ i, i ≤ 2 * m →
        ((edge (roundedEdges (2 * m : ℤ) d : List (Ext K)) i ==. Num.ofRat 0) = true ↔ i = m) := by
      intro i hi
      rw [hval i hi]
      simp only [num_ofRat, Rat.cast_zero, num_eq, decide_eq_true_eq]
      rw [roundK_eq_zero, hek]
      constructor
      · intro h
        by_contra hne
        have h1 : (1 : K) ≤ |(i : K) - m| := by
          have : (1 : ℤ) ≤ |(i : ℤ) - m| := Int.one_le_abs (by omega)
          have h2 : ((i : K) - m) = (((i : ℤ) - m : ℤ) : K) := by push_cast; rfl
          rw [h2, ← Int.cast_abs]
          exact_mod_cast this
        rw [abs_div, abs_of_pos hm0] at h
        have h2 : 1 / (m : K) * 10 ^ d ≤ 1 / 2 :=
          le_trans (mul_le_mul_of_nonneg_right (div_le_div_of_nonneg_right h1 hm0.le) hp.le) h
        rw [div_mul_eq_mul_div, one_mul, div_le_div_iff₀ hm0 (by norm_num)] at h2
        linarith
      · rintro rfl
        simp
    have := (hzero bin0 (by omega)).1 hz
    rw [this]

/-- C37 in exact arithmetic: for an even number of bins `2m` with enough digits every star with
circularity in [-1, 1] gets label 0 or 1, for every generator and memory content. -/
theorem C37_exact (junk : Nat → Int) (rng : Rng σ) (hr : rng.OK) (m : Nat) (hm : 0 < m) (d : ℤ)
    (hd0 : 0 ≤ d) (hd : (m : K) < 2 * (10 : K) ^ d) (eps : List K) (he : ∀ e ∈ eps, |e| ≤ 1) (s : σ) :
    ∃ labels s', jHistogramSplit junk rng (2 * m : ℤ) d (eps.map fun e => [fin e]) s
        = .ok (labels, s') ∧
      labels.length = eps.length ∧ (∀ l ∈ labels, l = 0 ∨ l = 1) ∧
      ∀ (p : Nat) (e : K), eps[p]? = some e → e < 0 → labels[p]? = some 0 := by
  have hn : (0 : ℤ) < 2 * m := by omega
  have hh := C40_exact_even (K := K) m hm d hd
  have hX : (eps.map fun e => [(fin e : Ext K)]) = (eps.map fin).map fun e => [e] := by
    rw [List.map_map]; rfl
  have hu : ∀ e ∈ eps.map (fin : K → Ext K), InUnit e := by
    intro e h
    rw [List.mem_map] at h
    obtain ⟨x, hx, rfl⟩ := h
    have := abs_le.1 (he x hx)
    unfold InUnit
    simp [this.1, this.2]
  rw [hX]
  obtain ⟨labels, s', h1, h2, h3⟩ := C37_labels junk rng hr hh (exact_sorted _ d hn)
    (exact_cover _ d hn hd0) (eps.map fin) hu s
  refine ⟨labels, s', h1, by simpa using h2, h3, ?_⟩
  intro p e hp hneg
  exact (C39_sides junk rng hr hh (exact_sorted _ d hn) (exact_cover _ d hn hd0) (eps.map fin) hu
    s s' labels h1 p (fin e) (by simp [hp])).1 (by simpa using hneg)

/-- the first `k` entries, a generator that satisfies the assumption -/
def firstRng : Rng Unit := ⟨fun _ a k => (a.take k, ())⟩
/-- the last `k` entries in reverse order -/
def lastRng : Rng Unit := ⟨fun _ a k => (a.reverse.take k, ())⟩

theorem firstRng_ok : firstRng.OK := fun _ a k h =>
  ⟨by simp [firstRng, h], (List.take_sublist k a).subperm⟩
theorem lastRng_ok : lastRng.OK := fun _ a k h =>
  ⟨by simp [lastRng, h], (List.take_sublist k a.reverse).subperm.trans (List.reverse_perm a).subperm⟩

/-- four bins: the generator matters for the labels, not for their number -/
example : (jHistogramSplit (fun _ => 99) firstRng 4 2
      [[q (-1)], [q (-3/4)], [q (1/4)], [q (3/4)], [q 1], [q (4/5)]] ()).map (·.1)
    = .ok [0, 0, 1, 0, 0, 1] := by decide +kernel
example : (jHistogramSplit (fun _ => 99) lastRng 4 2
      [[q (-1)], [q (-3/4)], [q (1/4)], [q (3/4)], [q 1], [q (4/5)]] ()).map (·.1)
    = .ok [0, 0, 1, 1, 0, 0] := by decide +kernel
example : makeHistogram (F := Ext ℚ) 5 2 = .error .indexError := by decide +kernel
example : makeHistogram (F := Ext ℚ) 0 2 = .error .valueError := by decide +kernel
/-- digits = -1 rounds all edges to zero -/
example : jHistogramSplit (fun _ => 99) firstRng 4 (-1) [[q 1]] () = .error .attributeError := by
  decide +kernel
/-- the hypotheses of the general theorems are satisfiable for the default parameters -/
example : ∃ edges, makeHistogram (F := Ext ℝ) 100 2 = .ok (edges, 50) ∧
    EdgesSorted edges 100 ∧ EdgesCover edges 100 := by
  refine ⟨_, ?_, exact_sorted 100 2 (by norm_num), exact_cover 100 2 (by norm_num) (by norm_num)⟩
  have := C40_exact_even (K := ℝ) 50 (by norm_num) 2 (by norm_num)
  exact this

end GChop
