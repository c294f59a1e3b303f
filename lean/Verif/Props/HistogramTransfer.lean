import Verif.Lemmas.BinaryEdges
import Verif.Lemmas.BinaryFuzzy
import Verif.Props.DoubleHistogram

/-!
# C102: the histogram models see the bins of a star and nothing else

So double precision gives the labels of exact arithmetic wherever it puts the stars into the same
bins, which is decided here for every double.
-/

set_option linter.unusedSectionVars false

namespace GChop

variable {F G : Type} [Num F] [Num G] {σ : Type}

theorem le_nan_false [NumOrd F] (a : F) : (a <=. Num.nan) = false := by
  rw [Bool.eq_false_iff]
  intro h
  have := (NumOrd.not_nan_of_le h).2
  rw [NumOrd.nan_isNaN] at this
  cases this

theorem makeBins_congr {edges : List F} {edges' : List G} {n : Nat} (hn : 0 < n)
    {ids : (F → Bool) → List Nat} {ids' : (G → Bool) → List Nat}
    (h : ∀ k < n, ids (inBinI edges n k) = ids' (inBinI edges' n k)) :
    makeBins edges n ids = makeBins edges' n ids' := by
  obtain ⟨m, rfl⟩ : ∃ m, n = m + 1 := ⟨n - 1, by omega⟩
  have a1 : ∀ k < m, inBinI edges (m + 1) k = fun e =>
      (edges.getD k Num.nan <=. e) && (e <. edges.getD (k + 1) Num.nan) := by
    intro k hk
    funext e
    unfold inBinI
    rw [if_neg (by omega)]
  have a2 : ∀ k < m, inBinI edges' (m + 1) k = fun e =>
      (edges'.getD k Num.nan <=. e) && (e <. edges'.getD (k + 1) Num.nan) := by
    intro k hk
    funext e
    unfold inBinI
    rw [if_neg (by omega)]
  have b1 : inBinI edges (m + 1) m = fun e =>
      (edges.getD m Num.nan <=. e) && (e <=. edges.getD (m + 1) Num.nan) := by
    funext e
    unfold inBinI
    rw [if_pos (by omega)]
  have b2 : inBinI edges' (m + 1) m = fun e =>
      (edges'.getD m Num.nan <=. e) && (e <=. edges'.getD (m + 1) Num.nan) := by
    funext e
    unfold inBinI
    rw [if_pos (by omega)]
  unfold makeBins
  simp only [Nat.add_sub_cancel]
  have hfold : (List.range m).foldl (fun d i => Dict.set d i (ids fun e =>
        (edges.getD i Num.nan <=. e) && (e <. edges.getD (i + 1) Num.nan))) []
      = (List.range m).foldl (fun d i => Dict.set d i (ids' fun e =>
        (edges'.getD i Num.nan <=. e) && (e <. edges'.getD (i + 1) Num.nan))) [] := by
    apply List.foldl_ext
    intro d i hi
    rw [List.mem_range] at hi
    rw [← a1 i hi, ← a2 i hi, h i (by omega)]
  rw [hfold, ← b1, ← b2, h m (by omega)]

/-- C102: two lists of circularities, in any two arithmetics, get the same result from
`JHistogram.split` (labels, state of the generator or error) if the zero edge has the same number and
every star lies in the same bins. -/
theorem C102_jhistogram (junk : Nat → Int) (rng : Rng σ) {nBin digits : Int}
    {edges : List F} {edges' : List G} {bin0 : Nat}
    (hF : makeHistogram nBin digits = .ok (edges, bin0))
    (hG : makeHistogram nBin digits = .ok (edges', bin0)) (eps : List F) (eps' : List G)
    (h : ∀ k < nBin.toNat,
      eps.map (inBinI edges nBin.toNat k) = eps'.map (inBinI edges' nBin.toNat k)) (s : σ) :
    jHistogramSplit junk rng nBin digits (eps.map fun e => [e]) s
      = jHistogramSplit junk rng nBin digits (eps'.map fun e => [e]) s := by
  obtain ⟨hn, -⟩ := makeHistogram_inv hF
  have hpos : 0 < nBin.toNat := by omega
  have hlen : (eps.map fun e => [e]).length = (eps'.map fun e => [e]).length := by
    have := congrArg List.length (h 0 hpos)
    simpa using this
  unfold jHistogramSplit
  rw [hF, hG]
  simp only [Py.ok_bind]
  rw [makeBins_congr hpos (ids' := fun p => Np.take (List.range (eps'.map fun e => [e]).length)
      (Np.where2 ((eps'.map fun e => [e]).map fun r => r.map p))) (edges' := edges'), hlen]
  intro k hk
  rw [jIds, jIds, h k hk]

/-- C102: the same for `JEHistogram.split`, if every star lies in the same energy bins too, counted
with the last bin closed and with the last bin open. -/
theorem C102_jehistogram [NumOrd F] [NumOrd G] (junk : Nat → Int) (rng : Rng σ)
    {nBin digits : Int} (nBinE : Int) {edges : List F} {edges' : List G} {bin0 : Nat}
    (hF : makeHistogram nBin digits = .ok (edges, bin0))
    (hG : makeHistogram nBin digits = .ok (edges', bin0)) (rows : List (F × F))
    (rows' : List (G × G))
    (h : ∀ k < nBin.toNat, rows.map (fun r => inBinI edges nBin.toNat k r.2)
      = rows'.map fun r => inBinI edges' nBin.toNat k r.2)
    (hE : ∀ j < nBinE.toNat,
      rows.map (fun r => inBinI (energyEdges nBinE.toNat) nBinE.toNat j r.1)
        = rows'.map (fun r => inBinI (energyEdges nBinE.toNat) nBinE.toNat j r.1) ∧
      rows.map (fun r => halfOpen (energyEdges nBinE.toNat) j r.1)
        = rows'.map fun r => halfOpen (energyEdges nBinE.toNat) j r.1) (s : σ) :
    jeHistogramSplit junk rng nBin digits nBinE (rows.map fun r => [r.1, r.2]) s
      = jeHistogramSplit junk rng nBin digits nBinE (rows'.map fun r => [r.1, r.2]) s := by
  obtain ⟨hn, -⟩ := makeHistogram_inv hF
  have hpos : 0 < nBin.toNat := by omega
  have hlen : rows.length = rows'.length := by
    have := congrArg List.length (h 0 hpos)
    simpa using this
  have hlen' : (rows.map fun r => [r.1, r.2]).length = (rows'.map fun r => [r.1, r.2]).length := by
    simpa using hlen
  have e1 : ((rows.map fun r => [r.1, r.2]).map fun r => r.getD 0 Num.nan) = rows.map Prod.fst := by
    rw [List.map_map]; rfl
  have e2 : ((rows.map fun r => [r.1, r.2]).map fun r => r.getD 1 Num.nan) = rows.map Prod.snd := by
    rw [List.map_map]; rfl
  have e1' : ((rows'.map fun r => [r.1, r.2]).map fun r => r.getD 0 Num.nan)
      = rows'.map Prod.fst := by
    rw [List.map_map]; rfl
  have e2' : ((rows'.map fun r => [r.1, r.2]).map fun r => r.getD 1 Num.nan)
      = rows'.map Prod.snd := by
    rw [List.map_map]; rfl
  unfold jeHistogramSplit
  simp only [e1, e2, e1', e2']
  rw [hF, hG]
  simp only [Py.ok_bind]
  rw [makeBins_congr hpos (ids' := fun p => Np.take (List.range (rows'.map Prod.snd).length)
      (Np.whereIdx ((rows'.map Prod.snd).map p))) (edges' := edges'), hlen']
  · congr 1
    funext cnt cor s
    unfold energySelect
    split
    · rfl
    · -- the energies enter through two families of tests
      have t1 : ∀ j < nBinE.toNat, ∀ i, inBinI (energyEdges nBinE.toNat) nBinE.toNat j
          ((rows.map Prod.fst).getD i Num.nan)
          = inBinI (energyEdges nBinE.toNat) nBinE.toNat j ((rows'.map Prod.fst).getD i Num.nan) := by
        intro j hj i
        have hi := congrArg (·[i]?) (hE j hj).1
        simp only [List.getElem?_map] at hi
        rw [List.getD_eq_getElem?_getD, List.getD_eq_getElem?_getD, List.getElem?_map,
          List.getElem?_map]
        cases hr : rows[i]? with
        | some r =>
          obtain ⟨hil, -⟩ := List.getElem?_eq_some_iff.1 hr
          rw [hr, List.getElem?_eq_getElem (by omega : i < rows'.length)] at hi
          rw [List.getElem?_eq_getElem (by omega : i < rows'.length)]
          simpa using hi
        | none =>
          have hil := List.getElem?_eq_none_iff.1 hr
          rw [List.getElem?_eq_none (by omega : rows'.length ≤ i)]
          simp only [Option.map_none, Option.getD_none]
          unfold inBinI
          rw [le_nan_false, le_nan_false]
          rfl
      have t2 : ∀ j < nBinE.toNat, ∀ i, halfOpen (energyEdges nBinE.toNat) j
          ((rows.map Prod.fst).getD i Num.nan)
          = halfOpen (energyEdges nBinE.toNat) j ((rows'.map Prod.fst).getD i Num.nan) := by
        intro j hj i
        have hi := congrArg (·[i]?) (hE j hj).2
        simp only [List.getElem?_map] at hi
        rw [List.getD_eq_getElem?_getD, List.getD_eq_getElem?_getD, List.getElem?_map,
          List.getElem?_map]
        cases hr : rows[i]? with
        | some r =>
          obtain ⟨hil, -⟩ := List.getElem?_eq_some_iff.1 hr
          rw [hr, List.getElem?_eq_getElem (by omega : i < rows'.length)] at hi
          rw [List.getElem?_eq_getElem (by omega : i < rows'.length)]
          simpa using hi
        | none =>
          have hil := List.getElem?_eq_none_iff.1 hr
          rw [List.getElem?_eq_none (by omega : rows'.length ≤ i)]
          simp only [Option.map_none, Option.getD_none]
          unfold halfOpen
          rw [le_nan_false, le_nan_false]
          rfl
      have hh : ∀ l : List Nat, energyHist (energyEdges nBinE.toNat : List F) nBinE.toNat
          (l.map fun i => (rows.map Prod.fst).getD i Num.nan)
          = energyHist (energyEdges nBinE.toNat : List G) nBinE.toNat
            (l.map fun i => (rows'.map Prod.fst).getD i Num.nan) := by
        intro l
        unfold energyHist
        apply List.map_congr_left
        intro j hj
        rw [List.mem_range] at hj
        rw [List.filter_map, List.filter_map, List.length_map, List.length_map]
        congr 1
        apply List.filter_congr
        intro i _
        exact t1 j hj i
      have hloop : ∀ (js : List Nat), (∀ j ∈ js, j < nBinE.toNat) → ∀ (hc hr : List Nat)
          (aux : List Nat) (s : σ),
          energyLoop rng (energyEdges nBinE.toNat : List F)
            (fun i => (rows.map Prod.fst).getD i Num.nan) hc hr cor js aux s
          = energyLoop rng (energyEdges nBinE.toNat : List G)
            (fun i => (rows'.map Prod.fst).getD i Num.nan) hc hr cor js aux s := by
        intro js
        induction js with
        | nil => intros; rfl
        | cons j js ih =>
          intro hjs hc hr aux s
          have hm : (cor.filter fun i => halfOpen (energyEdges nBinE.toNat) j
              ((rows.map Prod.fst).getD i Num.nan))
              = cor.filter fun i => halfOpen (energyEdges nBinE.toNat) j
              ((rows'.map Prod.fst).getD i Num.nan) :=
            List.filter_congr fun i _ => t2 j (hjs j (by simp)) i
          have ih' := ih fun k hk => hjs k (by simp [hk])
          simp only [energyLoop]
          unfold halfOpen edge at hm
          rw [hm]
          simp only [ih']
      show energyLoop rng (energyEdges nBinE.toNat) _ (energyHist (energyEdges nBinE.toNat) _ _)
        (energyHist (energyEdges nBinE.toNat) _ _) _ _ _ _
        = energyLoop rng (energyEdges nBinE.toNat) _ (energyHist (energyEdges nBinE.toNat) _ _)
        (energyHist (energyEdges nBinE.toNat) _ _) _ _ _ _
      rw [hh, hh]
      exact hloop _ (fun j hj => List.mem_range.1 hj) _ _ _ _
  · intro k hk
    rw [List.map_map, List.map_map, List.length_map, List.length_map, hlen]
    congr 2
    exact h k hk

/-! ### the edges in double precision -/

section double
open Flt

/-- every double is its own nearest double -/
theorem srnd_of_toExt {fmt : Fmt} {a : Flt fmt} {v : ℚ} (h : toExt a = .fin v) : fmt.srnd v = v := by
  obtain ⟨s, m, rfl, rfl⟩ := toExt_fin h
  cases s with
  | false =>
    show fmt.srnd m.val = m.val
    rw [fmt.srnd_of_nonneg m.nonneg, m.grid]
  | true =>
    show fmt.srnd (-m.val) = -m.val
    rw [fmt.srnd_neg, fmt.srnd_of_nonneg m.nonneg, m.grid]

/-- a multiple of a quarter up to 2^50 is a double -/
theorem srnd_quarter {n : ℤ} (h : n.natAbs < 2 ^ 52) :
    Fmt.binary64.srnd ((n : ℚ) / 4) = (n : ℚ) / 4 := by
  have key : ∀ k : ℕ, k < 2 ^ 52 → Fmt.binary64.roundPos ((k : ℚ) / 4) = (k : ℚ) / 4 := by
    intro k hk
    rcases Nat.eq_zero_or_pos k with rfl | hpos
    · simpa using Fmt.binary64.roundPos_zero
    have hpos' : (0 : ℚ) < (k : ℚ) / 4 := by
      have : (0 : ℚ) < k := by exact_mod_cast hpos
      positivity
    have hlog : Int.log 2 ((k : ℚ) / 4) < 50 := by
      rw [← Int.lt_zpow_iff_log_lt (by norm_num) hpos']
      have : (k : ℚ) < 2 ^ 52 := by exact_mod_cast hk
      rw [div_lt_iff₀ (by norm_num)]
      refine this.trans_eq ?_
      norm_num
    have hu : Fmt.binary64.uexp ((k : ℚ) / 4) ≤ -2 := by
      have e1 : ((Fmt.binary64.prec : ℕ) : ℤ) = 53 := rfl
      have e2 : Fmt.binary64.emin = -1074 := rfl
      unfold Fmt.uexp
      rw [e1, e2]
      omega
    refine Fmt.binary64.roundPos_of_multiple
      (n := k * 2 ^ (-2 - Fmt.binary64.uexp ((k : ℚ) / 4)).toNat) ?_
    rw [Fmt.binary64.ulp_eq ((k : ℚ) / 4)]
    push_cast
    rw [mul_assoc, ← zpow_natCast, Int.toNat_of_nonneg (by omega), ← zpow_add₀ (by norm_num)]
    rw [sub_add_cancel]
    norm_num
    ring
  rcases le_total 0 n with h0 | h0
  · have := key n.natAbs h
    have e : ((n.natAbs : ℕ) : ℚ) = n := by
      have : ((n.natAbs : ℕ) : ℤ) = n := Int.natAbs_of_nonneg h0
      rw [← Int.cast_natCast, this]
    rw [e] at this
    have hn : (0 : ℚ) ≤ (n : ℚ) / 4 := by
      have : (0 : ℚ) ≤ n := by exact_mod_cast h0
      positivity
    rw [Fmt.binary64.srnd_of_nonneg hn, this]
  · have := key n.natAbs h
    have e : ((n.natAbs : ℕ) : ℚ) = -n := by
      have : ((n.natAbs : ℕ) : ℤ) = -n := by omega
      rw [← Int.cast_natCast, this, Int.cast_neg]
    rw [e] at this
    have hn : (0 : ℚ) ≤ -(n : ℚ) / 4 := by
      have : (n : ℚ) ≤ 0 := by exact_mod_cast h0
      apply div_nonneg <;> linarith
    have e2 : (n : ℚ) / 4 = -(-(n : ℚ) / 4) := by ring
    rw [e2, Fmt.binary64.srnd_neg, Fmt.binary64.srnd_of_nonneg hn, this]

/-- edge `i` of `2m` bins between -1 and 1 -/
def edgeQ (m i : Nat) : ℚ := (i : ℚ) / m - 1

theorem edgeQ_lt {m : Nat} (hm : 0 < m) {i j : Nat} (h : i < j) : edgeQ m i + 1 / m ≤ edgeQ m j := by
  have hm' : (0 : ℚ) < m := by exact_mod_cast hm
  have : (i : ℚ) + 1 ≤ j := by exact_mod_cast h
  unfold edgeQ
  have := div_le_div_of_nonneg_right this hm'.le
  rw [add_div] at this
  linarith

/-- if `m` divides `10^d`, the edges computed are the doubles nearest to the edges -/
theorem edges64 {m d : Nat} (hm : 0 < m) (hmd : m ∣ 10 ^ d) (hd : d ≤ 14) {i : Nat}
    (hi : i ≤ 2 * m) :
    toExt (edge (roundedEdges (2 * m : ℤ) (d : ℤ) : List Float64) i)
      = .fin (Fmt.binary64.srnd (edgeQ m i)) := by
  have hcast : (2 * m : ℤ) = ((2 * m : ℕ) : ℤ) := by push_cast; rfl
  have hm' : (0 : ℚ) < m := by exact_mod_cast hm
  have hk := digits64_exact (d := d) (by omega)
  have hle10 : 10 ^ d ≤ 10 ^ 14 := Nat.pow_le_pow_right (by norm_num) hd
  have hm14 : m ≤ 10 ^ 14 := (Nat.le_of_dvd (by positivity) hmd).trans hle10
  have h53 : 2 * m ≤ 2 ^ 53 := by
    have : (2 : ℕ) * 10 ^ 14 ≤ 2 ^ 53 := by norm_num
    omega
  rw [hcast]
  rcases lt_or_eq_of_le hi with hlt | heq
  · have hv := (roundedEdges_val wide64 hk (n := 2 * m) (by omega) h53 hlt).1
    have herr := linVal_err wide64 (n := 2 * m) (by omega) h53 hlt
    rw [hv]
    obtain ⟨t, ht⟩ := hmd
    -- ten to the digits times the edge is an integer
    set z : ℤ := ((i : ℤ) - m) * t with hz
    have hP : (0 : ℚ) < ((10 ^ d : ℕ) : ℚ) := by positivity
    have hx : 2 * (i : ℚ) / ((2 * m : ℕ) : ℚ) - 1 = edgeQ m i := by
      unfold edgeQ
      push_cast
      field_simp
    have hzP : edgeQ m i * ((10 ^ d : ℕ) : ℚ) = z := by
      rw [hz, ht]
      unfold edgeQ
      push_cast
      field_simp
    rw [hx] at herr
    set v := linVal Fmt.binary64 2 (2 * m) i with hvdef
    have hu : (7 / 2 : ℚ) * 2 ^ (-((Fmt.binary64.prec : ℕ) : ℤ)) * 10 ^ 14 ≤ 1 / 4 := by
      decide +kernel
    have hu0 : (0 : ℚ) ≤ 7 / 2 * 2 ^ (-((Fmt.binary64.prec : ℕ) : ℤ)) := by decide +kernel
    have hP14 : ((10 ^ d : ℕ) : ℚ) ≤ 10 ^ 14 := by exact_mod_cast hle10
    have h1 : |v * ((10 ^ d : ℕ) : ℚ) - z| ≤ 1 / 4 := by
      rw [← hzP, ← sub_mul, abs_mul, abs_of_pos hP]
      calc |v - edgeQ m i| * ((10 ^ d : ℕ) : ℚ)
          ≤ 7 / 2 * 2 ^ (-((Fmt.binary64.prec : ℕ) : ℤ)) * ((10 ^ d : ℕ) : ℚ) :=
            mul_le_mul_of_nonneg_right herr hP.le
        _ ≤ 7 / 2 * 2 ^ (-((Fmt.binary64.prec : ℕ) : ℤ)) * 10 ^ 14 :=
            mul_le_mul_of_nonneg_left hP14 hu0
        _ ≤ 1 / 4 := hu
    have hzabs : z.natAbs ≤ 10 ^ 14 := by
      have : z.natAbs = ((i : ℤ) - m).natAbs * t := by
        rw [hz, Int.natAbs_mul, Int.natAbs_natCast]
      rw [this]
      calc ((i : ℤ) - m).natAbs * t ≤ m * t := Nat.mul_le_mul_right _ (by omega)
        _ ≤ 10 ^ 14 := by rw [← ht]; exact hle10
    -- integers and integers plus or minus a quarter are doubles
    have hquarter : ∀ n : ℤ, n.natAbs ≤ 4 * 10 ^ 14 + 1 →
        Fmt.binary64.srnd ((n : ℚ) / 4) = (n : ℚ) / 4 := fun n hn => srnd_quarter (by
      have : 4 * 10 ^ 14 + 1 < 2 ^ 52 := by norm_num
      omega)
    have hint : Fmt.binary64.srnd (z : ℚ) = z := by
      have := hquarter (4 * z) (by rw [Int.natAbs_mul]; norm_num; omega)
      push_cast at this
      rwa [mul_div_cancel_left₀ _ (by norm_num)] at this
    have h2 : |Fmt.binary64.srnd (v * ((10 ^ d : ℕ) : ℚ)) - z| ≤ 1 / 4 := by
      rw [abs_le] at h1 ⊢
      have hlo := hquarter (4 * z - 1) (by omega)
      have hhi := hquarter (4 * z + 1) (by omega)
      push_cast at hlo hhi
      constructor
      · have := Fmt.binary64.le_srnd (x := v * ((10 ^ d : ℕ) : ℚ)) (y := (4 * (z : ℚ) - 1) / 4)
          (by linarith) hlo
        linarith
      · have := Fmt.binary64.srnd_le (x := v * ((10 ^ d : ℕ) : ℚ)) (y := (4 * (z : ℚ) + 1) / 4)
          (by linarith) hhi
        linarith
    have h3 : Ext.roundHalfEven (Fmt.binary64.srnd (v * ((10 ^ d : ℕ) : ℚ))) = z := by
      have h4 := Fmt.roundHalfEven_err (Fmt.binary64.srnd (v * ((10 ^ d : ℕ) : ℚ)))
      have h5 : |((Ext.roundHalfEven (Fmt.binary64.srnd (v * ((10 ^ d : ℕ) : ℚ))) - z : ℤ) : ℚ)| < 1 := by
        rw [Int.cast_sub]
        rw [abs_le] at h2 h4
        rw [abs_lt]
        constructor <;> linarith
      rw [← Int.cast_abs] at h5
      have h6 : |Ext.roundHalfEven (Fmt.binary64.srnd (v * ((10 ^ d : ℕ) : ℚ))) - z| < 1 := by
        exact_mod_cast h5
      rw [Int.abs_lt_one_iff] at h6
      omega
    unfold decVal
    rw [h3, hint, ← hzP, mul_div_cancel_right₀ _ hP.ne']
  · subst heq
    rw [roundedEdges_last hk]
    have : edgeQ m (2 * m) = 1 := by unfold edgeQ; push_cast; field_simp; norm_num
    rw [this, Fmt.srnd_one]

/-! ### comparing a double with a computed edge and a number with an edge -/

/-- `x` compares with `a` as `y` with `b` -/
structure Agree (a x b y : Ext ℚ) : Prop where
  le : Ext.le a x = Ext.le b y
  ge : Ext.le x a = Ext.le y b
  lt : Ext.lt x a = Ext.lt y b

theorem Agree.refl (a x : Ext ℚ) : Agree a x a x := ⟨rfl, rfl, rfl⟩

theorem agree_fin {a x b y : ℚ} (h1 : a ≤ x ↔ b ≤ y) (h2 : x ≤ a ↔ y ≤ b) :
    Agree (.fin a) (.fin x) (.fin b) (.fin y) := by
  have a1 : Ext.le (.fin a) (.fin x) = Ext.le (.fin b) (.fin y) := decide_eq_decide.2 h1
  have a2 : Ext.le (.fin x) (.fin a) = Ext.le (.fin y) (.fin b) := decide_eq_decide.2 h2
  refine ⟨a1, a2, ?_⟩
  unfold Ext.lt
  rw [a1, a2]

/-- the number of a double: the double nearest to an edge stands for the edge, every other one for
itself -/
def Reads (m : Nat) (e : Float64) (w : Ext ℚ) : Prop :=
  (w = toExt e ∧ ∀ i ≤ 2 * m, toExt e ≠ .fin (Fmt.binary64.srnd (edgeQ m i))) ∨
  ∃ i ≤ 2 * m, w = .fin (edgeQ m i) ∧ toExt e = .fin (Fmt.binary64.srnd (edgeQ m i))

theorem srnd_edgeQ_lt {m : Nat} (hm : 0 < m) (hm14 : m ≤ 10 ^ 14) {i j : Nat} (h : i < j)
    (hj : j ≤ 2 * m) : Fmt.binary64.srnd (edgeQ m i) < Fmt.binary64.srnd (edgeQ m j) := by
  have hm' : (0 : ℚ) < m := by exact_mod_cast hm
  have hs := edgeQ_lt hm h
  have hb : ∀ k ≤ 2 * m, |edgeQ m k| ≤ 1 := by
    intro k hk
    have h2 : (k : ℚ) ≤ 2 * m := by exact_mod_cast hk
    have h3 : (k : ℚ) / m ≤ 2 := by rw [div_le_iff₀ hm']; exact h2
    have h4 : (0 : ℚ) ≤ (k : ℚ) / m := by positivity
    unfold edgeQ
    rw [abs_le]
    constructor <;> linarith
  have hu : (2 : ℚ) ^ (-((Fmt.binary64.prec : ℕ) : ℤ)) + 2 ^ Fmt.binary64.emin < 1 / 3 / 10 ^ 14 := by
    decide +kernel
  have hu0 : (0 : ℚ) < 2 ^ (-((Fmt.binary64.prec : ℕ) : ℤ)) := zpow_pos (by norm_num) _
  have hg : (1 : ℚ) / 10 ^ 14 ≤ 1 / m := by
    apply one_div_le_one_div_of_le hm'
    exact_mod_cast hm14
  have he : ∀ k ≤ 2 * m, |Fmt.binary64.srnd (edgeQ m k) - edgeQ m k| ≤ 1 / 3 / 10 ^ 14 := by
    intro k hk
    refine (Fmt.srnd_err _ _).trans (le_trans ?_ hu.le)
    have := mul_le_mul_of_nonneg_right (hb k hk) hu0.le
    linarith
  have h1 := abs_le.1 (he i (by omega))
  have h2 := abs_le.1 (he j hj)
  have : (1 : ℚ) / 3 / 10 ^ 14 = 1 / 10 ^ 14 / 3 := by norm_num
  rw [this] at h1 h2
  have h0 : (0 : ℚ) < 1 / 10 ^ 14 := by norm_num
  linarith [h1.2, h2.1]

theorem agree_of_reads {m : Nat} (hm : 0 < m) (hm14 : m ≤ 10 ^ 14) {e : Float64} {w : Ext ℚ}
    (h : Reads m e w) {i : Nat} (hi : i ≤ 2 * m) :
    Agree (.fin (Fmt.binary64.srnd (edgeQ m i))) (toExt e) (.fin (edgeQ m i)) w := by
  rcases h with ⟨rfl, hne⟩ | ⟨j, hj, rfl, he⟩
  · cases hv : toExt e with
    | fin v =>
      have hr := srnd_of_toExt hv
      have hn := hne i hi
      rw [hv] at hn
      have hn' : v ≠ Fmt.binary64.srnd (edgeQ m i) := fun h => hn (by rw [h])
      have hq : v ≠ edgeQ m i := by
        intro h
        apply hn'
        rw [← h, hr]
      apply agree_fin
      · constructor
        · intro h
          by_contra hc
          have := Fmt.binary64.le_srnd (not_le.1 hc).le hr
          exact hn' (le_antisymm this h)
        · exact fun h => Fmt.binary64.srnd_le h hr
      · constructor
        · intro h
          by_contra hc
          have := Fmt.binary64.srnd_le (not_le.1 hc).le hr
          exact hn' (le_antisymm h this)
        · exact fun h => Fmt.binary64.le_srnd h hr
    | _ => exact ⟨rfl, rfl, rfl⟩
  · rw [he]
    have mono : ∀ a ≤ 2 * m, ∀ b ≤ 2 * m,
        (Fmt.binary64.srnd (edgeQ m a) ≤ Fmt.binary64.srnd (edgeQ m b) ↔ edgeQ m a ≤ edgeQ m b) := by
      intro a ha b hb
      rcases lt_trichotomy a b with h | rfl | h
      · have h1 := srnd_edgeQ_lt hm hm14 h hb
        have h2 := edgeQ_lt hm h
        have h3 : (0 : ℚ) < 1 / m := by
          have : (0 : ℚ) < m := by exact_mod_cast hm
          positivity
        exact ⟨fun _ => by linarith, fun _ => h1.le⟩
      · simp
      · have h1 := srnd_edgeQ_lt hm hm14 h ha
        have h2 := edgeQ_lt hm h
        have h3 : (0 : ℚ) < 1 / m := by
          have : (0 : ℚ) < m := by exact_mod_cast hm
          positivity
        exact ⟨fun h => absurd h (not_le.2 h1), fun h => by linarith⟩
    exact agree_fin (mono i hi j hj) (mono j hj i hi)

/-- the edges of exact arithmetic -/
theorem edges_exact {m d : Nat} (hm : 0 < m) (hmd : m ∣ 10 ^ d) {i : Nat} (hi : i ≤ 2 * m) :
    edge (roundedEdges (2 * m : ℤ) (d : ℤ) : List (Ext ℚ)) i = .fin (edgeQ m i) := by
  have hm' : (0 : ℚ) < m := by exact_mod_cast hm
  have hto : (2 * m : ℤ).toNat = 2 * m := by omega
  rw [roundedEdges_edge _ _ (by omega) i (by omega), hto]
  congr 1
  obtain ⟨t, ht⟩ := hmd
  have hx : edgeK (K := ℚ) (2 * m) i = edgeQ m i := by
    unfold edgeK edgeQ
    push_cast
    field_simp
    ring
  have hP : (10 : ℚ) ^ (d : ℤ) = (m : ℚ) * t := by
    rw [zpow_natCast]
    exact_mod_cast ht
  have hP0 : (0 : ℚ) < (m : ℚ) * t := by rw [← hP]; exact zpow_pos (by norm_num) _
  have hz : edgeQ m i * ((m : ℚ) * t) = ((((i : ℤ) - m) * t : ℤ) : ℚ) := by
    unfold edgeQ
    push_cast
    field_simp
  unfold roundK
  rw [hx, hP, hz, Fmt.roundHalfEven_int, ← hz, mul_div_cancel_right₀ _ hP0.ne']

theorem inBin_of_agree {edges : List Float64} {edges' : List (Ext ℚ)} {n k : Nat} {e : Float64}
    {w : Ext ℚ} (h1 : Agree (toExt (edge edges k)) (toExt e) (edge edges' k) w)
    (h2 : Agree (toExt (edge edges (k + 1))) (toExt e) (edge edges' (k + 1)) w) :
    inBinI edges n k e = inBinI edges' n k w ∧ halfOpen edges k e = halfOpen edges' k w := by
  have a1 : (edge edges k <=. e) = (edge edges' k <=. w) := h1.le
  have a2 : (e <=. edge edges (k + 1)) = (w <=. edge edges' (k + 1)) := h2.ge
  have a3 : (e <. edge edges (k + 1)) = (w <. edge edges' (k + 1)) := h2.lt
  constructor
  · unfold inBinI
    unfold edge at a1 a2 a3
    rw [a1, a2, a3]
  · unfold halfOpen
    rw [a1, a3]

/-- C102: on doubles `JHistogram.split` gives the labels of exact arithmetic on the numbers the
doubles stand for, for `2m` bins with `m` dividing `10^digits`, up to 14 digits. -/
theorem C102_double (junk : Nat → Int) (rng : Rng σ) {m d : Nat} (hm : 0 < m) (hmd : m ∣ 10 ^ d)
    (hd : d ≤ 14) (eps : List Float64) (w : List (Ext ℚ)) (h : List.Forall₂ (Reads m) eps w)
    (s : σ) :
    jHistogramSplit junk rng (2 * m : ℤ) d (eps.map fun e => [e]) s
      = jHistogramSplit junk rng (2 * m : ℤ) d (w.map fun e => [e]) s := by
  have hle : m ≤ 10 ^ d := Nat.le_of_dvd (by positivity) hmd
  have hm14 : m ≤ 10 ^ 14 := hle.trans (Nat.pow_le_pow_right (by norm_num) hd)
  have hto : (2 * m : ℤ).toNat = 2 * m := by omega
  refine C102_jhistogram junk rng (histogram64 hm hle (by omega)).1
    (C40_exact_even m hm d ?_) eps w ?_ s
  · have : (m : ℚ) ≤ (10 : ℚ) ^ (d : ℤ) := by rw [zpow_natCast]; exact_mod_cast hle
    have h0 : (0 : ℚ) < (10 : ℚ) ^ (d : ℤ) := zpow_pos (by norm_num) _
    linarith
  · intro k hk
    rw [hto] at hk ⊢
    induction h with
    | nil => rfl
    | cons hr _ ih =>
      rw [List.map_cons, List.map_cons, ih]
      congr 1
      refine (inBin_of_agree ?_ ?_).1
      · rw [edges64 hm hmd hd hk.le, edges_exact hm hmd hk.le]
        exact agree_of_reads hm hm14 hr hk.le
      · rw [edges64 hm hmd hd hk, edges_exact hm hmd hk]
        exact agree_of_reads hm hm14 hr hk

/-- the distance of an energy edge from the exact value -/
theorem linVal_err_one {fmt : Fmt} (hw : Wide fmt) {n : Nat} (hn : 0 < n) (h : n ≤ 2 ^ fmt.prec)
    {i : Nat} (hi : i < n) :
    |linVal fmt 1 n i - ((i : ℚ) / n - 1)| ≤ 2 * 2 ^ (-(fmt.prec : ℤ)) := by
  have hn' : (0 : ℚ) < n := by exact_mod_cast hn
  have hu : (0 : ℚ) < 2 ^ (-(fmt.prec : ℤ)) := zpow_pos (by norm_num) _
  set u : ℚ := 2 ^ (-(fmt.prec : ℤ)) with hudef
  have hsm := hw.small
  have h1 := step_err hw (le_refl (1 : ℚ)) hn h
  have hle := mul_step_le hw (le_refl (1 : ℚ)) hn h hi
  have hS0 := step_nonneg (fmt := fmt) (le_refl (1 : ℚ)) n
  set S := fmt.srnd (1 / n) with hS
  have hi0 : (0 : ℚ) ≤ i := by positivity
  have hin : (i : ℚ) ≤ n := by exact_mod_cast hi.le
  have a1 : |i * S - i / n| ≤ u := by
    have : i * S - i / n = i * (S - 1 / n) := by ring
    rw [this, abs_mul, abs_of_nonneg hi0]
    calc (i : ℚ) * |S - 1 / n| ≤ i * (1 / n * u) := mul_le_mul_of_nonneg_left h1 hi0
      _ = (i / n) * u := by ring
      _ ≤ 1 * u := by
        apply mul_le_mul_of_nonneg_right _ (by positivity)
        rw [div_le_one hn']
        exact hin
      _ = u := one_mul _
  have hiS : 0 ≤ i * S := by positivity
  have a2 : |fmt.srnd (i * S) - i * S| ≤ u / 2 := by
    have := fmt.srnd_abs_err (x := i * S) (e := 0) (by rw [abs_of_nonneg hiS, zpow_zero]; exact hle)
      (by omega)
    rw [sub_eq_add_neg (0 : ℤ), zero_add] at this
    linarith
  have hp0 : 0 ≤ fmt.srnd (i * S) := by
    rw [fmt.srnd_of_nonneg hiS]
    exact fmt.roundPos_nonneg hiS
  have hp1 : fmt.srnd (i * S) ≤ 1 := fmt.srnd_le hle fmt.srnd_one
  have a3 : |fmt.srnd (fmt.srnd (i * S) - 1) - (fmt.srnd (i * S) - 1)| ≤ u / 2 := by
    have := fmt.srnd_abs_err (x := fmt.srnd (i * S) - 1) (e := 0)
      (by rw [abs_le, zpow_zero]; constructor <;> linarith) (by omega)
    rw [sub_eq_add_neg (0 : ℤ), zero_add] at this
    linarith
  unfold linVal
  rw [abs_le] at a1 a2 a3 ⊢
  constructor <;> linarith

/-- a number is away from the inner energy edges by more than two to the minus 52 -/
def ClearEnergy (nE : Nat) (x : Ext ℚ) : Prop :=
  ∀ v, x = .fin v → ∀ j, 0 < j → j < nE → 1 / 2 ^ 52 < |v - ((j : ℚ) / nE - 1)|

theorem agree_energy {nE : Nat} (hE : 0 < nE) (h53 : nE ≤ 2 ^ 53) {x : Ext ℚ}
    (hx : ClearEnergy nE x) {j : Nat} (hj : j ≤ nE) :
    Agree (toExt (edge (energyEdges nE : List Float64) j)) x
      (edge (energyEdges nE : List (Ext ℚ)) j) x := by
  have hE' : (0 : ℚ) < nE := by exact_mod_cast hE
  rw [energyEdges_get nE hE j hj]
  rcases lt_or_eq_of_le hj with hlt | rfl
  · have hv := (linspace_val wide64 0 (Or.inl rfl) hE h53 hlt).1
    rw [zero_add] at hv
    have hv' : toExt (edge (energyEdges nE : List Float64) j) = .fin (linVal Fmt.binary64 1 nE j) := hv
    rw [hv']
    rcases Nat.eq_zero_or_pos j with rfl | h0
    · rw [linVal_zero]
      have : (-1 : ℚ) + ((0 : ℕ) : ℚ) / nE = -1 := by simp
      rw [this]
      exact Agree.refl _ _
    · cases x with
      | fin v =>
        have hc := hx v rfl j h0 hlt
        have he := linVal_err_one wide64 hE h53 hlt
        have hu : (2 : ℚ) * 2 ^ (-((Fmt.binary64.prec : ℕ) : ℤ)) = 1 / 2 ^ 52 := by decide +kernel
        rw [hu, abs_le] at he
        rw [show (-1 : ℚ) + (j : ℚ) / nE = (j : ℚ) / nE - 1 by ring]
        rw [lt_abs] at hc
        apply agree_fin
        · constructor <;> intro h <;> rcases hc with hc | hc <;> linarith
        · constructor <;> intro h <;> rcases hc with hc | hc <;> linarith
      | _ => exact ⟨rfl, rfl, rfl⟩
  · have hl : edge (energyEdges j : List Float64) j = Num.ofRat 0 := linspace_last 0 j
    rw [hl]
    have : toExt (Num.ofRat 0 : Float64) = .fin 0 := toExt_zero
    rw [this]
    have : (-1 : ℚ) + (j : ℚ) / j = 0 := by rw [div_self hE'.ne']; norm_num
    rw [this]
    exact Agree.refl _ _

/-- C102: the same for `JEHistogram.split`, if the energies keep two to the minus 52 away from the
inner energy edges. -/
theorem C102_double_energy (junk : Nat → Int) (rng : Rng σ) {m d nE : Nat} (hm : 0 < m)
    (hmd : m ∣ 10 ^ d) (hd : d ≤ 14) (hE : nE ≤ 2 ^ 53) (rows : List (Float64 × Float64))
    (w : List (Ext ℚ × Ext ℚ))
    (h : List.Forall₂ (fun r x => x.1 = toExt r.1 ∧ ClearEnergy nE x.1 ∧ Reads m r.2 x.2) rows w)
    (s : σ) :
    jeHistogramSplit junk rng (2 * m : ℤ) d nE (rows.map fun r => [r.1, r.2]) s
      = jeHistogramSplit junk rng (2 * m : ℤ) d nE (w.map fun r => [r.1, r.2]) s := by
  have hle : m ≤ 10 ^ d := Nat.le_of_dvd (by positivity) hmd
  have hm14 : m ≤ 10 ^ 14 := hle.trans (Nat.pow_le_pow_right (by norm_num) hd)
  have hto : (2 * m : ℤ).toNat = 2 * m := by omega
  have hto' : (nE : ℤ).toNat = nE := by omega
  refine C102_jehistogram junk rng nE (histogram64 hm hle (by omega)).1
    (C40_exact_even m hm d ?_) rows w ?_ ?_ s
  · have : (m : ℚ) ≤ (10 : ℚ) ^ (d : ℤ) := by rw [zpow_natCast]; exact_mod_cast hle
    have h0 : (0 : ℚ) < (10 : ℚ) ^ (d : ℤ) := zpow_pos (by norm_num) _
    linarith
  · intro k hk
    rw [hto] at hk ⊢
    induction h with
    | nil => rfl
    | cons hr _ ih =>
      rw [List.map_cons, List.map_cons, ih]
      congr 1
      refine (inBin_of_agree ?_ ?_).1
      · rw [edges64 hm hmd hd hk.le, edges_exact hm hmd hk.le]
        exact agree_of_reads hm hm14 hr.2.2 hk.le
      · rw [edges64 hm hmd hd hk, edges_exact hm hmd hk]
        exact agree_of_reads hm hm14 hr.2.2 hk
  · intro j hj
    rw [hto'] at hj ⊢
    have key : ∀ r : Float64 × Float64, ∀ x : Ext ℚ × Ext ℚ, x.1 = toExt r.1 → ClearEnergy nE x.1 →
        inBinI (energyEdges nE) nE j r.1 = inBinI (energyEdges nE) nE j x.1 ∧
        halfOpen (energyEdges nE) j r.1 = halfOpen (energyEdges nE) j x.1 := by
      intro r x h1 h2
      rw [h1] at h2 ⊢
      exact inBin_of_agree (agree_energy (by omega) hE h2 hj.le) (agree_energy (by omega) hE h2 hj)
    induction h with
    | nil => exact ⟨rfl, rfl⟩
    | cons hr _ ih =>
      simp only [List.map_cons, ih.1, ih.2]
      rw [(key _ _ hr.1 hr.2.1).1, (key _ _ hr.1 hr.2.1).2]
      exact ⟨rfl, rfl⟩

/-- C102: if no circularity is the double nearest to an edge without being the edge, the labels are
those of exact arithmetic on the same values. -/
theorem C102_same (junk : Nat → Int) (rng : Rng σ) {m d : Nat} (hm : 0 < m)
    (hmd : m ∣ 10 ^ d) (hd : d ≤ 14) (eps : List Float64)
    (h : ∀ e ∈ eps, ∀ i ≤ 2 * m, toExt e = .fin (Fmt.binary64.srnd ((i : ℚ) / m - 1)) →
      Fmt.binary64.srnd ((i : ℚ) / m - 1) = (i : ℚ) / m - 1) (s : σ) :
    jHistogramSplit junk rng (2 * m : ℤ) d (eps.map fun e => [e]) s
      = jHistogramSplit junk rng (2 * m : ℤ) d (eps.map fun e => [toExt e]) s := by
  have := C102_double junk rng hm hmd hd eps (eps.map toExt) (by
    rw [List.forall₂_map_right_iff, List.forall₂_same]
    intro e he
    by_cases hx : ∃ i ≤ 2 * m, toExt e = .fin (Fmt.binary64.srnd (edgeQ m i))
    · obtain ⟨i, hi, hx⟩ := hx
      refine Or.inr ⟨i, hi, ?_, hx⟩
      rw [hx]
      congr 1
      exact h e he i hi hx
    · refine Or.inl ⟨rfl, fun i hi hc => hx ⟨i, hi, hc⟩⟩) s
  rw [this, List.map_map]
  rfl

/-- C102 (negation without the condition): the double nearest to 0.06 is below 0.06, so exact
arithmetic on its value puts it into the bin of 0.05, whose mirror bin holds the star at -0.05, and
makes it spheroid. Double precision makes it disk. -/
theorem C102_counterexample :
    ∃ eps : List Float64,
      (jHistogramSplit (fun _ => 99) firstRng 100 2 (eps.map fun e => [e]) ()).toOption.map Prod.fst
        = some [1, 0] ∧
      (jHistogramSplit (fun _ => 99) firstRng 100 2 (eps.map fun e => [toExt e]) ()).toOption.map
        Prod.fst = some [0, 0] :=
  ⟨[Num.ofRat (6 / 100), Num.ofRat (-5 / 100)], by decide +kernel, by decide +kernel⟩

/-- the hypotheses of `C102_double` hold for the stars of the counterexample, with 0.06 for the first:
these are the labels of double precision -/
example : List.Forall₂ (Reads 50) [Num.ofRat (6 / 100), Num.ofRat (1 / 3)]
    [.fin (6 / 100), toExt (Num.ofRat (1 / 3) : Float64)] := by
  refine .cons (Or.inr ⟨53, by norm_num, by unfold edgeQ; norm_num, by decide +kernel⟩)
    (.cons (Or.inl ⟨rfl, by decide +kernel⟩) .nil)

example : (jHistogramSplit (fun _ => 99) firstRng 100 2
    (([6 / 100, -5 / 100] : List ℚ).map fun e => [(.fin e : Ext ℚ)]) ()).toOption.map Prod.fst
    = some [1, 0] := by decide +kernel

/-- energies away from the inner edges -/
example : ClearEnergy 20 (.fin (-1 / 3)) ∧ ClearEnergy 20 (.fin 0) ∧ ClearEnergy 20 (.fin (-1)) := by
  have key : ∀ v : ℚ, (∀ j : ℕ, j < 20 → 0 < j → 1 / 2 ^ 52 < |v - ((j : ℚ) / (20 : ℕ) - 1)|) →
      ClearEnergy 20 (.fin v) := by
    intro v h w hw j h0 h1
    obtain rfl : v = w := by injection hw
    exact h j h1 h0
  exact ⟨key _ (by decide +kernel), key _ (by decide +kernel), key _ (by decide +kernel)⟩

end double

end GChop
