import Verif.Props.HistogramTransfer
import Verif.Props.HistogramGalaxy
import Verif.Props.DoubleThreshold

/-!
# C103: the histogram models on galaxies in double precision

`decompose` in binary64, from the bodies of a galaxy to the labels, against the exact split of the
exact circularities `(Jz / J) / L`, where `J` is the largest |Jz| and `L` the value of the polygon of
circular orbits (galaxychop/utils/_circ.py, galaxychop/models/_histogram.py).
-/

set_option linter.unusedSectionVars false

namespace GChop

section rows
variable {F : Type} [Num F] [NumOrd F]

/-- the stars that are split: those with finite attributes -/
def splitStars (b : BGalaxy F) (j : JCirc F) (attrs : List String) : List Nat :=
  (List.range b.stars.length).filter (rowFinite j attrs)

/-- the rows given to `split`, and where its labels go -/
theorem decompose_rows (env : CircEnv F) (cbins : F × F) (b : BGalaxy F) (j : JCirc F)
    (hj : jcirc env (Galaxy.ofBodies b) cbins.1 cbins.2 = .ok j) (attrs : List String)
    (hne : attrs ≠ []) (hc : ∀ a ∈ attrs, a ∈ circularityAttributes)
    (hz : "normalized_star_Jz" ∉ attrs)
    (split : List (List F) → List (Pd.Cell F) → Py (List Int × Option (Mat F)))
    (labels : List Int)
    (hs : split ((splitStars b j attrs).map (starRow j attrs))
      ((splitStars b j attrs).map fun _ => .int PType.stars.value) = .ok (labels, none))
    (hlen : labels.length = (splitStars b j attrs).length) :
    ∃ c, decompose env cbins ⟨attrs, starsRowsMask, split⟩ (Galaxy.ofBodies b) = .ok c ∧
      c.labels.length = b.stars.length + b.dm.length + b.gas.length ∧
      (∀ p i : Nat, (splitStars b j attrs)[p]? = some i → c.labels[i]? = some labels[p]?) ∧
      ∀ i < b.stars.length + b.dm.length + b.gas.length, i ∉ splitStars b j attrs →
        c.labels[i]? = some none := by
  have hal : CircAligned env cbins b attrs j := circAligned_of_ok hj hz
  have hnum : b.numbered.length = b.stars.length + b.dm.length + b.gas.length := by
    simp [BGalaxy.numbered]; rw [rows_none_count]; omega
  set q : Nat → Bool := fun i => decide (i < b.stars.length) && rowFinite j attrs i with hq
  have hvq : ∀ ri ∈ b.numbered, validStar j attrs ri = q ri.2 ∧
      (q ri.2 = true → (attrs.map fun a => (matCell j ri.1 ri.2 a).toNum) = starRow j attrs ri.2) := by
    intro ri hri
    obtain ⟨i, hi⟩ := List.mem_iff_getElem?.1 hri
    have hil : i < b.numbered.length := (List.getElem?_eq_some_iff.1 hi).1
    obtain ⟨ri', h1, h2, h3, h4⟩ := validStar_get b j attrs hc i (by omega)
    rw [hi] at h1
    injection h1 with h1
    subst h1
    subst h2
    refine ⟨h3, fun hqi => h4 ?_⟩
    rw [hq] at hqi
    simp only [Bool.and_eq_true, decide_eq_true_eq] at hqi
    exact hqi.1
  have hsnd : b.numbered.map Prod.snd = List.range (b.stars.length + b.dm.length + b.gas.length) := by
    unfold BGalaxy.numbered
    rw [List.zipIdx_map_snd, rows_none_count, List.range_eq_range']
    congr 1
    omega
  have hS : (List.range (b.stars.length + b.dm.length + b.gas.length)).filter q
      = splitStars b j attrs := by
    unfold splitStars
    rw [Nat.add_assoc, List.range_add, List.filter_append]
    have h1 : (List.range b.stars.length).filter q
        = (List.range b.stars.length).filter (rowFinite j attrs) := by
      apply List.filter_congr
      intro i hi
      rw [List.mem_range] at hi
      simp [hq, hi]
    have h2 : ((List.range (b.dm.length + b.gas.length)).map (b.stars.length + ·)).filter q = [] := by
      rw [List.filter_eq_nil_iff]
      intro i hi
      rw [List.mem_map] at hi
      obtain ⟨k, _, rfl⟩ := hi
      simp [hq]
    rw [h1, h2, List.append_nil]
  have hV : (b.numbered.filter (validStar j attrs)).map Prod.snd = splitStars b j attrs := by
    rw [← hS, ← hsnd, List.filter_map]
    congr 1
    apply List.filter_congr
    intro ri hri
    exact (hvq ri hri).1
  have hX : ((b.numbered.filter (validStar j attrs)).map fun ri =>
      attrs.map fun a => (matCell j ri.1 ri.2 a).toNum)
      = (splitStars b j attrs).map (starRow j attrs) := by
    rw [← hV, List.map_map]
    apply List.map_congr_left
    intro ri hri
    obtain ⟨h1, h2⟩ := List.mem_filter.1 hri
    obtain ⟨h3, h4⟩ := hvq ri h1
    exact h4 (h3 ▸ h2)
  have hy : ((b.numbered.filter (validStar j attrs)).map fun _ =>
      (Pd.Cell.int PType.stars.value : Pd.Cell F))
      = (splitStars b j attrs).map fun _ => .int PType.stars.value := by
    rw [← hV, List.map_map]
    rfl
  have hmask : b.numbered.map (validStar j attrs)
      = (List.range (b.stars.length + b.dm.length + b.gas.length)).map q := by
    rw [← hsnd, List.map_map]
    apply List.map_congr_left
    intro ri hri
    exact (hvq ri hri).1
  have hcount : labels.length = (b.numbered.map (validStar j attrs)).count true := by
    rw [hlen, ← hV, Np.count_map_true, List.length_map]
  have hN : (b.numbered.map (validStar j attrs)).length = (b.rows none).length := by
    simp [BGalaxy.numbered]
  obtain ⟨res, hr1, hr2, hr3, hr4, hr5⟩ := C33_complete_labels (b.rows none).length labels
    (b.numbered.map (validStar j attrs)) hN hcount
  rw [← hX, ← hy] at hs
  refine ⟨_, decompose_eq env cbins b attrs hne hc j hal split labels res hs hr1,
    by simp only; rw [hr2, rows_none_count]; omega, ?_, ?_⟩
  · intro p i hp
    simp only
    have hmem : i ∈ splitStars b j attrs := List.mem_of_getElem? hp
    have hi : i < b.stars.length := by
      unfold splitStars at hmem
      rw [List.mem_filter, List.mem_range] at hmem
      exact hmem.1
    have hqi : q i = true := by
      unfold splitStars at hmem
      rw [List.mem_filter] at hmem
      simp [hq, hi, hmem.2]
    have hm : (b.numbered.map (validStar j attrs))[i]? = some true := by
      rw [hmask, List.getElem?_map, List.getElem?_range (by omega), Option.map_some, hqi]
    obtain ⟨l, hl, hl2⟩ := hr5 i hm
    have hp2 := filter_get q (List.range (b.stars.length + b.dm.length + b.gas.length)) i i
      (List.getElem?_range (by omega)) hqi
    rw [hS, ← hmask] at hp2
    have hnd : (splitStars b j attrs).Nodup := List.nodup_range.filter _
    have hpp : p = ((b.numbered.map (validStar j attrs)).take i).count true := by
      obtain ⟨a1, a2⟩ := List.getElem?_eq_some_iff.1 hp
      obtain ⟨b1, b2⟩ := List.getElem?_eq_some_iff.1 hp2
      exact (hnd.getElem_inj_iff).1 (a2.trans b2.symm)
    rw [hl2, hpp, hl]
  · intro i hi hns
    apply hr4 i
    rw [hmask, List.getElem?_map, List.getElem?_range hi, Option.map_some]
    congr 1
    rw [Bool.eq_false_iff]
    intro hqi
    apply hns
    rw [← hS, List.mem_filter, List.mem_range]
    exact ⟨hi, hqi⟩

end rows

/-! ### doubles close to real numbers -/

section near
open Flt

/-- a real number cut off at -1 and 1 -/
noncomputable def clamp (w : ℝ) : ℝ := max (-1) (min 1 w)

theorem edges_real {m d : Nat} (hm : 0 < m) (hmd : m ∣ 10 ^ d) {i : Nat} (hi : i ≤ 2 * m) :
    edge (roundedEdges (2 * m : ℤ) (d : ℤ) : List (Ext ℝ)) i = .fin ((edgeQ m i : ℚ) : ℝ) := by
  have hm' : (0 : ℝ) < m := by exact_mod_cast hm
  have hto : (2 * m : ℤ).toNat = 2 * m := by omega
  rw [roundedEdges_edge _ _ (by omega) i (by omega), hto]
  congr 1
  obtain ⟨t, ht⟩ := hmd
  have hx : edgeK (K := ℝ) (2 * m) i = ((edgeQ m i : ℚ) : ℝ) := by
    unfold edgeK edgeQ
    push_cast
    field_simp
    ring
  have hP : (10 : ℝ) ^ (d : ℤ) = (m : ℝ) * t := by
    rw [zpow_natCast]
    exact_mod_cast ht
  have hP0 : (0 : ℝ) < (m : ℝ) * t := by rw [← hP]; exact zpow_pos (by norm_num) _
  have hz : ((edgeQ m i : ℚ) : ℝ) * ((m : ℝ) * t) = ((((i : ℤ) - m) * t : ℤ) : ℝ) := by
    unfold edgeQ
    push_cast
    field_simp
  unfold roundK
  rw [hx, hP, hz, roundHalfEven_int, ← hz, mul_div_cancel_right₀ _ hP0.ne']

theorem edgeQ_zero {m : Nat} : edgeQ m 0 = -1 := by unfold edgeQ; simp

theorem edgeQ_last {m : Nat} (hm : 0 < m) : edgeQ m (2 * m) = 1 := by
  have : (m : ℚ) ≠ 0 := by exact_mod_cast hm.ne'
  unfold edgeQ; push_cast; field_simp; norm_num

theorem edgeQ_abs {m : Nat} (hm : 0 < m) {k : Nat} (hk : k ≤ 2 * m) : |edgeQ m k| ≤ 1 := by
  have hm' : (0 : ℚ) < m := by exact_mod_cast hm
  have h2 : (k : ℚ) ≤ 2 * m := by exact_mod_cast hk
  have h3 : (k : ℚ) / m ≤ 2 := by rw [div_le_iff₀ hm']; exact h2
  have h4 : (0 : ℚ) ≤ (k : ℚ) / m := by positivity
  unfold edgeQ
  rw [abs_le]
  constructor <;> linarith

theorem srnd_near {m : Nat} (hm : 0 < m) {k : Nat} (hk : k ≤ 2 * m) :
    |Fmt.binary64.srnd (edgeQ m k) - edgeQ m k| ≤ 1 / 2 ^ 53 := by
  have := Fmt.binary64.srnd_abs_err (x := edgeQ m k) (e := 0)
    (by rw [zpow_zero]; exact edgeQ_abs hm hk) (by decide)
  refine this.trans ?_
  decide +kernel

/-- a double and a real number on the same side of every inner edge, by a margin, are in the same
bins -/
theorem inBin_near {m d : Nat} (hm : 0 < m) (hmd : m ∣ 10 ^ d) (hd : d ≤ 14) {e : Float64}
    (he : Num.isFinite e = true) (hu : InUnit e) {w : ℝ}
    (hw : ∀ k, 0 < k → k < 2 * m →
      ((1 : ℝ) / 2 ^ 53 < (value e : ℝ) - (edgeQ m k : ℚ) ∧ ((edgeQ m k : ℚ) : ℝ) < w) ∨
      ((1 : ℝ) / 2 ^ 53 < (edgeQ m k : ℚ) - (value e : ℝ) ∧ w < ((edgeQ m k : ℚ) : ℝ)))
    {k : Nat} (hk : k < 2 * m) :
    inBinI (roundedEdges (2 * m : ℤ) (d : ℤ) : List Float64) (2 * m) k e
      = inBinI (roundedEdges (2 * m : ℤ) (d : ℤ) : List (Ext ℝ)) (2 * m) k (.fin (clamp w)) := by
  have hv := toExt_value he
  have hlo : (-1 : ℚ) ≤ value e := by
    have := hu.1
    have h1 : Ext.le (toExt (Num.ofRat (-1) : Float64)) (toExt e) = true := this
    rw [show toExt (Num.ofRat (-1) : Float64) = .fin (-1) from toExt_neg_one, hv] at h1
    exact of_decide_eq_true h1
  have hhi : value e ≤ 1 := by
    have := hu.2
    have h1 : Ext.le (toExt e) (toExt (Num.ofRat 1 : Float64)) = true := this
    rw [show toExt (Num.ofRat 1 : Float64) = .fin 1 from toExt_one, hv] at h1
    exact of_decide_eq_true h1
  have c1 : -1 ≤ clamp w := le_max_left _ _
  have c2 : clamp w ≤ 1 := max_le (by norm_num) (min_le_left _ _)
  -- the inner edges
  have inner : ∀ i, 0 < i → i < 2 * m →
      (Fmt.binary64.srnd (edgeQ m i) ≤ value e ↔ ((edgeQ m i : ℚ) : ℝ) ≤ clamp w) ∧
      (value e ≤ Fmt.binary64.srnd (edgeQ m i) ↔ clamp w ≤ ((edgeQ m i : ℚ) : ℝ)) := by
    intro i h0 h1
    have hn := abs_le.1 (srnd_near hm h1.le)
    have hq1 : -1 < edgeQ m i := by
      have := edgeQ_lt hm h0
      rw [edgeQ_zero] at this
      have h3 : (0 : ℚ) < 1 / m := by
        have : (0 : ℚ) < m := by exact_mod_cast hm
        positivity
      linarith
    have hq2 : edgeQ m i < 1 := by
      have := edgeQ_lt hm h1
      rw [edgeQ_last hm] at this
      have h3 : (0 : ℚ) < 1 / m := by
        have : (0 : ℚ) < m := by exact_mod_cast hm
        positivity
      linarith
    have hq1' : (-1 : ℝ) < ((edgeQ m i : ℚ) : ℝ) := by exact_mod_cast hq1
    have hq2' : ((edgeQ m i : ℚ) : ℝ) < 1 := by exact_mod_cast hq2
    rcases hw i h0 h1 with ⟨a, b⟩ | ⟨a, b⟩
    · have a' : (1 : ℚ) / 2 ^ 53 < value e - edgeQ m i := by
        have : (((1 : ℚ) / 2 ^ 53 : ℚ) : ℝ) < ((value e - edgeQ m i : ℚ) : ℝ) := by
          push_cast; exact a
        exact Rat.cast_lt.1 this
      have hc : ((edgeQ m i : ℚ) : ℝ) < clamp w := lt_max_of_lt_right (lt_min hq2' b)
      constructor
      · exact ⟨fun _ => hc.le, fun _ => by linarith⟩
      · exact ⟨fun h => absurd h (not_le.2 (by linarith)), fun h => absurd h (not_le.2 hc)⟩
    · have a' : (1 : ℚ) / 2 ^ 53 < edgeQ m i - value e := by
        have : (((1 : ℚ) / 2 ^ 53 : ℚ) : ℝ) < ((edgeQ m i - value e : ℚ) : ℝ) := by
          push_cast; exact a
        exact Rat.cast_lt.1 this
      have hc : clamp w < ((edgeQ m i : ℚ) : ℝ) := max_lt hq1' ((min_le_right _ _).trans_lt b)
      constructor
      · exact ⟨fun h => absurd h (not_le.2 (by linarith)), fun h => absurd h (not_le.2 hc)⟩
      · exact ⟨fun _ => hc.le, fun _ => by linarith⟩
  have hF : ∀ i ≤ 2 * m, toExt ((roundedEdges (2 * m : ℤ) (d : ℤ) : List Float64).getD i Num.nan)
      = .fin (Fmt.binary64.srnd (edgeQ m i)) := fun i hi => edges64 hm hmd hd hi
  have hR : ∀ i ≤ 2 * m, (roundedEdges (2 * m : ℤ) (d : ℤ) : List (Ext ℝ)).getD i Num.nan
      = .fin ((edgeQ m i : ℚ) : ℝ) := fun i hi => edges_real hm hmd hi
  have fle : ∀ a : ℚ, Ext.le (.fin a) (toExt e) = decide (a ≤ value e) := by
    intro a; rw [hv]; rfl
  have fge : ∀ a : ℚ, Ext.le (toExt e) (.fin a) = decide (value e ≤ a) := by
    intro a; rw [hv]; rfl
  -- the left edge
  have left : Ext.le (.fin (Fmt.binary64.srnd (edgeQ m k))) (toExt e)
      = Ext.le (.fin ((edgeQ m k : ℚ) : ℝ)) (.fin (clamp w)) := by
    rw [fle]
    refine decide_eq_decide.2 ?_
    rcases Nat.eq_zero_or_pos k with rfl | h0
    · rw [edgeQ_zero, Fmt.srnd_neg_one]
      push_cast
      exact ⟨fun _ => c1, fun _ => hlo⟩
    · exact (inner k h0 hk).1
  unfold inBinI
  show (Ext.le (toExt _) (toExt e) && (if k = 2 * m - 1 then Ext.le (toExt e) (toExt _)
      else Ext.lt (toExt e) (toExt _))) = (Ext.le _ _ && (if k = 2 * m - 1 then Ext.le _ _
      else Ext.lt _ _))
  rw [hF k hk.le, hR k hk.le, hF (k + 1) hk, hR (k + 1) hk, left]
  congr 1
  by_cases hl : k = 2 * m - 1
  · rw [if_pos hl, if_pos hl]
    rw [fge]
    refine decide_eq_decide.2 ?_
    have : k + 1 = 2 * m := by omega
    rw [this, edgeQ_last hm, Fmt.srnd_one]
    push_cast
    exact ⟨fun _ => c2, fun _ => hhi⟩
  · rw [if_neg hl, if_neg hl]
    have hi := inner (k + 1) (by omega) (by omega)
    unfold Ext.lt
    rw [fle, fge]
    have e1 : decide (value e ≤ Fmt.binary64.srnd (edgeQ m (k + 1)))
        = Ext.le (.fin (clamp w)) (.fin ((edgeQ m (k + 1) : ℚ) : ℝ)) := decide_eq_decide.2 hi.2
    have e2 : decide (Fmt.binary64.srnd (edgeQ m (k + 1)) ≤ value e)
        = Ext.le (.fin ((edgeQ m (k + 1) : ℚ) : ℝ)) (.fin (clamp w)) := decide_eq_decide.2 hi.1
    rw [e1, e2]

variable {σ : Type}

/-- from the error of the circularity to the sides of the edges -/
theorem near_of_margin {m : Nat} {v w L : ℝ} (hL : 0 ≤ L ∧ L ≤ 1) (he : |v * L - w * L| ≤ 1 / 2 ^ 49)
    (hw : ∀ n, 0 < n → n < 2 * m → 1 / 2 ^ 48 < |w - ((n : ℝ) / m - 1)| * L) :
    ∀ k, 0 < k → k < 2 * m →
      ((1 : ℝ) / 2 ^ 53 < v - (edgeQ m k : ℚ) ∧ ((edgeQ m k : ℚ) : ℝ) < w) ∨
      ((1 : ℝ) / 2 ^ 53 < (edgeQ m k : ℚ) - v ∧ w < ((edgeQ m k : ℚ) : ℝ)) := by
  intro k h0 h1
  have hq : ((edgeQ m k : ℚ) : ℝ) = (k : ℝ) / m - 1 := by unfold edgeQ; push_cast; rfl
  have hm := hw k h0 h1
  rw [← hq] at hm
  set q : ℝ := ((edgeQ m k : ℚ) : ℝ)
  have hLpos : 0 < L := by
    rcases hL.1.lt_or_eq with h | h
    · exact h
    · rw [← h, mul_zero] at hm
      norm_num at hm
  have he' := abs_le.1 he
  rcases lt_trichotomy w q with h | h | h
  · right
    refine ⟨?_, h⟩
    rw [abs_of_neg (by linarith)] at hm
    have h2 : (1 : ℝ) / 2 ^ 49 < (q - v) * L := by
      have : (1 : ℝ) / 2 ^ 48 = 1 / 2 ^ 49 + 1 / 2 ^ 49 := by norm_num
      nlinarith [he'.2]
    have h3 : 0 < q - v := by
      by_contra hc
      have : (q - v) * L ≤ 0 := mul_nonpos_of_nonpos_of_nonneg (not_lt.1 hc) hLpos.le
      have : (0 : ℝ) < 1 / 2 ^ 49 := by norm_num
      linarith
    have h4 : (q - v) * L ≤ q - v := by nlinarith [hL.2]
    have : (1 : ℝ) / 2 ^ 53 < 1 / 2 ^ 49 := by norm_num
    linarith
  · rw [h, sub_self, abs_zero, zero_mul] at hm
    norm_num at hm
  · left
    refine ⟨?_, h⟩
    rw [abs_of_pos (by linarith)] at hm
    have h2 : (1 : ℝ) / 2 ^ 49 < (v - q) * L := by
      have : (1 : ℝ) / 2 ^ 48 = 1 / 2 ^ 49 + 1 / 2 ^ 49 := by norm_num
      nlinarith [he'.1]
    have h3 : 0 < v - q := by
      by_contra hc
      have : (v - q) * L ≤ 0 := mul_nonpos_of_nonpos_of_nonneg (not_lt.1 hc) hLpos.le
      have : (0 : ℝ) < 1 / 2 ^ 49 := by norm_num
      linarith
    have h4 : (v - q) * L ≤ v - q := by nlinarith [hL.2]
    have : (1 : ℝ) / 2 ^ 53 < 1 / 2 ^ 49 := by norm_num
    linarith

/-- `w` is the circularity of star `i` in exact arithmetic, from the largest absolute Jz of the bound
particles and the polygon through the points of the table, and is not too close to an inner edge of
`2m` bins -/
def ExactCirc (b : BGalaxy Float64) (j : JCirc Float64) (m i : Nat) (w : ℝ) : Prop :=
  ∀ (a : Body Float64) (k : Float64), b.stars[i]? = some a →
    j.normalizedStarEnergy[i]? = some k → Num.isFinite k = true ∧
    ∀ J L : ℝ, LargestOf b Body.jz J → OnPolygon (reals j.x) (reals j.y) (value k) L →
      w * L = value a.jz / J ∧
      ∀ n, 0 < n → n < 2 * m → 1 / 2 ^ 48 < |w - ((n : ℝ) / m - 1)| * L

theorem inBin_star {env : CircEnv Float64} (henv : env.OK) {b : BGalaxy Float64}
    {bin0 bin1 : Float64} (hbins : BinsIncrease bin0 bin1) {j : JCirc Float64}
    (hj : jcirc env (Galaxy.ofBodies b) bin0 bin1 = .ok j)
    (hz : ∀ c ∈ b.all, ¬ Unbound c.energy → Num.isFinite c.jz = true)
    {m d : Nat} (hm : 0 < m) (hmd : m ∣ 10 ^ d) (hd : d ≤ 14) {i : Nat} {e : Float64}
    (he : j.eps[i]? = some e) (fe : Num.isFinite e = true) {w : ℝ} (hw : ExactCirc b j m i w)
    {k : Nat} (hk : k < 2 * m) :
    inBinI (roundedEdges (2 * m : ℤ) (d : ℤ) : List Float64) (2 * m) k e
      = inBinI (roundedEdges (2 * m : ℤ) (d : ℤ) : List (Ext ℝ)) (2 * m) k (.fin (clamp w)) := by
  have hlen : j.eps.length = b.stars.length ∧ j.normalizedStarEnergy.length = b.stars.length := by
    have hal : CircAligned env (bin0, bin1) b ["eps", "normalized_star_energy"] j :=
      circAligned_of_ok hj (by decide)
    have := (hal ⟨"eps", by simp, by decide⟩).2
    exact ⟨this "eps" (by simp) (by decide), this "normalized_star_energy" (by simp) (by decide)⟩
  have hi : i < b.stars.length := hlen.1 ▸ (List.getElem?_eq_some_iff.1 he).1
  have ha : b.stars[i]? = some b.stars[i] := List.getElem?_eq_getElem hi
  have hk' : j.normalizedStarEnergy[i]? = some j.normalizedStarEnergy[i] :=
    List.getElem?_eq_getElem (by omega)
  have hu : InUnit e := by
    rcases C23_eps_range env b bin0 bin1 j hj e (List.mem_of_getElem? he) with hn | hu
    · rw [NumOrd.finite_not_nan fe] at hn; cases hn
    · exact hu
  obtain ⟨fk, hw⟩ := hw _ _ ha hk'
  obtain ⟨J, L, hJ, -, hL, hL01, herr, -⟩ := C86_circularity env henv b bin0 bin1 hbins j hj hz i
    b.stars[i] ha _ e hk' he fk fe
  obtain ⟨hwL, hmar⟩ := hw J L hJ hL
  rw [← hwL] at herr
  exact inBin_near hm hmd hd fe hu (near_of_margin hL01 herr hmar) hk

/-- the stars with a finite circularity -/
def finiteEps (j : JCirc Float64) (n : Nat) : List Nat :=
  (List.range n).filter fun i => Num.isFinite (j.eps.getD i Num.nan)

/-- C103: the decomposition of a galaxy by `JHistogram` in double precision. If `w i` is the exact
circularity of star `i`, further than 2^-48 (divided by the circular Jz) from the inner edges, then the
stars with finite circularity get the labels that the exact split gives to the list of the `w i`, cut
off at -1 and 1, with the same generator; nothing else gets a label. -/
theorem C103_jhistogram (junk : Nat → Int) (rng : Rng σ) (hr : rng.OK) {m d : Nat} (hm : 0 < m)
    (hmd : m ∣ 10 ^ d) (hd : d ≤ 14) (s : σ) (env : CircEnv Float64) (henv : env.OK)
    (b : BGalaxy Float64) (bin0 bin1 : Float64) (hbins : BinsIncrease bin0 bin1) (j : JCirc Float64)
    (hj : jcirc env (Galaxy.ofBodies b) bin0 bin1 = .ok j)
    (hz : ∀ c ∈ b.all, ¬ Unbound c.energy → Num.isFinite c.jz = true) (w : Nat → ℝ)
    (hw : ∀ i ∈ finiteEps j b.stars.length, ExactCirc b j m i (w i)) :
    ∃ labels s' c,
      jHistogramSplit junk rng (2 * m : ℤ) d ((finiteEps j b.stars.length).map fun i =>
        [(.fin (clamp (w i)) : Ext ℝ)]) s = .ok (labels, s') ∧
      decompose env (bin0, bin1) (jHistogram junk rng (2 * m : ℤ) d s) (Galaxy.ofBodies b) = .ok c ∧
      (∀ p i : Nat, (finiteEps j b.stars.length)[p]? = some i → c.labels[i]? = some labels[p]?) ∧
      c.labels.length = b.stars.length + b.dm.length + b.gas.length ∧
      ∀ i < b.stars.length + b.dm.length + b.gas.length, i ∉ finiteEps j b.stars.length →
        c.labels[i]? = some none := by
  have hle : m ≤ 10 ^ d := Nat.le_of_dvd (by positivity) hmd
  have hto : (2 * m : ℤ).toNat = 2 * m := by omega
  have hS : splitStars b j ["eps"] = finiteEps j b.stars.length := by
    unfold splitStars finiteEps
    apply List.filter_congr
    intro i _
    simp [rowFinite, starRow, JCirc.attr]
  have hlen : j.eps.length = b.stars.length := by
    have hal : CircAligned env (bin0, bin1) b ["eps"] j := circAligned_of_ok hj (by decide)
    exact (hal ⟨"eps", by simp, by decide⟩).2 "eps" (by simp) (by decide)
  have hmem : ∀ i ∈ finiteEps j b.stars.length, j.eps[i]? = some (j.eps.getD i Num.nan) ∧
      Num.isFinite (j.eps.getD i Num.nan) = true := by
    intro i hi
    unfold finiteEps at hi
    rw [List.mem_filter, List.mem_range] at hi
    refine ⟨?_, hi.2⟩
    rw [List.getD_eq_getElem?_getD, List.getElem?_eq_getElem (by omega)]
    rfl
  have hunit : ∀ e ∈ (finiteEps j b.stars.length).map fun i => j.eps.getD i Num.nan, InUnit e := by
    intro e he
    rw [List.mem_map] at he
    obtain ⟨i, hi, rfl⟩ := he
    obtain ⟨h1, h2⟩ := hmem i hi
    rcases C23_eps_range env b bin0 bin1 j hj _ (List.mem_of_getElem? h1) with hn | hu
    · rw [NumOrd.finite_not_nan h2] at hn; cases hn
    · exact hu
  obtain ⟨hh, hso, hco⟩ := histogram64 hm hle (by omega : d ≤ 15)
  obtain ⟨labels, s', hl1, hl2, -⟩ := C37_labels junk rng hr hh hso hco _ hunit s
  have hex : (m : ℝ) < 2 * (10 : ℝ) ^ (d : ℤ) := by
    have : (m : ℝ) ≤ (10 : ℝ) ^ (d : ℤ) := by rw [zpow_natCast]; exact_mod_cast hle
    have h0 : (0 : ℝ) < (10 : ℝ) ^ (d : ℤ) := zpow_pos (by norm_num) _
    linarith
  have htr := C102_jhistogram junk rng hh (C40_exact_even (K := ℝ) m hm d hex)
    ((finiteEps j b.stars.length).map fun i => j.eps.getD i Num.nan)
    ((finiteEps j b.stars.length).map fun i => (.fin (clamp (w i)) : Ext ℝ)) (by
      intro k hk
      rw [hto] at hk ⊢
      rw [List.map_map, List.map_map]
      apply List.map_congr_left
      intro i hi
      obtain ⟨h1, h2⟩ := hmem i hi
      exact inBin_star henv hbins hj hz hm hmd hd h1 h2 (hw i hi) hk) s
  have hl3 := hl1
  rw [htr, List.map_map] at hl3
  obtain ⟨c, c1, c2, c3, c4⟩ := decompose_rows env (bin0, bin1) b j hj ["eps"] (by simp) (by decide)
    (by decide) (fun X _ => (jHistogramSplit junk rng (2 * m : ℤ) d X s).map fun ls => (ls.1, none))
    labels (by
      rw [hS]
      rw [List.map_map] at hl1
      have hrow : (finiteEps j b.stars.length).map (starRow j ["eps"])
          = (finiteEps j b.stars.length).map ((fun e => [e]) ∘ fun i => j.eps.getD i Num.nan) :=
        List.map_congr_left fun i _ => rfl
      simp only [hrow, hl1]
      rfl) (by rw [hS, hl2, List.length_map])
  rw [hS] at c3 c4
  exact ⟨labels, s', c, hl3, c1, c3, c2, c4⟩

/-- energies away from the inner energy edges are in the same energy bins -/
theorem inBin_energy {nE : Nat} (h53 : nE ≤ 2 ^ 53) {k : Float64} (hk : Num.isFinite k = true)
    (hc : ClearEnergy nE (toExt k)) {n : Nat} (hn : n < nE) :
    inBinI (energyEdges nE : List Float64) nE n k
      = inBinI (energyEdges nE : List (Ext ℝ)) nE n (.fin ((value k : ℚ) : ℝ)) ∧
    halfOpen (energyEdges nE : List Float64) n k
      = halfOpen (energyEdges nE : List (Ext ℝ)) n (.fin ((value k : ℚ) : ℝ)) := by
  have hE : 0 < nE := by omega
  have hx := toExt_value hk
  have key : ∀ i ≤ nE, (edge (energyEdges nE : List Float64) i <=. k)
        = (edge (energyEdges nE : List (Ext ℝ)) i <=. (.fin ((value k : ℚ) : ℝ) : Ext ℝ)) ∧
      (k <=. edge (energyEdges nE : List Float64) i)
        = ((.fin ((value k : ℚ) : ℝ) : Ext ℝ) <=. edge (energyEdges nE : List (Ext ℝ)) i) := by
    intro i hi
    have ha := agree_energy hE h53 hc hi
    rw [energyEdges_get nE hE i hi] at ha
    rw [energyEdges_get nE hE i hi]
    have e : (-1 + (i : ℝ) / nE) = (((-1 + (i : ℚ) / nE : ℚ)) : ℝ) := by push_cast; rfl
    rw [e]
    constructor
    · refine ha.le.trans ?_
      rw [hx]
      exact decide_eq_decide.2 (by exact_mod_cast Iff.rfl)
    · refine ha.ge.trans ?_
      rw [hx]
      exact decide_eq_decide.2 (by exact_mod_cast Iff.rfl)
  have lt : (k <. edge (energyEdges nE : List Float64) (n + 1))
      = ((.fin ((value k : ℚ) : ℝ) : Ext ℝ) <. edge (energyEdges nE : List (Ext ℝ)) (n + 1)) := by
    rw [NumOrd.lt_def, NumOrd.lt_def, (key (n + 1) hn).1, (key (n + 1) hn).2]
  constructor
  · have a1 := (key n hn.le).1
    have a2 := (key (n + 1) hn).2
    unfold inBinI
    unfold edge at a1 a2 lt
    rw [a1, a2, lt]
  · unfold halfOpen
    rw [(key n hn.le).1, lt]

/-- the stars with a finite normalized energy and a finite circularity -/
def finiteBoth (j : JCirc Float64) (n : Nat) : List Nat :=
  (List.range n).filter fun i => Num.isFinite (j.normalizedStarEnergy.getD i Num.nan) &&
    Num.isFinite (j.eps.getD i Num.nan)

/-- C103: the same for `JEHistogram`, where the exact split gets the computed normalized energies,
which have to be more than 2^-52 away from the inner energy edges. -/
theorem C103_jehistogram (junk : Nat → Int) (rng : Rng σ) (hr : rng.OK) {m d nE : Nat} (hm : 0 < m)
    (hmd : m ∣ 10 ^ d) (hd : d ≤ 14) (hE : nE ≤ 2 ^ 53) (s : σ) (env : CircEnv Float64)
    (henv : env.OK) (b : BGalaxy Float64) (bin0 bin1 : Float64) (hbins : BinsIncrease bin0 bin1)
    (j : JCirc Float64) (hj : jcirc env (Galaxy.ofBodies b) bin0 bin1 = .ok j)
    (hz : ∀ c ∈ b.all, ¬ Unbound c.energy → Num.isFinite c.jz = true) (w : Nat → ℝ)
    (hw : ∀ i ∈ finiteBoth j b.stars.length, ExactCirc b j m i (w i) ∧
      ClearEnergy nE (toExt (j.normalizedStarEnergy.getD i Num.nan)))
    (labels : List Int) (s' : σ)
    (hex : jeHistogramSplit junk rng (2 * m : ℤ) d nE ((finiteBoth j b.stars.length).map fun i =>
      [(.fin ((value (j.normalizedStarEnergy.getD i Num.nan) : ℚ) : ℝ) : Ext ℝ),
        .fin (clamp (w i))]) s = .ok (labels, s')) :
    ∃ c,
      decompose env (bin0, bin1) (jeHistogram junk rng (2 * m : ℤ) d nE s) (Galaxy.ofBodies b)
        = .ok c ∧
      (∀ p i : Nat, (finiteBoth j b.stars.length)[p]? = some i → c.labels[i]? = some labels[p]?) ∧
      c.labels.length = b.stars.length + b.dm.length + b.gas.length ∧
      ∀ i < b.stars.length + b.dm.length + b.gas.length, i ∉ finiteBoth j b.stars.length →
        c.labels[i]? = some none := by
  have hle : m ≤ 10 ^ d := Nat.le_of_dvd (by positivity) hmd
  have hto : (2 * m : ℤ).toNat = 2 * m := by omega
  have hto' : (nE : ℤ).toNat = nE := by omega
  have hS : splitStars b j ["normalized_star_energy", "eps"] = finiteBoth j b.stars.length := by
    unfold splitStars finiteBoth
    apply List.filter_congr
    intro i _
    simp [rowFinite, starRow, JCirc.attr]
  have hlen : j.eps.length = b.stars.length := by
    have hal : CircAligned env (bin0, bin1) b ["eps"] j := circAligned_of_ok hj (by decide)
    exact (hal ⟨"eps", by simp, by decide⟩).2 "eps" (by simp) (by decide)
  have hmem : ∀ i ∈ finiteBoth j b.stars.length, j.eps[i]? = some (j.eps.getD i Num.nan) ∧
      Num.isFinite (j.eps.getD i Num.nan) = true ∧
      Num.isFinite (j.normalizedStarEnergy.getD i Num.nan) = true := by
    intro i hi
    unfold finiteBoth at hi
    rw [List.mem_filter, List.mem_range, Bool.and_eq_true] at hi
    refine ⟨?_, hi.2.2, hi.2.1⟩
    rw [List.getD_eq_getElem?_getD, List.getElem?_eq_getElem (by omega)]
    rfl
  set rows : List (Float64 × Float64) := (finiteBoth j b.stars.length).map fun i =>
    (j.normalizedStarEnergy.getD i Num.nan, j.eps.getD i Num.nan) with hrows
  have hunit : ∀ r ∈ rows, InUnit r.2 := by
    intro r he
    rw [hrows, List.mem_map] at he
    obtain ⟨i, hi, rfl⟩ := he
    obtain ⟨h1, h2, -⟩ := hmem i hi
    rcases C23_eps_range env b bin0 bin1 j hj _ (List.mem_of_getElem? h1) with hn | hu
    · rw [NumOrd.finite_not_nan h2] at hn; cases hn
    · exact hu
  obtain ⟨hh, hso, hco⟩ := histogram64 hm hle (by omega : d ≤ 15)
  have hEs : EdgesSorted (energyEdges (nE : ℤ).toNat : List Float64) (nE : ℤ).toNat := by
    rw [Int.toNat_natCast]
    exact C66_energy_edges nE hE
  have hexm : (m : ℝ) < 2 * (10 : ℝ) ^ (d : ℤ) := by
    have : (m : ℝ) ≤ (10 : ℝ) ^ (d : ℤ) := by rw [zpow_natCast]; exact_mod_cast hle
    have h0 : (0 : ℝ) < (10 : ℝ) ^ (d : ℤ) := zpow_pos (by norm_num) _
    linarith
  have htr := C102_jehistogram junk rng nE hh (C40_exact_even (K := ℝ) m hm d hexm) rows
    ((finiteBoth j b.stars.length).map fun i =>
      ((.fin ((value (j.normalizedStarEnergy.getD i Num.nan) : ℚ) : ℝ) : Ext ℝ),
        (.fin (clamp (w i)) : Ext ℝ))) (by
      intro k hk
      rw [hto] at hk ⊢
      rw [hrows, List.map_map, List.map_map]
      apply List.map_congr_left
      intro i hi
      obtain ⟨h1, h2, -⟩ := hmem i hi
      exact inBin_star henv hbins hj hz hm hmd hd h1 h2 (hw i hi).1 hk) (by
      intro n hn
      rw [hto'] at hn ⊢
      rw [hrows, List.map_map, List.map_map, List.map_map, List.map_map]
      constructor
      · apply List.map_congr_left
        intro i hi
        exact (inBin_energy hE (hmem i hi).2.2 (hw i hi).2 hn).1
      · apply List.map_congr_left
        intro i hi
        exact (inBin_energy hE (hmem i hi).2.2 (hw i hi).2 hn).2) s
  have hrowx : ((finiteBoth j b.stars.length).map fun i =>
      ((.fin ((value (j.normalizedStarEnergy.getD i Num.nan) : ℚ) : ℝ) : Ext ℝ),
        (.fin (clamp (w i)) : Ext ℝ))).map (fun r => [r.1, r.2])
      = (finiteBoth j b.stars.length).map fun i =>
      [(.fin ((value (j.normalizedStarEnergy.getD i Num.nan) : ℚ) : ℝ) : Ext ℝ),
        .fin (clamp (w i))] := by rw [List.map_map]; rfl
  rw [hrowx] at htr
  have hl1 := htr.trans hex
  have hl2 := (C41_labels junk rng hr (nE : ℤ) hEs hh hso hco rows hunit s s' labels hl1).1
  obtain ⟨c, c1, c2, c3, c4⟩ := decompose_rows env (bin0, bin1) b j hj
    ["normalized_star_energy", "eps"] (by simp) (by decide) (by decide)
    (fun X _ => (jeHistogramSplit junk rng (2 * m : ℤ) d nE X s).map fun ls => (ls.1, none))
    labels (by
      rw [hS]
      rw [hrows, List.map_map] at hl1
      have hrow : (finiteBoth j b.stars.length).map (starRow j ["normalized_star_energy", "eps"])
          = (finiteBoth j b.stars.length).map ((fun r => [r.1, r.2]) ∘ fun i =>
            (j.normalizedStarEnergy.getD i Num.nan, j.eps.getD i Num.nan)) :=
        List.map_congr_left fun i _ => rfl
      simp only [hrow, hl1]
      rfl) (by rw [hS, hl2, hrows, List.length_map])
  rw [hS] at c3 c4
  exact ⟨c, c1, c3, c2, c4⟩

end near

section examples
open Flt

/-- three stars of energy -1, with Jz/J = 1, just below 0.06 and near -0.05 -/
def exEdge : BGalaxy Float64 where
  stars := [9007199254740967, 540431955284458, -450359962737048].map fun l => ⟨Num.ofRat 1, Num.ofRat l, Num.ofRat 0,
    Num.ofRat 0, Num.ofRat 0, Num.ofRat 1, Num.ofRat 0, Num.ofRat (-3/2)⟩
  dm := []
  gas := []
  hasPot := true
  softS := Num.ofRat 0
  softDm := Num.ofRat 0
  softG := Num.ofRat 0

/-- C103 (a margin is needed): the circularity of the second star is a little below 0.06 and rounds to
the double nearest to 0.06. So exact arithmetic puts it into the bin of 0.05, whose mirror bin holds
the third star, and makes it spheroid. Double precision makes it disk. -/
theorem C103_margin_needed : (sortEnv (F := Float64)).OK ∧
    exEdge.stars.map (fun a => value a.jz) = [9007199254740967, 540431955284458, -450359962737048] ∧
    (jcirc sortEnv (Galaxy.ofBodies exEdge) defaultCbin.1 defaultCbin.2).toOption.map
      (fun j => (j.x, j.y)) = some ([Num.ofRat (-1)], [Num.ofRat 1]) ∧
    (decompose sortEnv defaultCbin (jHistogram (fun _ => 99) firstRng 100 2 ())
      (Galaxy.ofBodies exEdge)).toOption.map Components.labels = some [some 1, some 1, some 0] ∧
    (jHistogramSplit (fun _ => 99) firstRng 100 2
      (([1, 540431955284458 / 9007199254740967, -450359962737048 / 9007199254740967] : List ℚ).map fun e => [(.fin e : Ext ℚ)]) ()).toOption.map Prod.fst
      = some [1, 0, 0] :=
  ⟨sortEnv_ok, by decide +kernel, by decide +kernel, by decide +kernel, by decide +kernel⟩

/-- what `jcirc` gives for the galaxy of two stars with circularities 1 and 1/3 -/
theorem exThird_jcirc : ∃ j : JCirc Float64,
    jcirc sortEnv (Galaxy.ofBodies exThird) defaultCbin.1 defaultCbin.2 = .ok j ∧
    reals j.x = [-1] ∧ reals j.y = [1] ∧ j.normalizedStarEnergy = [Num.ofRat (-1), Num.ofRat (-1)] ∧
    finiteEps j 2 = [0, 1] ∧ finiteBoth j 2 = [0, 1] := by
  have h : ((jcirc (sortEnv (F := Float64)) (Galaxy.ofBodies exThird) defaultCbin.1
      defaultCbin.2).toOption.map fun j => decide (j.x = [Num.ofRat (-1)] ∧ j.y = [Num.ofRat 1] ∧
      j.normalizedStarEnergy = [Num.ofRat (-1), Num.ofRat (-1)] ∧ finiteEps j 2 = [0, 1] ∧
      finiteBoth j 2 = [0, 1])) = some true := by decide +kernel
  cases hj : jcirc (sortEnv (F := Float64)) (Galaxy.ofBodies exThird) defaultCbin.1
      defaultCbin.2 with
  | error e => rw [hj] at h; cases h
  | ok j =>
    rw [hj] at h
    have h' := of_decide_eq_true (Option.some.inj h)
    have v1 : value (Num.ofRat (-1) : Float64) = -1 := by decide +kernel
    have v2 : value (Num.ofRat 1 : Float64) = 1 := by decide +kernel
    refine ⟨j, rfl, ?_, ?_, h'.2.2⟩
    · rw [h'.1]; simp [reals, v1]
    · rw [h'.2.1]; simp [reals, v2]

/-- the hypothesis of the theorems holds for that galaxy and the default bins -/
theorem exThird_exact {j : JCirc Float64} (hx : reals j.x = [-1]) (hy : reals j.y = [1])
    (hk : j.normalizedStarEnergy = [Num.ofRat (-1), Num.ofRat (-1)]) {i : Nat} (hi : i ∈ [0, 1]) :
    ExactCirc exThird j 50 i (if i = 0 then 1 else 1 / 3) := by
  intro a k ha hk'
  have v1 : value (Num.ofRat 1 : Float64) = 1 := by decide +kernel
  have v3 : value (Num.ofRat 3 : Float64) = 3 := by decide +kernel
  have hkk : k = Num.ofRat (-1) := by
    rw [hk] at hk'
    rcases List.mem_pair.1 hi with rfl | rfl <;> simpa using hk'.symm
  refine ⟨by rw [hkk]; decide +kernel, fun J L hJ hL => ?_⟩
  have hL1 : L = 1 := by
    rw [hx, hy] at hL
    rcases hL with ⟨x, -, -, h⟩ | ⟨x, -, -, h⟩ | ⟨i, x0, x1, y0, y1, -, h, -⟩
    · simpa using h.symm
    · simpa using h.symm
    · simp at h
  have hJ3 : J = 3 := by
    obtain ⟨⟨c, hc, -, h1⟩, h2⟩ := hJ
    have hall : exThird.all = exThird.stars := by simp [BGalaxy.all, exThird]
    rw [hall] at hc h2
    have hle := h2 exThird.stars[0] (List.getElem_mem _) (by
      unfold Unbound; decide +kernel)
    have hv : value (exThird.stars[0].jz) = 3 := by decide +kernel
    rw [hv] at hle
    have hcv : |(value c.jz : ℝ)| ≤ 3 := by
      have : ∀ c ∈ exThird.stars, |value c.jz| ≤ 3 := by decide +kernel
      have := this c hc
      exact_mod_cast this
    rw [← h1] at hcv
    norm_num at hle
    linarith
  subst hL1 hJ3
  rcases List.mem_pair.1 hi with rfl | rfl
  · have hv : value a.jz = 3 := by
      obtain rfl : exThird.stars[0] = a := Option.some.inj ha
      decide +kernel
    refine ⟨by rw [hv]; norm_num, fun n h0 hn => ?_⟩
    have : (n : ℝ) ≤ 99 := by exact_mod_cast (by omega : n ≤ 99)
    rw [if_pos rfl, abs_of_pos (by push_cast; linarith)]
    push_cast
    linarith
  · have hv : value a.jz = 1 := by
      obtain rfl : exThird.stars[1] = a := Option.some.inj ha
      decide +kernel
    refine ⟨by rw [hv]; norm_num, fun n h0 hn => ?_⟩
    rw [if_neg (by norm_num)]
    rcases Nat.lt_or_ge n 67 with h | h
    · have : (n : ℝ) ≤ 66 := by exact_mod_cast (by omega : n ≤ 66)
      rw [abs_of_pos (by push_cast; linarith)]
      push_cast
      linarith
    · have : (67 : ℝ) ≤ n := by exact_mod_cast h
      rw [abs_of_neg (by push_cast; linarith)]
      push_cast
      linarith

/-- so the labels of that galaxy are those of the exact circularities 1 and 1/3 -/
example (junk : Nat → Int) (rng : Rng σ) (hr : rng.OK) (s : σ) : ∃ labels s' c,
    jHistogramSplit junk rng 100 2 [[(.fin (clamp 1) : Ext ℝ)], [.fin (clamp (1 / 3))]] s
      = .ok (labels, s') ∧
    decompose sortEnv defaultCbin (jHistogram junk rng 100 2 s) (Galaxy.ofBodies exThird) = .ok c ∧
    c.labels[1]? = some labels[1]? := by
  obtain ⟨j, hj, hx, hy, hk, hf, -⟩ := exThird_jcirc
  have hl : exThird.stars.length = 2 := rfl
  obtain ⟨labels, s', c, h1, h2, h3, -⟩ := C103_jhistogram junk rng hr (m := 50) (d := 2)
    (by norm_num) (by norm_num) (by norm_num) s sortEnv sortEnv_ok exThird defaultCbin.1
    defaultCbin.2 C65_default_bins j hj
    (fun c hc _ => (by decide +kernel : ∀ c ∈ exThird.all, Num.isFinite c.jz = true) c hc)
    (fun i => if i = 0 then 1 else 1 / 3)
    (by rw [hl, hf]; exact fun i hi => exThird_exact hx hy hk hi)
  rw [hl, hf] at h1 h3
  exact ⟨labels, s', c, h1, h2, h3 1 1 rfl⟩

/-- the hypotheses of `C103_jehistogram` hold for that galaxy with the default 20 energy bins -/
example (junk : Nat → Int) (rng : Rng σ) (hr : rng.OK) (s : σ) : ∃ labels s' c,
    jeHistogramSplit junk rng 100 2 20 [[(.fin ((value (Num.ofRat (-1) : Float64) : ℚ) : ℝ) : Ext ℝ),
      .fin (clamp 1)], [.fin ((value (Num.ofRat (-1) : Float64) : ℚ) : ℝ), .fin (clamp (1 / 3))]] s
      = .ok (labels, s') ∧
    decompose sortEnv defaultCbin (jeHistogram junk rng 100 2 20 s) (Galaxy.ofBodies exThird) = .ok c ∧
    c.labels[1]? = some labels[1]? := by
  obtain ⟨j, hj, hx, hy, hk, -, hf⟩ := exThird_jcirc
  have hl : exThird.stars.length = 2 := rfl
  have v1 : value (Num.ofRat (-1) : Float64) = -1 := by decide +kernel
  have hE : EdgesSorted (energyEdges (20 : ℤ).toNat : List (Ext ℝ)) (20 : ℤ).toNat := by
    intro i hi
    have h20 : (20 : ℤ).toNat = 20 := rfl
    rw [h20] at hi ⊢
    rw [energyEdges_get 20 (by norm_num) i (by omega),
      energyEdges_get 20 (by norm_num) (i + 1) (by omega)]
    exact decide_eq_true (by push_cast; linarith)
  obtain ⟨labels, s', h0⟩ := C42_returns_partial junk rng hr (20 : ℤ) (by norm_num) hE
    (C40_exact_even (K := ℝ) 50 (by norm_num) 2 (by norm_num)) (by norm_num)
    [((.fin ((value (Num.ofRat (-1) : Float64) : ℚ) : ℝ) : Ext ℝ), .fin (clamp 1)),
      (.fin ((value (Num.ofRat (-1) : Float64) : ℚ) : ℝ), .fin (clamp (1 / 3)))] (by
      intro r hr
      have : r.1 = .fin (-1) := by
        rcases List.mem_pair.1 hr with rfl | rfl <;> simp [v1]
      rw [this, NumOrd.lt_def]
      have h1 : ((Num.ofRat 0 : Ext ℝ) <=. .fin (-1)) = false := decide_eq_false (by norm_num)
      have h2 : ((.fin (-1) : Ext ℝ) <=. Num.ofRat 0) = true := decide_eq_true (by norm_num)
      rw [h1, h2]
      rfl) s
  have hce : ClearEnergy 20 (toExt (Num.ofRat (-1) : Float64)) := by
    intro w hw n h0 h1
    rw [toExt_value (by decide +kernel), v1] at hw
    obtain rfl : -1 = w := by injection hw
    exact (by decide +kernel : ∀ n : ℕ, n < 20 → 0 < n →
      1 / 2 ^ 52 < |(-1 : ℚ) - ((n : ℚ) / (20 : ℕ) - 1)|) n h1 h0
  obtain ⟨c, h2, h3, -⟩ := C103_jehistogram junk rng hr (m := 50) (d := 2) (nE := 20)
    (by norm_num) (by norm_num) (by norm_num) (by norm_num) s sortEnv sortEnv_ok exThird defaultCbin.1
    defaultCbin.2 C65_default_bins j hj
    (fun c hc _ => (by decide +kernel : ∀ c ∈ exThird.all, Num.isFinite c.jz = true) c hc)
    (fun i => if i = 0 then 1 else 1 / 3)
    (by
      rw [hl, hf]
      refine fun i hi => ⟨exThird_exact hx hy hk hi, ?_⟩
      rw [hk]
      rcases List.mem_pair.1 hi with rfl | rfl <;> exact hce) labels s'
    (by rw [hl, hf, hk]; exact h0)
  rw [hl, hf] at h3
  exact ⟨labels, s', c, h0, h2, h3 1 1 rfl⟩

end examples

end GChop
