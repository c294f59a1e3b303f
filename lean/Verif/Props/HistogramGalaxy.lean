import Verif.Props.HistogramEnergy
import Verif.Props.CircExact

/-!
# C67: the histogram models on galaxies
-/

set_option linter.unusedSectionVars false

namespace GChop
variable {F : Type} [Num F] [NumOrd F] {σ : Type}

theorem filter_get {α : Type} (p : α → Bool) (l : List α) (i : Nat) (x : α) (h : l[i]? = some x)
    (hp : p x = true) : (l.filter p)[((l.map p).take i).count true]? = some x := by
  induction l generalizing i with
  | nil => simp at h
  | cons y l ih =>
    cases i with
    | zero =>
      simp only [List.getElem?_cons_zero, Option.some.injEq] at h
      subst h
      simp [hp]
    | succ i =>
      have h' : l[i]? = some x := by simpa using h
      have := ih i h'
      simp only [List.map_cons, List.take_succ_cons, List.filter_cons]
      cases hy : p y with
      | false => simpa [hy] using this
      | true => simpa [hy, List.count_cons] using this

/-- the values of the attributes of star `i` -/
def starRow (j : JCirc F) (attrs : List String) (i : Nat) : List F :=
  attrs.map fun a => (j.attr a).getD i Num.nan

/-- all of them are finite -/
def rowFinite (j : JCirc F) (attrs : List String) (i : Nat) : Bool :=
  (starRow j attrs i).all Num.isFinite

/-- the mask of the valid stars, row by row -/
theorem validStar_get (b : BGalaxy F) (j : JCirc F) (attrs : List String)
    (hc : ∀ a ∈ attrs, a ∈ circularityAttributes) (i : Nat)
    (hi : i < b.stars.length + b.dm.length + b.gas.length) :
    ∃ ri, b.numbered[i]? = some ri ∧ ri.2 = i ∧
      validStar j attrs ri = (decide (i < b.stars.length) && rowFinite j attrs i) ∧
      (i < b.stars.length → (attrs.map fun a => (matCell j ri.1 ri.2 a).toNum) = starRow j attrs i) := by
  have hlt : i < (b.rows none).length := by rw [rows_none_count]; omega
  obtain ⟨r, hr⟩ : ∃ r, (b.rows none)[i]? = some r := ⟨_, List.getElem?_eq_getElem hlt⟩
  refine ⟨(r, i), numbered_get b i r hr, rfl, ?_, ?_⟩
  · rw [rows_none] at hr
    by_cases his : i < b.stars.length
    · rw [List.getElem?_append_left (by simpa [BSet.rows, BGalaxy.sSet] using his)] at hr
      simp only [BSet.rows, List.getElem?_map, Option.map_eq_some_iff] at hr
      obtain ⟨x, _, rfl⟩ := hr
      simp only [validStar, beq_self_eq_true, Bool.true_and, his, decide_true, rowFinite, starRow,
        List.all_map]
      rw [Bool.eq_iff_iff, List.all_eq_true, List.all_eq_true]
      refine forall₂_congr fun a ha => ?_
      simp [matCell, hc a ha, cellFinite]
    · rw [List.getElem?_append_right (by simpa [BSet.rows, BGalaxy.sSet] using his)] at hr
      have ht : r.t ≠ .stars := by
        have := List.mem_of_getElem? hr
        simp only [BSet.rows, List.mem_append, List.mem_map] at this
        rcases this with ⟨_, _, rfl⟩ | ⟨_, _, rfl⟩ <;> simp
      simp [validStar, ht, his]
  · intro his
    rw [rows_none, List.getElem?_append_left (by simpa [BSet.rows, BGalaxy.sSet] using his)] at hr
    simp only [BSet.rows, List.getElem?_map, Option.map_eq_some_iff] at hr
    obtain ⟨x, _, rfl⟩ := hr
    unfold starRow
    apply List.map_congr_left
    intro a ha
    simp [matCell, hc a ha, Pd.Cell.toNum]

/-- the labels of a galaxy: those of the stars with finite attributes come from one call of `split`,
all other particles have none -/
theorem decompose_star_labels (env : CircEnv F) (cbins : F × F) (b : BGalaxy F) (j : JCirc F)
    (hj : jcirc env (Galaxy.ofBodies b) cbins.1 cbins.2 = .ok j) (attrs : List String)
    (hne : attrs ≠ []) (hc : ∀ a ∈ attrs, a ∈ circularityAttributes)
    (hz : "normalized_star_Jz" ∉ attrs)
    (split : List (List F) → List (Pd.Cell F) → Py (List Int × Option (Mat F)))
    (Q : List F → Int → Prop)
    (hsplit : ∀ X : List (List F), (∀ r ∈ X, ∃ i < b.stars.length, r = starRow j attrs i ∧
        ∀ x ∈ r, Num.isFinite x = true) → ∀ y,
      ∃ labels, split X y = .ok (labels, none) ∧ labels.length = X.length ∧
        ∀ (p : Nat) (r : List F) (l : Int), X[p]? = some r → labels[p]? = some l → Q r l) :
    ∃ c, decompose env cbins ⟨attrs, starsRowsMask, split⟩ (Galaxy.ofBodies b) = .ok c ∧
      c.labels.length = b.stars.length + b.dm.length + b.gas.length ∧
      (∀ i < b.stars.length, if rowFinite j attrs i then
          ∃ l, c.labels[i]? = some (some l) ∧ Q (starRow j attrs i) l
        else c.labels[i]? = some none) ∧
      (∀ i, b.stars.length ≤ i → i < b.stars.length + b.dm.length + b.gas.length →
        c.labels[i]? = some none) := by
  have hal : CircAligned env cbins b attrs j := circAligned_of_ok hj hz
  set V := b.numbered.filter (validStar j attrs) with hV
  have hnum : b.numbered.length = b.stars.length + b.dm.length + b.gas.length := by
    simp [BGalaxy.numbered]; rw [rows_none_count]; omega
  have hX : ∀ r ∈ V.map (fun ri => attrs.map fun a => (matCell j ri.1 ri.2 a).toNum),
      ∃ i < b.stars.length, r = starRow j attrs i ∧ ∀ x ∈ r, Num.isFinite x = true := by
    intro r hr
    rw [List.mem_map] at hr
    obtain ⟨ri, hri, rfl⟩ := hr
    obtain ⟨hri1, hri2⟩ := List.mem_filter.1 hri
    obtain ⟨i, hi⟩ := List.mem_iff_getElem?.1 hri1
    have hil : i < b.numbered.length := (List.getElem?_eq_some_iff.1 hi).1
    obtain ⟨ri', h1, h2, h3, h4⟩ := validStar_get b j attrs hc i (by omega)
    rw [hi] at h1
    injection h1 with h1
    subst h1
    rw [h3, Bool.and_eq_true, decide_eq_true_eq] at hri2
    refine ⟨i, hri2.1, h4 hri2.1, ?_⟩
    rw [h4 hri2.1]
    exact List.all_eq_true.1 hri2.2
  obtain ⟨labels, hs1, hs2, hs3⟩ := hsplit _ hX (V.map fun _ => .int PType.stars.value)
  have hN : (b.numbered.map (validStar j attrs)).length = (b.rows none).length := by
    simp [BGalaxy.numbered]
  obtain ⟨res, hr1, hr2, hr3, hr4, hr5⟩ := C33_complete_labels (b.rows none).length labels
    (b.numbered.map (validStar j attrs)) hN
    (by rw [hs2, Np.count_map_true]; simp [hV])
  refine ⟨_, decompose_eq env cbins b attrs hne hc j hal split labels res hs1 hr1,
    by simp only; rw [hr2, rows_none_count]; omega, ?_, ?_⟩
  · intro i hi
    obtain ⟨ri, h1, h2, h3, h4⟩ := validStar_get b j attrs hc i (by omega)
    have hm : (b.numbered.map (validStar j attrs))[i]? = some (rowFinite j attrs i) := by
      rw [List.getElem?_map, h1, Option.map_some, h3]
      simp [hi]
    cases hf : rowFinite j attrs i with
    | true =>
      rw [hf] at hm
      obtain ⟨l, hl, hl2⟩ := hr5 i hm
      simp only [if_true]
      refine ⟨l, hl2, hs3 _ _ l ?_ hl⟩
      have hv : validStar j attrs ri = true := by rw [h3, hf]; simp [hi]
      rw [List.getElem?_map, hV, filter_get _ _ i ri h1 hv, Option.map_some, h4 hi]
    | false =>
      rw [hf] at hm
      simp only [Bool.false_eq_true, if_false]
      exact hr4 i hm
  · intro i h1 h2
    apply hr4 i
    obtain ⟨ri, e1, e2, e3, e4⟩ := validStar_get b j attrs hc i h2
    rw [List.getElem?_map, e1, Option.map_some, e3]
    simp [Nat.not_lt.2 h1]

/-- C67: the decomposition of a galaxy by `JEHistogram`.  If `jcirc` succeeds and every star with
finite energy and circularity has a normalized energy below zero, then the decomposition succeeds,
each of these stars has label 0 or 1 — 0 if it is counter-rotating — and nothing else has a label. -/
theorem C67_jehistogram (junk : Nat → Int) (rng : Rng σ) (hr : rng.OK) {nBin digits : Int}
    {edges : List F} {bin0 : Nat} (hh : makeHistogram nBin digits = .ok (edges, bin0))
    (hs : EdgesSorted edges nBin.toNat) (hc : EdgesCover edges nBin.toNat)
    (nBinE : Int) (hnE : 0 < nBinE)
    (hE : EdgesSorted (energyEdges nBinE.toNat : List F) nBinE.toNat) (s : σ)
    (env : CircEnv F) (cbins : F × F) (b : BGalaxy F) (j : JCirc F)
    (hj : jcirc env (Galaxy.ofBodies b) cbins.1 cbins.2 = .ok j)
    (hneg : ∀ (i : Nat) (n e : F), j.normalizedStarEnergy[i]? = some n → j.eps[i]? = some e →
      Num.isFinite n = true → Num.isFinite e = true → (n <. Num.ofRat 0) = true) :
    ∃ c, decompose env cbins (jeHistogram junk rng nBin digits nBinE s) (Galaxy.ofBodies b) = .ok c ∧
      c.labels.length = b.stars.length + b.dm.length + b.gas.length ∧
      (∀ (i : Nat) (n e : F), j.normalizedStarEnergy[i]? = some n → j.eps[i]? = some e →
        if Num.isFinite n ∧ Num.isFinite e then
          ∃ l, c.labels[i]? = some (some l) ∧ (l = 0 ∨ l = 1) ∧ ((e <. Num.ofRat 0) = true → l = 0)
        else c.labels[i]? = some none) ∧
      (∀ i, b.stars.length ≤ i → i < b.stars.length + b.dm.length + b.gas.length →
        c.labels[i]? = some none) := by
  have hl1 : j.normalizedStarEnergy.length = b.stars.length := by
    obtain ⟨_, _, n, _, rfl⟩ := jcirc_inv hj
    simp [circResult]
  have hl2 : j.eps.length = b.stars.length := by
    obtain ⟨_, _, n, _, rfl⟩ := jcirc_inv hj
    simp [circResult]
  have hrow : ∀ i, starRow j ["normalized_star_energy", "eps"] i
      = [j.normalizedStarEnergy.getD i Num.nan, j.eps.getD i Num.nan] := by
    intro i
    simp [starRow, JCirc.attr]
  have hunit : ∀ e ∈ j.eps, Num.isFinite e = true → InUnit e := by
    intro e he hf
    rcases C23_eps_range env b cbins.1 cbins.2 j hj e he with hn | hu
    · rw [NumOrd.finite_not_nan hf] at hn; cases hn
    · exact hu
  have hsplit : ∀ X : List (List F), (∀ r ∈ X, ∃ i < b.stars.length,
      r = starRow j ["normalized_star_energy", "eps"] i ∧ ∀ x ∈ r, Num.isFinite x = true) →
      ∃ labels s', jeHistogramSplit junk rng nBin digits nBinE X s = .ok (labels, s') ∧
        labels.length = X.length ∧
        ∀ (p : Nat) (r : List F) (l : Int), X[p]? = some r → labels[p]? = some l →
          (l = 0 ∨ l = 1) ∧ ((r.getD 1 Num.nan <. Num.ofRat 0) = true → l = 0) := by
    intro X hX
    have hXr : X = (X.map fun r => (r.getD 0 Num.nan, r.getD 1 Num.nan)).map
        fun r => [r.1, r.2] := by
      rw [List.map_map]
      conv_lhs => rw [← List.map_id X]
      apply List.map_congr_left
      intro r hrX
      obtain ⟨i, _, rfl, _⟩ := hX r hrX
      rw [hrow]; rfl
    have hmem : ∀ r ∈ X.map (fun r => (r.getD 0 Num.nan, r.getD 1 Num.nan)),
        InUnit r.2 ∧ (r.1 <. Num.ofRat 0) = true := by
      intro r hrX
      rw [List.mem_map] at hrX
      obtain ⟨r', hr', rfl⟩ := hrX
      obtain ⟨i, hi, rfl, hfin⟩ := hX r' hr'
      rw [hrow] at hfin ⊢
      have g1 : j.normalizedStarEnergy[i]? = some (j.normalizedStarEnergy.getD i Num.nan) := by
        rw [List.getD_eq_getElem?_getD, List.getElem?_eq_getElem (by omega)]; rfl
      have g2 : j.eps[i]? = some (j.eps.getD i Num.nan) := by
        rw [List.getD_eq_getElem?_getD, List.getElem?_eq_getElem (by omega)]; rfl
      have f1 := hfin (j.normalizedStarEnergy.getD i Num.nan) (by simp)
      have f2 := hfin (j.eps.getD i Num.nan) (by simp)
      exact ⟨hunit _ (List.mem_of_getElem? g2) f2, hneg i _ _ g1 g2 f1 f2⟩
    obtain ⟨rows, hrows⟩ : ∃ rows, rows = X.map fun r => (r.getD 0 Num.nan, r.getD 1 Num.nan) :=
      ⟨_, rfl⟩
    rw [← hrows] at hXr hmem
    obtain ⟨labels, s', h1⟩ := C42_returns_partial junk rng hr nBinE hnE hE hh (bin0_pos hh hc)
      rows (fun r h => (hmem r h).2) s
    obtain ⟨h2, h3, h4⟩ := C41_labels junk rng hr nBinE hE hh hs hc
      rows (fun r h => (hmem r h).1) s s' labels h1
    rw [← hXr] at h1
    refine ⟨labels, s', h1, by rw [h2, hrows]; simp, ?_⟩
    intro p r l hp hl
    refine ⟨h3 l (List.mem_of_getElem? hl), ?_⟩
    intro hn
    have := (h4 p (r.getD 0 Num.nan, r.getD 1 Num.nan)
      (by rw [hrows, List.getElem?_map, hp]; rfl)).1 hn
    rw [hl] at this
    exact Option.some.inj this
  obtain ⟨c, c1, c2, c3, c4⟩ := decompose_star_labels env cbins b j hj
    ["normalized_star_energy", "eps"] (by simp) (by decide) (by decide)
    (fun X _ => (jeHistogramSplit junk rng nBin digits nBinE X s).map fun ls => (ls.1, none))
    (fun r l => (l = 0 ∨ l = 1) ∧ ((r.getD 1 Num.nan <. Num.ofRat 0) = true → l = 0)) (by
      intro X hX y
      obtain ⟨labels, s', h1, h2, h3⟩ := hsplit X hX
      exact ⟨labels, by rw [h1]; rfl, h2, h3⟩)
  refine ⟨c, c1, c2, ?_, c4⟩
  intro i n e hn he
  have hi : i < b.stars.length := by
    rw [← hl2]; exact (List.getElem?_eq_some_iff.1 he).1
  have := c3 i hi
  have hfin : rowFinite j ["normalized_star_energy", "eps"] i = (Num.isFinite n && Num.isFinite e) := by
    unfold rowFinite
    rw [hrow, List.getD_eq_getElem?_getD, List.getD_eq_getElem?_getD, hn, he]
    simp
  rw [hfin, hrow] at this
  simp only [List.getD_eq_getElem?_getD, he] at this
  simpa using this

/-- C67: in the decomposition by `JHistogram` every counter-rotating star is in the spheroid. -/
theorem C67_jhistogram (junk : Nat → Int) (rng : Rng σ) (hr : rng.OK) {nBin digits : Int}
    {edges : List F} {bin0 : Nat} (hh : makeHistogram nBin digits = .ok (edges, bin0))
    (hs : EdgesSorted edges nBin.toNat) (hc : EdgesCover edges nBin.toNat) (s : σ)
    (env : CircEnv F) (cbins : F × F) (b : BGalaxy F) (j : JCirc F)
    (hj : jcirc env (Galaxy.ofBodies b) cbins.1 cbins.2 = .ok j) :
    ∃ c, decompose env cbins (jHistogram junk rng nBin digits s) (Galaxy.ofBodies b) = .ok c ∧
      ∀ (i : Nat) (e : F), j.eps[i]? = some e → Num.isFinite e = true →
        ∃ l, c.labels[i]? = some (some l) ∧ (l = 0 ∨ l = 1) ∧
          ((e <. Num.ofRat 0) = true → l = 0) ∧
          (∀ k, 2 * bin0 ≤ k → k < nBin.toNat → (edge edges k <=. e) = true → l = 1) := by
  have hal : CircAligned env cbins b ["eps"] j := circAligned_of_ok hj (by decide)
  have hl2 : j.eps.length = b.stars.length :=
    (hal ⟨"eps", by simp, by decide⟩).2 "eps" (by simp) (by decide)
  have hrow : ∀ i, starRow j ["eps"] i = [j.eps.getD i Num.nan] := by
    intro i; rfl
  obtain ⟨c, c1, c2, c3, c4⟩ := decompose_star_labels env cbins b j hj
    ["eps"] (by simp) (by decide) (by decide)
    (fun X _ => (jHistogramSplit junk rng nBin digits X s).map fun ls => (ls.1, none))
    (fun r l => (l = 0 ∨ l = 1) ∧ ((r.getD 0 Num.nan <. Num.ofRat 0) = true → l = 0) ∧
      (∀ k, 2 * bin0 ≤ k → k < nBin.toNat → (edge edges k <=. r.getD 0 Num.nan) = true → l = 1)) (by
      intro X hX y
      have hXr : X = (X.map fun r => r.getD 0 Num.nan).map fun e => [e] := by
        rw [List.map_map]
        conv_lhs => rw [← List.map_id X]
        apply List.map_congr_left
        intro r hrX
        obtain ⟨i, _, rfl, _⟩ := hX r hrX
        rw [hrow]; rfl
      have hmem : ∀ e ∈ X.map (fun r => r.getD 0 Num.nan), InUnit e := by
        intro e hrX
        rw [List.mem_map] at hrX
        obtain ⟨r', hr', rfl⟩ := hrX
        obtain ⟨i, hi, rfl, hfin⟩ := hX r' hr'
        rw [hrow] at hfin ⊢
        have g2 : j.eps[i]? = some (j.eps.getD i Num.nan) := by
          rw [List.getD_eq_getElem?_getD, List.getElem?_eq_getElem (by omega)]; rfl
        have f2 := hfin (j.eps.getD i Num.nan) (by simp)
        rcases C23_eps_range env b cbins.1 cbins.2 j hj _ (List.mem_of_getElem? g2) with hn | hu
        · rw [NumOrd.finite_not_nan f2] at hn; cases hn
        · exact hu
      obtain ⟨labels, s', h1, h2, h3⟩ := C37_labels junk rng hr hh hs hc _ hmem s
      have h4 := C39_sides junk rng hr hh hs hc _ hmem s s' labels h1
      rw [← hXr] at h1
      refine ⟨labels, by rw [h1]; rfl, by rw [h2]; simp, ?_⟩
      intro p r l hp hl
      obtain ⟨h5, h6⟩ := h4 p (r.getD 0 Num.nan) (by rw [List.getElem?_map, hp]; rfl)
      refine ⟨h3 l (List.mem_of_getElem? hl), ?_, ?_⟩
      · intro hn
        have := h5 hn
        rw [hl] at this
        exact Option.some.inj this
      · intro k hk1 hk2 hk3
        have := h6 k hk1 hk2 hk3
        rw [hl] at this
        exact Option.some.inj this)
  refine ⟨c, c1, ?_⟩
  intro i e he hf
  have hi : i < b.stars.length := by
    rw [← hl2]; exact (List.getElem?_eq_some_iff.1 he).1
  have := c3 i hi
  have hfin : rowFinite j ["eps"] i = true := by
    unfold rowFinite
    rw [hrow, List.getD_eq_getElem?_getD, he]
    simp [hf]
  rw [hfin, hrow] at this
  simp only [List.getD_eq_getElem?_getD, he] at this
  simpa using this

/-! ## exact arithmetic -/

section exact
open Ext
variable {K : Type} [Field K] [LinearOrder K] [IsStrictOrderedRing K] [FloorRing K] [HasSqrt K]

/-- in exact arithmetic the normalized energy of a star is zero only if its energy is -/
theorem normalized_energy_neg (env : CircEnv (Ext K)) (b : BGalaxy (Ext K)) (bin0 bin1 : Ext K)
    (j : JCirc (Ext K)) (hj : jcirc env (Galaxy.ofBodies b) bin0 bin1 = .ok j)
    (h0 : ∀ a ∈ b.stars, (a.energy ==. Num.ofRat 0) = false) (i : Nat) (n : Ext K)
    (hn : j.normalizedStarEnergy[i]? = some n) (hf : Num.isFinite n = true) :
    (n <. Num.ofRat 0) = true := by
  obtain ⟨m, J, R, hm, hJ, hR, hout⟩ := C23_star_outputs env b bin0 bin1 j hj
  have hlen : j.normalizedStarEnergy.length = b.stars.length := by
    obtain ⟨_, _, n, _, rfl⟩ := jcirc_inv hj
    simp [circResult]
  have hi : i < b.stars.length := by
    rw [← hlen]; exact (List.getElem?_eq_some_iff.1 hn).1
  have ha : b.stars[i]? = some b.stars[i] := List.getElem?_eq_getElem hi
  have hmem : b.stars[i] ∈ b.stars := List.getElem_mem hi
  have hne := h0 _ hmem
  generalize b.stars[i] = a at ha hmem hne
  by_cases hu : Unbound a.energy
  · rw [(C24_unbound_nan env b bin0 bin1 j hj i a ha hu).1] at hn
    have hn := Option.some.inj hn
    rw [← hn, NumOrd.nan_not_finite] at hf
    cases hf
  · have hval := hout i a ha hu
    simp only at hval
    replace hval := hval.1
    rw [hn] at hval
    have hval := Option.some.inj hval
    have hbound : isBound a.energy = true := isBound_eq_true.2 hu
    have hbm : a ∈ b.bound := by
      unfold BGalaxy.bound BGalaxy.all
      rw [List.mem_filter]
      exact ⟨by simp [hmem], hbound⟩
    have hfin : ∀ c : Ext K, isBound c = true → ∃ e : K, c = fin e ∧ e ≤ 0 := by
      intro c hc
      unfold isBound at hc
      cases c with
      | fin e =>
        rw [Bool.and_eq_true] at hc
        exact ⟨e, rfl, by simpa using hc.1⟩
      | pinf => revert hc; simp [Num.le, Ext.le]
      | ninf => revert hc; simp [Num.le, Num.eq, Num.ninf, Ext.le, Ext.eq]
      | nan => revert hc; simp [Num.le, Ext.le]
    obtain ⟨e, he, he0⟩ := hfin _ hbound
    obtain ⟨⟨a', ha', rfl⟩, hmin⟩ := hm (by
      intro c hc
      obtain ⟨e, he, _⟩ := hfin _ (List.mem_filter.1 hc).2
      rw [he]; rfl)
    obtain ⟨e', he', _⟩ := hfin _ (List.mem_filter.1 ha').2
    have hle := hmin a hbm
    rw [he'] at hle hval
    rw [he] at hle hne hval
    have hle : e' ≤ e := by simpa using hle
    have hlt : e < 0 := lt_of_le_of_ne he0 (by intro h; rw [h] at hne; simp at hne)
    have habs : (0 : K) < |e'| := abs_pos.2 (by linarith)
    split at hval
    · rw [hval, NumOrd.nan_not_finite] at hf; cases hf
    · rw [hval, num_abs, num_div _ _ habs.ne']
      have : e / |e'| < 0 := div_neg_of_neg_of_pos hlt habs
      simpa using this

/-- C67 in exact arithmetic: for an even number of bins `2m` with enough digits, `JEHistogram`
decomposes every galaxy for which `jcirc` succeeds and no star has energy exactly zero. -/
theorem C67_exact (junk : Nat → Int) (rng : Rng σ) (hr : rng.OK) (m : Nat) (hm : 0 < m) (d : ℤ)
    (hd0 : 0 ≤ d) (hd : (m : K) < 2 * (10 : K) ^ d) (nBinE : Int) (hnE : 0 < nBinE) (s : σ)
    (env : CircEnv (Ext K)) (cbins : Ext K × Ext K) (b : BGalaxy (Ext K)) (j : JCirc (Ext K))
    (hj : jcirc env (Galaxy.ofBodies b) cbins.1 cbins.2 = .ok j)
    (h0 : ∀ a ∈ b.stars, (a.energy ==. Num.ofRat 0) = false) :
    ∃ c, decompose env cbins (jeHistogram junk rng (2 * m : ℤ) d nBinE s) (Galaxy.ofBodies b) = .ok c ∧
      c.labels.length = b.stars.length + b.dm.length + b.gas.length ∧
      (∀ (i : Nat) (n e : Ext K), j.normalizedStarEnergy[i]? = some n → j.eps[i]? = some e →
        if Num.isFinite n ∧ Num.isFinite e then
          ∃ l, c.labels[i]? = some (some l) ∧ (l = 0 ∨ l = 1) ∧ ((e <. Num.ofRat 0) = true → l = 0)
        else c.labels[i]? = some none) ∧
      (∀ i, b.stars.length ≤ i → i < b.stars.length + b.dm.length + b.gas.length →
        c.labels[i]? = some none) := by
  have hn : (0 : ℤ) < 2 * m := by omega
  exact C67_jehistogram junk rng hr (C40_exact_even (K := K) m hm d hd) (exact_sorted _ d hn)
    (exact_cover _ d hn hd0) nBinE hnE (exact_energy_sorted nBinE) s env cbins b j hj
    (fun i n e hin _ hfn _ => normalized_energy_neg env b cbins.1 cbins.2 j hj h0 i n hin hfn)

/-- a galaxy with two co-rotating stars of energy zero -/
def exZeroE : BGalaxy (Ext ℚ) :=
  { exLost with
    stars := [orbit (-1/100) (-49/100), orbit 0 (49/100), orbit 0 (49/100)],
    dm := [orbit (-1) 1, orbit (-1/100) 1, orbit (-1/100) 1, orbit (-1/1000) 1] }

/-- C67 (negation): without the condition the decomposition can fail. -/
theorem C67_counterexample :
    (∃ j, jcirc exEnv (Galaxy.ofBodies exZeroE) (defaultCbin (F := Ext ℚ)).1 defaultCbin.2 = .ok j ∧
      j.normalizedStarEnergy = [q (-1/100), q 0, q 0] ∧ j.eps = [q (-49/100), q (49/100), q (49/100)]) ∧
    decompose exEnv defaultCbin (jeHistogram (fun _ => 99) firstRng 100 2 20 ())
      (Galaxy.ofBodies exZeroE) = .error .valueError := by
  constructor
  · have h : (jcirc exEnv (Galaxy.ofBodies exZeroE) (defaultCbin (F := Ext ℚ)).1 defaultCbin.2).toOption.map
        (fun j => (j.normalizedStarEnergy, j.eps))
        = some ([q (-1/100), q 0, q 0], [q (-49/100), q (49/100), q (49/100)]) := by
      decide +kernel
    cases hj : jcirc exEnv (Galaxy.ofBodies exZeroE) (defaultCbin (F := Ext ℚ)).1 defaultCbin.2 with
    | error e => rw [hj] at h; cases h
    | ok j =>
      rw [hj] at h
      simp only [Except.toOption, Option.map_some, Option.some.injEq, Prod.mk.injEq] at h
      exact ⟨j, rfl, h⟩
  · decide +kernel

/-- C67 on a concrete galaxy: the same one with all energies below zero -/
example : (decompose exEnv defaultCbin (jeHistogram (fun _ => 99) firstRng 100 2 20 ())
      (Galaxy.ofBodies { exZeroE with
        stars := [orbit (-1/100) (-49/100), orbit (-1/50) (49/100), orbit (-1/500) (49/100)] })).toOption.map
      (·.labels) = some [some 0, some 1, some 0, none, none, none, none] := by
  decide +kernel

end exact

end GChop
