import Verif.Props.HistogramExact

/-!
# C41 and C42: `JEHistogram`
-/

set_option linter.unusedSectionVars false

namespace GChop

variable {F : Type} [Num F] {σ : Type}

/-- the energy bin as the selection mask of lines 268-303 uses it: open on the right -/
def halfOpen (edges : List F) (j : Nat) (e : F) : Bool :=
  (edge edges j <=. e) && (e <. edge edges (j + 1))

/-- `min(counter, co)` summed over the energy bins; `counter` counts like `np.histogram` (last bin
closed), `co` like the mask (last bin open) -/
def energySize (edges : List F) (nE : Nat) (energy : Nat → F) (cnt cor : List Nat) : Nat :=
  ((List.range nE).map fun j => min (cnt.filter fun i => inBinI edges nE j (energy i)).length
    (cor.filter fun i => halfOpen edges j (energy i)).length).sum

theorem energyHist_get (edges : List F) (nE : Nat) (energy : Nat → F) (l : List Nat) (j : Nat)
    (hj : j < nE) :
    (energyHist edges nE (l.map energy)).getD j 0
      = (l.filter fun i => inBinI edges nE j (energy i)).length := by
  unfold energyHist
  rw [List.getD_eq_getElem?_getD, List.getElem?_map, List.getElem?_range hj]
  simp only [Option.map_some, Option.getD_some]
  rw [List.filter_map, List.length_map]
  rfl

variable [NumOrd F]

theorem inBin_of_halfOpen {edges : List F} {n j : Nat} {e : F} (h : halfOpen edges j e = true) :
    inBinI edges n j e = true := by
  unfold halfOpen at h
  unfold inBinI
  rw [Bool.and_eq_true] at h ⊢
  refine ⟨h.1, ?_⟩
  split
  · exact le_of_lt' h.2
  · exact h.2

/-- in energy bin `i` the random selection asks for more stars than the mask leaves -/
def TooFew (edges : List F) (nE : Nat) (energy : Nat → F) (cnt cor : List Nat) (i : Nat) : Prop :=
  (cor.filter fun p => halfOpen edges i (energy p)).length <
      (cnt.filter fun p => inBinI edges nE i (energy p)).length ∧
    (cnt.filter fun p => inBinI edges nE i (energy p)).length <
      (cor.filter fun p => inBinI edges nE i (energy p)).length

/-- One pass over the energy bins `j .. j+m-1`. -/
theorem energyLoop_spec (rng : Rng σ) (hr : rng.OK) (edges : List F) (nE : Nat)
    (hs : EdgesSorted edges nE) (energy : Nat → F) (cnt cor : List Nat) (hcor : cor.Nodup)
    (m j : Nat) (hjm : j + m = nE) (aux0 : List Nat) (s : σ) (h1 : aux0.Nodup)
    (h2 : ∀ p ∈ aux0, p ∈ cor) (h3 : ∀ p ∈ aux0, ∃ i < j, halfOpen edges i (energy p) = true) :
    (∃ aux s', energyLoop rng edges energy (energyHist edges nE (cnt.map energy))
        (energyHist edges nE (cor.map energy)) cor (List.range' j m) aux0 s = .ok (aux, s') ∧
      aux.Nodup ∧ (∀ p ∈ aux, p ∈ cor) ∧
      (∀ i, j ≤ i → i < nE → ¬ TooFew edges nE energy cnt cor i) ∧
      aux.length = aux0.length + ((List.range' j m).map fun j =>
        min (cnt.filter fun i => inBinI edges nE j (energy i)).length
          (cor.filter fun i => halfOpen edges j (energy i)).length).sum) ∨
    (energyLoop rng edges energy (energyHist edges nE (cnt.map energy))
        (energyHist edges nE (cor.map energy)) cor (List.range' j m) aux0 s = .error .valueError ∧
      ∃ i < nE, TooFew edges nE energy cnt cor i) := by
  induction m generalizing j aux0 s with
  | zero => exact Or.inl ⟨aux0, s, rfl, h1, h2, by intro i h4 h5; omega, by simp⟩
  | succ m ih =>
    have hj : j < nE := by omega
    have hpos : 0 < nE := by omega
    rw [List.range'_succ]
    simp only [energyLoop]
    rw [energyHist_get edges nE energy cnt j hj, energyHist_get edges nE energy cor j hj]
    have hmask : (cor.filter fun i => (edges.getD j Num.nan <=. energy i) &&
        (energy i <. edges.getD (j + 1) Num.nan)) = cor.filter fun i => halfOpen edges j (energy i) := rfl
    rw [hmask]
    have hle : (cor.filter fun i => halfOpen edges j (energy i)).length
        ≤ (cor.filter fun i => inBinI edges nE j (energy i)).length := by
      apply List.Sublist.length_le
      apply List.monotone_filter_right
      intro p hp
      exact inBin_of_halfOpen hp
    -- adding a part of the masked particles
    have key : ∀ (t : List Nat) (s1 : σ), ¬ TooFew edges nE energy cnt cor j →
        t.Subperm (cor.filter fun i => halfOpen edges j (energy i)) →
        t.length = min (cnt.filter fun i => inBinI edges nE j (energy i)).length
          (cor.filter fun i => halfOpen edges j (energy i)).length →
        (∃ aux s', energyLoop rng edges energy (energyHist edges nE (cnt.map energy))
            (energyHist edges nE (cor.map energy)) cor (List.range' (j + 1) m) (aux0 ++ t) s1
              = .ok (aux, s') ∧
          aux.Nodup ∧ (∀ p ∈ aux, p ∈ cor) ∧
          (∀ i, j ≤ i → i < nE → ¬ TooFew edges nE energy cnt cor i) ∧
          aux.length = aux0.length + ((j :: List.range' (j + 1) m).map fun j =>
            min (cnt.filter fun i => inBinI edges nE j (energy i)).length
              (cor.filter fun i => halfOpen edges j (energy i)).length).sum) ∨
        (energyLoop rng edges energy (energyHist edges nE (cnt.map energy))
            (energyHist edges nE (cor.map energy)) cor (List.range' (j + 1) m) (aux0 ++ t) s1
              = .error .valueError ∧
          ∃ i < nE, TooFew edges nE energy cnt cor i) := by
      intro t s1 hfew ht hlen
      have htm : ∀ p ∈ t, p ∈ cor ∧ halfOpen edges j (energy p) = true := by
        intro p hp
        have := ht.subset hp
        rwa [List.mem_filter] at this
      have htn : t.Nodup := by
        obtain ⟨l, hp, hsub⟩ := ht
        exact hp.nodup_iff.1 (hsub.nodup (hcor.filter _))
      rcases ih (j + 1) (by omega) (aux0 ++ t) s1 (by
          rw [List.nodup_append]
          refine ⟨h1, htn, ?_⟩
          rintro a ha _ hb rfl
          obtain ⟨i, hi, hh⟩ := h3 a ha
          have := hs.unique hpos (by omega) hj (inBin_of_halfOpen hh)
            (inBin_of_halfOpen (htm a hb).2)
          omega) (by
          intro p hp
          rcases List.mem_append.1 hp with h | h
          · exact h2 p h
          · exact (htm p h).1) (by
          intro p hp
          rcases List.mem_append.1 hp with h | h
          · obtain ⟨i, hi, hh⟩ := h3 p h
            exact ⟨i, by omega, hh⟩
          · exact ⟨j, by omega, (htm p h).2⟩) with ⟨aux, s', a1, a2, a3, a5, a4⟩ | h
      · left
        refine ⟨aux, s', a1, a2, a3, ?_, ?_⟩
        · intro i h4 h5
          by_cases hij : i = j
          · rw [hij]; exact hfew
          · exact a5 i (by omega) h5
        rw [a4, List.length_append, hlen, List.map_cons, List.sum_cons]
        omega
      · exact Or.inr h
    by_cases hz : (cnt.filter fun i => inBinI edges nE j (energy i)).length = 0
    · rw [if_neg (by simpa using hz)]
      have := key [] s (by unfold TooFew; omega) (List.nil_subperm) (by simp [hz])
      rwa [List.append_nil] at this
    · rw [if_pos hz]
      by_cases hge : (cnt.filter fun i => inBinI edges nE j (energy i)).length
          ≥ (cor.filter fun i => inBinI edges nE j (energy i)).length
      · rw [if_pos hge]
        exact key _ s (by unfold TooFew; omega) (List.Subperm.refl _) (by omega)
      · rw [if_neg hge]
        unfold Rng.draw
        by_cases hd : (cnt.filter fun i => inBinI edges nE j (energy i)).length
            ≤ (cor.filter fun i => halfOpen edges j (energy i)).length
        · rw [if_pos hd]
          simp only [Py.ok_bind]
          obtain ⟨d1, d2⟩ := hr s _ _ hd
          exact key _ _ (by unfold TooFew; omega) d2 (by omega)
        · rw [if_neg hd]
          exact Or.inr ⟨rfl, j, hj, by unfold TooFew; omega⟩

/-- the selection by energy raises -/
def EnergyFail (edges : List F) (nE : Nat) (energy : Nat → F) (cnt cor : List Nat) : Prop :=
  nE = 0 ∨ ∃ i < nE, TooFew edges nE energy cnt cor i

/-- what `_make_corot_sph` of `JEHistogram` takes from a larger co-rotating bin -/
def EnergyDrawn (edges : List F) (nE : Nat) (energy : Nat → F) (cnt cor sel : List Nat) : Prop :=
  sel.Subperm cor ∧ sel.length = energySize edges nE energy cnt cor ∧
    ¬ EnergyFail edges nE energy cnt cor

/-- the energy edges -/
abbrev energyEdges (nE : Nat) : List F := Np.linspace (Num.ofRat (-1)) (Num.ofRat 0) nE

theorem energySelect_spec (rng : Rng σ) (hr : rng.OK) (nBinE : Int)
    (hs : EdgesSorted (energyEdges nBinE.toNat : List F) nBinE.toNat) (energy : Nat → F)
    (cnt cor : List Nat) (hcor : cor.Nodup) (s : σ) :
    (∃ sel s', energySelect rng nBinE energy cnt cor s = .ok (sel, s') ∧
      EnergyDrawn (energyEdges nBinE.toNat) nBinE.toNat energy cnt cor sel) ∨
    (energySelect rng nBinE energy cnt cor s = .error .valueError ∧
      EnergyFail (energyEdges nBinE.toNat) nBinE.toNat energy cnt cor) := by
  unfold energySelect
  by_cases hn : nBinE ≤ 0
  · rw [if_pos hn]
    exact Or.inr ⟨rfl, Or.inl (by omega)⟩
  · rw [if_neg hn]
    simp only
    rw [List.range_eq_range']
    rcases energyLoop_spec rng hr (energyEdges nBinE.toNat) nBinE.toNat hs energy cnt cor hcor
      nBinE.toNat 0 (by omega) [] s List.nodup_nil (by simp) (by simp) with
      ⟨aux, s', h1, h2, h3, h5, h4⟩ | ⟨h1, i, h2, h3⟩
    · refine Or.inl ⟨aux, s', h1, ?_, ?_, ?_⟩
      · exact List.subperm_of_subset h2 h3
      · rw [h4]
        simp [energySize, List.range_eq_range']
      · rintro (h6 | ⟨i, h6, h7⟩)
        · omega
        · exact h5 i (by omega) h6 h7
    · exact Or.inr ⟨h1, Or.inr ⟨i, h2, h3⟩⟩

/-- at most one member of a family of predicates holds -/
theorem sum_filter_le {α : Type} (L : List α) (n : Nat) (q : Nat → α → Bool)
    (h : ∀ x ∈ L, ∀ j < n, ∀ k < n, q j x = true → q k x = true → j = k) :
    ((List.range n).map fun k => (L.filter (q k)).length).sum ≤ L.length := by
  induction L with
  | nil => simp
  | cons x L ih =>
    have ih := ih fun y hy => h y (by simp [hy])
    have e : ((List.range n).map fun k => ((x :: L).filter (q k)).length)
        = (List.range n).map fun k => (if q k x then 1 else 0) + (L.filter (q k)).length := by
      apply List.map_congr_left
      intro k _
      rw [List.filter_cons]
      split
      · simp; omega
      · simp
    rw [e, List.sum_map_add, List.length_cons]
    have e2 : ((List.range n).map fun k => if q k x = true then 1 else 0).sum ≤ 1 := by
      by_cases hex : ∃ k < n, q k x = true
      · obtain ⟨k, hk, hq⟩ := hex
        have : ((List.range n).map fun k => if q k x = true then 1 else 0)
            = (List.range n).map fun j => if j = k then 1 else 0 := by
          apply List.map_congr_left
          intro j hj
          by_cases hjk : j = k
          · subst hjk; simp [hq]
          · rw [if_neg hjk, if_neg]
            intro hqj
            exact hjk (h x (by simp) j (List.mem_range.1 hj) k hk hqj hq)
        rw [this, sum_range_single, if_pos hk]
      · have : ((List.range n).map fun k => if q k x = true then 1 else 0)
            = (List.range n).map fun _ => 0 := by
          apply List.map_congr_left
          intro j hj
          rw [if_neg]
          intro hq
          exact hex ⟨j, List.mem_range.1 hj, hq⟩
        rw [this]; simp
    omega

theorem energySize_le {edges : List F} {nE : Nat} (hs : EdgesSorted edges nE)
    (energy : Nat → F) (cnt cor : List Nat) : energySize edges nE energy cnt cor ≤ cnt.length := by
  unfold energySize
  refine Nat.le_trans (list_sum_le (g := fun j =>
    (cnt.filter fun i => inBinI edges nE j (energy i)).length) _ fun k _ => Nat.min_le_left _ _) ?_
  rcases Nat.eq_zero_or_pos nE with h | h
  · subst h; simp
  · exact sum_filter_le cnt nE (fun j i => inBinI edges nE j (energy i))
      fun x _ j hj k hk h1 h2 => hs.unique h hj hk h1 h2

/-- The outcome of `JEHistogram.split` on the rows `(energy, eps)`. -/
theorem jeHistogram_outcome (junk : Nat → Int) (rng : Rng σ) (hr : rng.OK) {nBin digits : Int}
    (nBinE : Int) (hE : EdgesSorted (energyEdges nBinE.toNat : List F) nBinE.toNat)
    {edges : List F} {bin0 : Nat} (hh : makeHistogram nBin digits = .ok (edges, bin0))
    (h0 : 0 < bin0) (rows : List (F × F)) (s : σ) :
    (∃ labels s', ∃ S : Nat → List Nat,
      jeHistogramSplit junk rng nBin digits nBinE (rows.map fun r => [r.1, r.2]) s
        = .ok (labels, s') ∧
      labels.length = rows.length ∧
      (∀ i, bin0 ≤ i → i < mirrorEnd nBin.toNat bin0 →
        Taken (EnergyDrawn (energyEdges nBinE.toNat) nBinE.toNat
            fun p => (rows.map Prod.fst).getD p Num.nan)
          (binIds edges nBin.toNat (rows.map Prod.snd) (2 * bin0 - 1 - i))
          (binIds edges nBin.toNat (rows.map Prod.snd) i) (S i)) ∧
      ((∀ i < nBin.toNat, ∀ j < nBin.toNat, ∀ p, p ∈ binIds edges nBin.toNat (rows.map Prod.snd) i →
          p ∈ binIds edges nBin.toNat (rows.map Prod.snd) j → i = j) →
        ∀ k < nBin.toNat, ∀ p ∈ binIds edges nBin.toNat (rows.map Prod.snd) k, labels[p]? =
          some (if k < bin0 ∨ (k < mirrorEnd nBin.toNat bin0 ∧ p ∈ S k) then 0 else 1))) ∨
    (jeHistogramSplit junk rng nBin digits nBinE (rows.map fun r => [r.1, r.2]) s
        = .error .valueError ∧
      ∃ c, c < bin0 ∧ 2 * bin0 - 1 - c < nBin.toNat ∧
        (binIds edges nBin.toNat (rows.map Prod.snd) c).length
          < (binIds edges nBin.toNat (rows.map Prod.snd) (2 * bin0 - 1 - c)).length ∧
        EnergyFail (energyEdges nBinE.toNat) nBinE.toNat
          (fun p => (rows.map Prod.fst).getD p Num.nan)
          (binIds edges nBin.toNat (rows.map Prod.snd) c)
          (binIds edges nBin.toNat (rows.map Prod.snd) (2 * bin0 - 1 - c))) := by
  obtain ⟨hn, hlen, -, hb, -, -⟩ := makeHistogram_inv hh
  have e1 : ((rows.map fun r => [r.1, r.2]).map fun r => r.getD 0 Num.nan) = rows.map Prod.fst := by
    rw [List.map_map]; rfl
  have e2 : ((rows.map fun r => [r.1, r.2]).map fun r => r.getD 1 Num.nan) = rows.map Prod.snd := by
    rw [List.map_map]; rfl
  have hids : ∀ p : F → Bool, Np.take (List.range (rows.map Prod.snd).length)
      (Np.whereIdx ((rows.map Prod.snd).map p)) = Np.whereIdx ((rows.map Prod.snd).map p) := by
    intro p
    apply Np.take_range_ids
    intro i hi
    have := Np.whereIdx_lt hi
    simpa using this
  have htab := makeBins_tab edges nBin.toNat (by omega)
    (fun p => Np.take (List.range (rows.map Prod.snd).length)
      (Np.whereIdx ((rows.map Prod.snd).map p))) (rows.map Prod.snd) hids
  unfold jeHistogramSplit
  simp only [e1, e2]
  rw [hh]
  simp only [Py.ok_bind]
  rcases labelBins_spec junk (energySelect rng nBinE fun p => (rows.map Prod.fst).getD p Num.nan)
    (EnergyDrawn (energyEdges nBinE.toNat) nBinE.toNat fun p => (rows.map Prod.fst).getD p Num.nan)
    (N := (rows.map fun r => [r.1, r.2]).length) htab h0 hb
    (by intro i _ p hp; simpa using binIds_lt hp)
    (by
      intro c _ _ s sel s' h
      rcases energySelect_spec rng hr nBinE hE (fun p => (rows.map Prod.fst).getD p Num.nan)
        (binIds edges nBin.toNat (rows.map Prod.snd) c)
        (binIds edges nBin.toNat (rows.map Prod.snd) (2 * bin0 - 1 - c)) (binIds_nodup _ _ _ _) s with
        ⟨sel', s'', h1, h2⟩ | ⟨h1, _⟩
      · rw [h] at h1
        injection h1 with h1
        injection h1 with h1 _
        rw [h1]; exact h2
      · rw [h] at h1; cases h1)
    (by intro cnt cor sel h p hp; exact h.1.subset hp) s with
    ⟨labels, s', S, h1, h2, h3, h4⟩ | ⟨c, s', e, h1, h2, h3, h4, h5⟩
  · exact Or.inl ⟨labels, s', S, h1, by simpa using h2, h3, h4⟩
  · right
    rcases energySelect_spec rng hr nBinE hE (fun p => (rows.map Prod.fst).getD p Num.nan)
        (binIds edges nBin.toNat (rows.map Prod.snd) c)
        (binIds edges nBin.toNat (rows.map Prod.snd) (2 * bin0 - 1 - c)) (binIds_nodup _ _ _ _) s' with
        ⟨sel', s'', h6, _⟩ | ⟨h6, h7⟩
    · rw [h4] at h6; cases h6
    · rw [h4] at h6
      injection h6 with h6
      subst h6
      exact ⟨h5, c, h1, h2, h3, h7⟩

/-- C41: whenever `JEHistogram.split` returns, every star has label 0 or 1, the stars below the zero
edge are spheroid and the stars in bins without a mirror bin are disk. -/
theorem C41_labels (junk : Nat → Int) (rng : Rng σ) (hr : rng.OK) {nBin digits : Int} (nBinE : Int)
    (hE : EdgesSorted (energyEdges nBinE.toNat : List F) nBinE.toNat)
    {edges : List F} {bin0 : Nat} (hh : makeHistogram nBin digits = .ok (edges, bin0))
    (hs : EdgesSorted edges nBin.toNat) (hc : EdgesCover edges nBin.toNat)
    (rows : List (F × F)) (he : ∀ r ∈ rows, InUnit r.2) (s s' : σ) (labels : List Int)
    (h : jeHistogramSplit junk rng nBin digits nBinE (rows.map fun r => [r.1, r.2]) s
      = .ok (labels, s')) :
    labels.length = rows.length ∧ (∀ l ∈ labels, l = 0 ∨ l = 1) ∧
    ∀ (p : Nat) (r : F × F), rows[p]? = some r →
      ((r.2 <. Num.ofRat 0) = true → labels[p]? = some 0) ∧
      (∀ k, 2 * bin0 ≤ k → k < nBin.toNat → (edge edges k <=. r.2) = true → labels[p]? = some 1) := by
  obtain ⟨hn, -, -, hbn, hz, -⟩ := makeHistogram_inv hh
  have hpos : 0 < nBin.toNat := by omega
  have h0 := bin0_pos hh hc
  rw [NumOrd.eq_def, Bool.and_eq_true] at hz
  rcases jeHistogram_outcome junk rng hr nBinE hE hh h0 rows s with
    ⟨labels', s'', S, h1, h2, h3, h4⟩ | ⟨h1, _⟩
  swap
  · rw [h] at h1; cases h1
  rw [h] at h1
  injection h1 with h1
  injection h1 with h1 _
  subst h1
  have hlab := h4 (hs.binIds_disjoint hpos _)
  have bin : ∀ (p : Nat) (r : F × F), rows[p]? = some r → ∃ k < nBin.toNat,
      inBinI edges nBin.toNat k r.2 = true ∧
      labels[p]? = some (if k < bin0 ∨ (k < mirrorEnd nBin.toNat bin0 ∧ p ∈ S k) then 0 else 1) := by
    intro p r hp
    have hu := he r (List.mem_of_getElem? hp)
    obtain ⟨k, hk, hb⟩ := hs.covers hpos (NumOrd.le_trans hc.1 hu.1) (NumOrd.le_trans hu.2 hc.2)
    exact ⟨k, hk, hb, hlab k hk p (mem_binIds.2 ⟨r.2, by simp [hp], hb⟩)⟩
  refine ⟨h2, ?_, ?_⟩
  · intro l hl
    obtain ⟨p, hp⟩ := List.mem_iff_getElem?.1 hl
    have hlt : p < rows.length := by rw [← h2]; exact (List.getElem?_eq_some_iff.1 hp).1
    obtain ⟨k, _, _, hk⟩ := bin p rows[p] (by simp [hlt])
    rw [hp] at hk
    injection hk with hk
    rw [hk]
    split
    · exact Or.inl rfl
    · exact Or.inr rfl
  · intro p r hp
    obtain ⟨k, hk, hb, hl⟩ := bin p r hp
    have hbk := hb
    unfold inBinI at hbk
    rw [Bool.and_eq_true] at hbk
    constructor
    · intro hlt
      rw [hl, if_pos]
      left
      rcases Nat.lt_or_ge k bin0 with hkb | hkb
      · exact hkb
      · exfalso
        have h5 := hs.le hpos bin0 k hkb (by omega)
        have := lt_of_lt_of_le' hlt (NumOrd.le_trans hz.2 (NumOrd.le_trans h5 hbk.1))
        rw [lt_irrefl'] at this
        cases this
    · intro k' hk' hkn hle
      have hkk : k' ≤ k := by
        rcases Nat.lt_or_ge k k' with hlt | hge
        · exfalso
          rw [if_neg (by omega)] at hbk
          have := lt_of_lt_of_le' hbk.2
            (NumOrd.le_trans (hs.le hpos (k + 1) k' (by omega) (by omega)) hle)
          rw [lt_irrefl'] at this
          cases this
        · exact hge
      rw [hl, if_neg]
      have : mirrorEnd nBin.toNat bin0 ≤ 2 * bin0 := by unfold mirrorEnd; omega
      omega

/-- the rows with circularity in bin `k` -/
def rowsIn (edges : List F) (n k : Nat) (rows : List (F × F)) : List (F × F) :=
  rows.filter fun r => inBinI edges n k r.2

theorem filter_ids (rows : List (F × F)) (P : F → Bool) (Q : F → Bool) :
    ((Np.whereIdx ((rows.map Prod.snd).map P)).filter
      fun p => Q ((rows.map Prod.fst).getD p Num.nan)).length
      = (rows.filter fun r => P r.2 && Q r.1).length := by
  rw [filter_length_eq rows]
  apply List.Perm.length_eq
  apply (List.perm_ext_iff_of_nodup ((Np.whereIdx_nodup _).filter _) (Np.whereIdx_nodup _)).2
  intro p
  rw [List.mem_filter, Np.mem_whereIdx, Np.mem_whereIdx, List.map_map, List.getElem?_map,
    List.getElem?_map, Option.map_eq_some_iff, Option.map_eq_some_iff]
  constructor
  · rintro ⟨⟨r, hr, hP⟩, hQ⟩
    refine ⟨r, hr, ?_⟩
    simp [List.getD_eq_getElem?_getD, hr] at hQ
    simp only [Function.comp_apply] at hP
    rw [hP, hQ]; rfl
  · rintro ⟨r, hr, hPQ⟩
    rw [Bool.and_eq_true] at hPQ
    refine ⟨⟨r, hr, hPQ.1⟩, ?_⟩
    simp [List.getD_eq_getElem?_getD, hr, hPQ.2]

/-- C41: the number of spheroid stars of a mirrored bin `k`: all if the mirror bin has at least as
many stars, otherwise `min(counter, co)` summed over the energy bins; in both cases at most the number
of stars of the mirror bin, and the same for every generator. -/
theorem C41_bin (junk : Nat → Int) (rng : Rng σ) (hr : rng.OK) {nBin digits : Int} (nBinE : Int)
    (hE : EdgesSorted (energyEdges nBinE.toNat : List F) nBinE.toNat)
    {edges : List F} {bin0 : Nat} (hh : makeHistogram nBin digits = .ok (edges, bin0))
    (h0 : 0 < bin0) (hs : EdgesSorted edges nBin.toNat)
    (rows : List (F × F)) (s s' : σ) (labels : List Int)
    (h : jeHistogramSplit junk rng nBin digits nBinE (rows.map fun r => [r.1, r.2]) s
      = .ok (labels, s')) (k : Nat) (hk1 : bin0 ≤ k) (hk2 : k < 2 * bin0) (hk : k < nBin.toNat) :
    let cnt := rowsIn edges nBin.toNat (2 * bin0 - 1 - k) rows
    let cor := rowsIn edges nBin.toNat k rows
    let sph := countLab (rows.map Prod.snd) labels (inBinI edges nBin.toNat k) 0
    sph = (if cor.length ≤ cnt.length then cor.length else
      ((List.range nBinE.toNat).map fun j =>
        min (cnt.filter fun r => inBinI (energyEdges nBinE.toNat) nBinE.toNat j r.1).length
          (cor.filter fun r => halfOpen (energyEdges nBinE.toNat) j r.1).length).sum) ∧
    sph ≤ cnt.length := by
  obtain ⟨hn, -, -, hbn, -, -⟩ := makeHistogram_inv hh
  have hpos : 0 < nBin.toNat := by omega
  rcases jeHistogram_outcome junk rng hr nBinE hE hh h0 rows s with
    ⟨labels', s'', S, h1, h2, h3, h4⟩ | ⟨h1, _⟩
  swap
  · rw [h] at h1; cases h1
  rw [h] at h1
  injection h1 with h1
  injection h1 with h1 _
  subst h1
  simp only
  have hlab := h4 (hs.binIds_disjoint hpos _) k hk
  have hM : k < mirrorEnd nBin.toNat bin0 := by unfold mirrorEnd; omega
  have hlenrows : ∀ i, (binIds edges nBin.toNat (rows.map Prod.snd) i).length
      = (rowsIn edges nBin.toNat i rows).length := by
    intro i
    rw [binIds_length, List.filter_map, List.length_map]
    rfl
  have hsz : energySize (energyEdges nBinE.toNat) nBinE.toNat
      (fun p => (rows.map Prod.fst).getD p Num.nan)
      (binIds edges nBin.toNat (rows.map Prod.snd) (2 * bin0 - 1 - k))
      (binIds edges nBin.toNat (rows.map Prod.snd) k)
      = ((List.range nBinE.toNat).map fun j =>
        min ((rowsIn edges nBin.toNat (2 * bin0 - 1 - k) rows).filter fun r =>
            inBinI (energyEdges nBinE.toNat) nBinE.toNat j r.1).length
          ((rowsIn edges nBin.toNat k rows).filter fun r =>
            halfOpen (energyEdges nBinE.toNat) j r.1).length).sum := by
    unfold energySize binIds rowsIn
    congr 1
    apply List.map_congr_left
    intro j _
    rw [filter_ids rows _ (fun e => inBinI (energyEdges nBinE.toNat) nBinE.toNat j e),
      filter_ids rows _ (fun e => halfOpen (energyEdges nBinE.toNat) j e), List.filter_filter,
      List.filter_filter]
    simp only [Bool.and_comm]
  have ht := h3 k hk1 hM
  have hsub : (S k).Subperm (binIds edges nBin.toNat (rows.map Prod.snd) k) := by
    rcases ht with ⟨_, h5⟩ | ⟨_, h5, _⟩
    · rw [h5]
    · exact h5
  have hcount : countLab (rows.map Prod.snd) labels (inBinI edges nBin.toNat k) 0 = (S k).length := by
    rw [countLab_bin _ hlab, ← filter_mem_length (binIds_nodup _ _ _ _) hsub]
    have : ¬ k < bin0 := by omega
    simp [this, hM]
  rw [hcount]
  have heq : (S k).length = if (rowsIn edges nBin.toNat k rows).length
        ≤ (rowsIn edges nBin.toNat (2 * bin0 - 1 - k) rows).length
      then (rowsIn edges nBin.toNat k rows).length else
      ((List.range nBinE.toNat).map fun j =>
        min ((rowsIn edges nBin.toNat (2 * bin0 - 1 - k) rows).filter fun r =>
            inBinI (energyEdges nBinE.toNat) nBinE.toNat j r.1).length
          ((rowsIn edges nBin.toNat k rows).filter fun r =>
            halfOpen (energyEdges nBinE.toNat) j r.1).length).sum := by
    rcases ht with ⟨h5, h6⟩ | ⟨h5, h6, h7, _⟩
    · rw [hlenrows, hlenrows] at h5
      rw [if_pos h5, h6, hlenrows]
    · rw [hlenrows, hlenrows] at h5
      rw [if_neg (by omega), h7, hsz]
  refine ⟨heq, ?_⟩
  rw [← hlenrows]
  rcases ht with ⟨h5, h6⟩ | ⟨h5, h6, h7, _⟩
  · rw [h6]; exact h5
  · rw [h7]; exact energySize_le hE _ _ _

/-- C42: exactly when `split` fails (given a zero edge that is not the first): when a co-rotating bin
`2*bin0-1-c` has more stars than its mirror bin `c`, and `n_bin_E <= 0` or some energy bin has too
few co-rotating stars below its right edge.  The error is `ValueError`; the generator plays no
part. -/
theorem C42_failure (junk : Nat → Int) (rng : Rng σ) (hr : rng.OK) {nBin digits : Int} (nBinE : Int)
    (hE : EdgesSorted (energyEdges nBinE.toNat : List F) nBinE.toNat)
    {edges : List F} {bin0 : Nat} (hh : makeHistogram nBin digits = .ok (edges, bin0))
    (h0 : 0 < bin0) (rows : List (F × F)) (s : σ) (err : PyErr) :
    jeHistogramSplit junk rng nBin digits nBinE (rows.map fun r => [r.1, r.2]) s = .error err ↔
      err = .valueError ∧ ∃ c, c < bin0 ∧ 2 * bin0 - 1 - c < nBin.toNat ∧
        let cnt := rowsIn edges nBin.toNat c rows
        let cor := rowsIn edges nBin.toNat (2 * bin0 - 1 - c) rows
        cnt.length < cor.length ∧ (nBinE ≤ 0 ∨ ∃ i < nBinE.toNat,
          (cor.filter fun r => halfOpen (energyEdges nBinE.toNat) i r.1).length
            < (cnt.filter fun r => inBinI (energyEdges nBinE.toNat) nBinE.toNat i r.1).length ∧
          (cnt.filter fun r => inBinI (energyEdges nBinE.toNat) nBinE.toNat i r.1).length
            < (cor.filter fun r => inBinI (energyEdges nBinE.toNat) nBinE.toNat i r.1).length) := by
  have hlenrows : ∀ i, (binIds edges nBin.toNat (rows.map Prod.snd) i).length
      = (rowsIn edges nBin.toNat i rows).length := by
    intro i
    rw [binIds_length, List.filter_map, List.length_map]
    rfl
  have hf : ∀ (i : Nat) (Q : F → Bool), ((binIds edges nBin.toNat (rows.map Prod.snd) i).filter
      fun p => Q ((rows.map Prod.fst).getD p Num.nan)).length
      = ((rowsIn edges nBin.toNat i rows).filter fun r => Q r.1).length := by
    intro i Q
    unfold binIds rowsIn
    rw [filter_ids, List.filter_filter]
    simp only [Bool.and_comm]
  have hfail : ∀ c, EnergyFail (energyEdges nBinE.toNat) nBinE.toNat
        (fun p => (rows.map Prod.fst).getD p Num.nan)
        (binIds edges nBin.toNat (rows.map Prod.snd) c)
        (binIds edges nBin.toNat (rows.map Prod.snd) (2 * bin0 - 1 - c)) ↔
      (nBinE ≤ 0 ∨ ∃ i < nBinE.toNat,
        ((rowsIn edges nBin.toNat (2 * bin0 - 1 - c) rows).filter fun r =>
            halfOpen (energyEdges nBinE.toNat) i r.1).length
          < ((rowsIn edges nBin.toNat c rows).filter fun r =>
            inBinI (energyEdges nBinE.toNat) nBinE.toNat i r.1).length ∧
        ((rowsIn edges nBin.toNat c rows).filter fun r =>
            inBinI (energyEdges nBinE.toNat) nBinE.toNat i r.1).length
          < ((rowsIn edges nBin.toNat (2 * bin0 - 1 - c) rows).filter fun r =>
            inBinI (energyEdges nBinE.toNat) nBinE.toNat i r.1).length) := by
    intro c
    unfold EnergyFail TooFew
    constructor
    · rintro (h | ⟨i, hi, h1, h2⟩)
      · left; omega
      · right
        refine ⟨i, hi, ?_⟩
        rw [← hf, ← hf c, ← hf (2 * bin0 - 1 - c)]
        exact ⟨h1, h2⟩
    · rintro (h | ⟨i, hi, h1, h2⟩)
      · left; omega
      · right
        refine ⟨i, hi, ?_⟩
        rw [← hf, ← hf c] at h1
        rw [← hf c, ← hf (2 * bin0 - 1 - c)] at h2
        exact ⟨h1, h2⟩
  rcases jeHistogram_outcome junk rng hr nBinE hE hh h0 rows s with
    ⟨labels, s', S, h1, _, h3, _⟩ | ⟨h1, c, h2, h3, h4, h5⟩
  · rw [h1]
    constructor
    · intro h; cases h
    · rintro ⟨_, c, hc1, hc2, h45⟩
      exfalso
      have hM : 2 * bin0 - 1 - c < mirrorEnd nBin.toNat bin0 := by clear h45; unfold mirrorEnd; omega
      have hge : bin0 ≤ 2 * bin0 - 1 - c := by clear h45; omega
      have ht := h3 (2 * bin0 - 1 - c) hge hM
      obtain ⟨h4, h5⟩ := h45
      rw [show 2 * bin0 - 1 - (2 * bin0 - 1 - c) = c by clear h5; omega] at ht
      rcases ht with ⟨h6, _⟩ | ⟨_, _, _, h6⟩
      · rw [hlenrows, hlenrows] at h6; exact absurd h4 (Nat.not_lt.2 h6)
      · exact h6 ((hfail c).2 h5)
  · rw [h1]
    constructor
    · intro h
      injection h with h
      refine ⟨h.symm, c, h2, h3, ?_, (hfail c).1 h5⟩
      rw [← hlenrows, ← hlenrows]; exact h4
    · rintro ⟨rfl, _⟩; rfl

/-- C42: `split` returns whenever all normalized energies are below 0 and `n_bin_E` is positive. -/
theorem C42_returns_partial (junk : Nat → Int) (rng : Rng σ) (hr : rng.OK) {nBin digits : Int}
    (nBinE : Int) (hnE : 0 < nBinE)
    (hE : EdgesSorted (energyEdges nBinE.toNat : List F) nBinE.toNat)
    {edges : List F} {bin0 : Nat} (hh : makeHistogram nBin digits = .ok (edges, bin0))
    (h0 : 0 < bin0) (rows : List (F × F)) (he : ∀ r ∈ rows, (r.1 <. Num.ofRat 0) = true) (s : σ) :
    ∃ labels s', jeHistogramSplit junk rng nBin digits nBinE (rows.map fun r => [r.1, r.2]) s
      = .ok (labels, s') := by
  cases h : jeHistogramSplit junk rng nBin digits nBinE (rows.map fun r => [r.1, r.2]) s with
  | ok r => exact ⟨r.1, r.2, rfl⟩
  | error e =>
    exfalso
    obtain ⟨_, c, _, _, _, h2 | ⟨i, hi, h3, h4⟩⟩ :=
      (C42_failure junk rng hr nBinE hE hh h0 rows s e).1 h
    · omega
    · apply Nat.lt_irrefl _ (Nat.lt_trans (Nat.lt_of_lt_of_le h4 _) h3)
      apply List.Sublist.length_le
      apply List.Sublist.trans (l₂ := (rowsIn edges nBin.toNat (2 * bin0 - 1 - c) rows).filter
        fun r => halfOpen (energyEdges nBinE.toNat) i r.1)
      swap
      · exact List.Sublist.refl _
      rw [List.filter_congr (q := fun r => halfOpen (energyEdges nBinE.toNat) i r.1)]
      intro r hrm
      have hneg := he r (List.mem_of_mem_filter hrm)
      unfold inBinI halfOpen
      split
      · rename_i hlast
        have hl : edge (energyEdges nBinE.toNat : List F) (i + 1) = Num.ofRat 0 := by
          unfold edge energyEdges Np.linspace
          rw [List.getD_eq_getElem?_getD, List.getElem?_append_right (by simp; omega)]
          rw [show i + 1 = nBinE.toNat by omega]
          simp
        rw [show (energyEdges nBinE.toNat : List F).getD (i + 1) Num.nan = Num.ofRat 0 from hl, hl,
          hneg, le_of_lt' hneg]
      · rfl

section exact
open Ext
variable {K : Type} [Field K] [LinearOrder K] [IsStrictOrderedRing K] [FloorRing K] [HasSqrt K]

theorem energyEdges_get (n : Nat) (hn : 0 < n) (i : Nat) (hi : i ≤ n) :
    edge (energyEdges n : List (Ext K)) i = fin (-1 + (i : K) / n) := by
  have hn' : (n : K) ≠ 0 := by exact_mod_cast hn.ne'
  unfold edge energyEdges Np.linspace
  rw [List.getD_eq_getElem?_getD]
  rcases lt_or_eq_of_le hi with hlt | heq
  · rw [List.getElem?_append_left (by simpa using hlt), List.getElem?_map, List.getElem?_range hlt]
    simp only [Option.map_some, Option.getD_some, num_ofRat, num_sub]
    have h1 : (Num.ofInt (n : ℤ) : Ext K) = fin (n : K) := by simp [Num.ofInt]
    have h2 : (Num.ofInt (i : ℤ) : Ext K) = fin (i : K) := by simp [Num.ofInt]
    rw [h1, h2, num_div _ _ hn', num_mul, num_add]
    congr 1
    push_cast
    field_simp
    ring
  · subst heq
    rw [List.getElem?_append_right (by simp)]
    simp [hn']

/-- in exact arithmetic the energy edges are in order -/
theorem exact_energy_sorted (nBinE : ℤ) :
    EdgesSorted (energyEdges nBinE.toNat : List (Ext K)) nBinE.toNat := by
  intro i hi
  have hn : (0 : K) < nBinE.toNat := by
    have : 0 < nBinE.toNat := by omega
    exact_mod_cast this
  rw [energyEdges_get _ (by omega) i (by omega), energyEdges_get _ (by omega) (i + 1) (by omega)]
  simp only [num_le, decide_eq_true_eq]
  push_cast
  have : (i : K) / nBinE.toNat ≤ ((i : K) + 1) / nBinE.toNat :=
    div_le_div_of_nonneg_right (by linarith) hn.le
  linarith

/-- C42 (negation): three stars with energies in [-1, 0] and circularities in [-1, 1] make `split`
with the default parameters raise `ValueError`: two co-rotating ones with energy 0 and one
counter-rotating one. -/
theorem C42_counterexample :
    (∀ r ∈ ([(-1/100, -49/100), (0, 49/100), (0, 49/100)] : List (ℚ × ℚ)),
      -1 ≤ r.1 ∧ r.1 ≤ 0 ∧ -1 ≤ r.2 ∧ r.2 ≤ 1) ∧
    jeHistogramSplit (fun _ => 99) firstRng 100 2 20
      (([(-1/100, -49/100), (0, 49/100), (0, 49/100)] : List (ℚ × ℚ)).map fun r => [q r.1, q r.2]) ()
      = .error .valueError := by
  constructor
  · decide +kernel
  · decide +kernel

/-- C42 (negation): these stars fail with every generator, state and memory content, because the
condition of `C42_failure` does not mention them. -/
theorem C42_counterexample_all (junk : Nat → Int) (rng : Rng σ) (hr : rng.OK) (s : σ) :
    jeHistogramSplit junk rng 100 2 20
      (([(-1/100, -49/100), (0, 49/100), (0, 49/100)] : List (ℚ × ℚ)).map fun r => [q r.1, q r.2]) s
      = .error .valueError := by
  have hh := C40_exact_even (K := ℚ) 50 (by norm_num) 2 (by norm_num)
  have hX : (([(-1/100, -49/100), (0, 49/100), (0, 49/100)] : List (ℚ × ℚ)).map
      fun r => [q r.1, q r.2]) = (([(-1/100, -49/100), (0, 49/100), (0, 49/100)] : List (ℚ × ℚ)).map
      fun r => (q r.1, q r.2)).map fun r => [r.1, r.2] := rfl
  have hfail := (C42_failure (fun _ => 99) firstRng firstRng_ok 20 (exact_energy_sorted (K := ℚ) 20)
    hh (by norm_num) _ () .valueError).1 (hX ▸ C42_counterexample.2)
  rw [hX]
  exact (C42_failure junk rng hr 20 (exact_energy_sorted (K := ℚ) 20)
    hh (by norm_num) _ s .valueError).2 hfail

/-- and one marginally bound star can be dropped to the disk although its mirror bin has a star -/
example : (jeHistogramSplit (fun _ => 99) firstRng 100 2 20
      [[q (-1/100), q (-49/100)], [q 0, q (49/100)], [q (-1/2), q (49/100)]] ()).map (·.1)
    = .ok [0, 1, 1] := by decide +kernel
example : (jeHistogramSplit (fun _ => 99) firstRng 4 2 2
      [[q (-1/4), q (-3/4)], [q (-1/4), q (3/4)], [q (-1/3), q (3/4)], [q (-3/4), q (3/4)]] ()).map (·.1)
    = .ok [0, 0, 1, 1] := by decide +kernel
example : (jeHistogramSplit (fun _ => 99) lastRng 4 2 2
      [[q (-1/4), q (-3/4)], [q (-1/4), q (3/4)], [q (-1/3), q (3/4)], [q (-3/4), q (3/4)]] ()).map (·.1)
    = .ok [0, 1, 0, 1] := by decide +kernel

end exact

end GChop
