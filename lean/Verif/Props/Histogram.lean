import Verif.Lemmas.Histogram

/-!
# C37 – C40: `JHistogram`

`EdgesSorted` and the position of the end edges are hypotheses for general numbers; they are proved
for exact arithmetic in `Props/HistogramExact.lean`.
-/

set_option linter.unusedSectionVars false

namespace GChop

variable {F : Type} [Num F] {σ : Type}

/-- what `Generator.choice` returns -/
def Drawn (cnt cor sel : List Nat) : Prop := sel.length = cnt.length ∧ sel.Subperm cor

theorem draw_spec (rng : Rng σ) (hr : rng.OK) {cnt cor sel : List Nat} {s s' : σ}
    (h : rng.draw s cor cnt.length = .ok (sel, s')) : Drawn cnt cor sel := by
  unfold Rng.draw at h
  split at h
  · rename_i hle
    injection h with h
    have := hr s cor cnt.length hle
    rw [h] at this
    exact this
  · cases h

/-- the edges and zero bin that `_make_histogram` returns -/
theorem makeHistogram_inv {nBin digits : Int} {edges : List F} {bin0 : Nat}
    (h : makeHistogram nBin digits = .ok (edges, bin0)) :
    0 < nBin ∧ edges.length = nBin.toNat + 1 ∧
      edges = (Np.linspace (Num.ofRat (-1)) (Num.ofRat 1) nBin.toNat).map (Num.roundDec digits) ∧
      bin0 ≤ nBin.toNat ∧ (edge edges bin0 ==. Num.ofRat 0) = true ∧
      ∀ i < bin0, (edge edges i ==. Num.ofRat 0) = false := by
  unfold makeHistogram at h
  split at h
  · cases h
  · rename_i hn
    simp only at h
    split at h
    · rename_i b hb
      injection h with h
      injection h with h1 h2
      subst h2
      have hlen : edges.length = nBin.toNat + 1 := by rw [← h1]; simp [Np.linspace]
      rw [h1] at hb
      obtain ⟨rest, hcons⟩ : ∃ rest, Np.whereIdx (edges.map fun e => e ==. Num.ofRat 0) = b :: rest := by
        cases hw : Np.whereIdx (edges.map fun e => e ==. Num.ofRat 0) with
        | nil => rw [hw] at hb; simp at hb
        | cons x l => rw [hw] at hb; simp at hb; exact ⟨l, by rw [hb]⟩
      have hmem : b ∈ Np.whereIdx (edges.map fun e => e ==. Num.ofRat 0) := by rw [hcons]; simp
      have hblt := Np.whereIdx_lt hmem
      rw [List.length_map, hlen] at hblt
      have hget : ∀ i, (edges.map fun e => e ==. Num.ofRat 0)[i]? = some true ↔
          i < edges.length ∧ (edge edges i ==. Num.ofRat 0) = true := by
        intro i
        rw [List.getElem?_map, Option.map_eq_some_iff]
        constructor
        · rintro ⟨e, he, hz⟩
          have hi := (List.getElem?_eq_some_iff.1 he).1
          refine ⟨hi, ?_⟩
          have : edge edges i = e := by simp [edge, he]
          rw [this]; exact hz
        · rintro ⟨hi, hz⟩
          refine ⟨edges[i], by simp [hi], ?_⟩
          have : edge edges i = edges[i] := by simp [edge, hi]
          rw [← this]; exact hz
      refine ⟨by omega, hlen, h1.symm, by omega, ((hget b).1 (Np.mem_whereIdx.1 hmem)).2, ?_⟩
      intro i hi
      cases hz : (edge edges i ==. Num.ofRat 0) with
      | false => rfl
      | true =>
        exfalso
        have hm : i ∈ Np.whereIdx (edges.map fun e => e ==. Num.ofRat 0) :=
          Np.mem_whereIdx.2 ((hget i).2 ⟨by omega, hz⟩)
        have hsorted : (Np.whereIdx (edges.map fun e => e ==. Num.ofRat 0)).Pairwise (· < ·) := by
          unfold Np.whereIdx
          exact List.Pairwise.filter _ List.pairwise_lt_range
        rw [hcons] at hm hsorted
        rcases List.mem_cons.1 hm with rfl | hm
        · omega
        · have := List.rel_of_pairwise_cons hsorted hm
          omega
    · cases h

/-- the two ways in which `_make_histogram` fails -/
theorem makeHistogram_error {nBin digits : Int} {e : PyErr}
    (h : makeHistogram (F := F) nBin digits = .error e) :
    (nBin ≤ 0 ∧ e = .valueError) ∨ (0 < nBin ∧ e = .indexError ∧
      ∀ x ∈ (Np.linspace (Num.ofRat (-1)) (Num.ofRat 1 : F) nBin.toNat).map (Num.roundDec digits),
        (x ==. Num.ofRat 0) = false) := by
  unfold makeHistogram at h
  split at h
  · rename_i hn
    injection h with h
    exact Or.inl ⟨hn, h.symm⟩
  · rename_i hn
    simp only at h
    split at h
    · cases h
    · rename_i hnone
      injection h with h
      refine Or.inr ⟨by omega, h.symm, ?_⟩
      intro x hx
      cases hz : (x ==. Num.ofRat 0) with
      | false => rfl
      | true =>
        exfalso
        rw [List.head?_eq_none_iff] at hnone
        obtain ⟨i, hi⟩ := List.mem_iff_getElem?.1 hx
        have : i ∈ Np.whereIdx (((Np.linspace (Num.ofRat (-1)) (Num.ofRat 1 : F) nBin.toNat).map
            (Num.roundDec digits)).map fun e => e ==. Num.ofRat 0) := by
          rw [Np.mem_whereIdx, List.getElem?_map, hi]
          simp [hz]
        rw [hnone] at this
        simp at this

theorem jIds (eps : List F) (p : F → Bool) :
    Np.take (List.range (eps.map fun e => [e]).length)
      (Np.where2 ((eps.map fun e => [e]).map fun r => r.map p)) = Np.whereIdx (eps.map p) := by
  have w : Np.where2 ((eps.map fun e => [e]).map fun r => r.map p) = Np.whereIdx (eps.map p) := by
    rw [List.map_map, ← Np.where2_single (eps.map p), List.map_map]
    rfl
  rw [w, Np.take_range_ids]
  intro i hi
  have := Np.whereIdx_lt hi
  simpa using this

/-- The outcome of `JHistogram.split` when there is a zero edge that is not the first one: bin `k`
gets label 0 below the zero edge, and in the mirrored bins exactly for the members of `S k`. -/
theorem jHistogram_outcome (junk : Nat → Int) (rng : Rng σ) (hr : rng.OK) {nBin digits : Int}
    {edges : List F} {bin0 : Nat} (hh : makeHistogram nBin digits = .ok (edges, bin0))
    (h0 : 0 < bin0) (eps : List F) (s : σ) :
    ∃ labels s', ∃ S : Nat → List Nat,
      jHistogramSplit junk rng nBin digits (eps.map fun e => [e]) s = .ok (labels, s') ∧
      labels.length = eps.length ∧
      (∀ i, bin0 ≤ i → i < mirrorEnd nBin.toNat bin0 →
        Taken Drawn (binIds edges nBin.toNat eps (2 * bin0 - 1 - i)) (binIds edges nBin.toNat eps i)
          (S i)) ∧
      ((∀ i < nBin.toNat, ∀ j < nBin.toNat, ∀ p, p ∈ binIds edges nBin.toNat eps i →
          p ∈ binIds edges nBin.toNat eps j → i = j) →
        ∀ k < nBin.toNat, ∀ p ∈ binIds edges nBin.toNat eps k, labels[p]? =
          some (if k < bin0 ∨ (k < mirrorEnd nBin.toNat bin0 ∧ p ∈ S k) then 0 else 1)) := by
  obtain ⟨hn, hlen, -, hb, -, -⟩ := makeHistogram_inv hh
  have htab := makeBins_tab edges nBin.toNat (by omega)
    (fun p => Np.take (List.range (eps.map fun e => [e]).length)
      (Np.where2 ((eps.map fun e => [e]).map fun r => r.map p))) eps (jIds eps)
  unfold jHistogramSplit
  rw [hh]
  simp only [Py.ok_bind]
  rcases labelBins_spec junk (fun cnt cor s => rng.draw s cor cnt.length) Drawn
    (N := (eps.map fun e => [e]).length) htab h0 hb
    (by intro i _ p hp; simpa using binIds_lt hp)
    (by intro c _ _ s sel s' h; exact draw_spec rng hr h)
    (by intro cnt cor sel h p hp; exact h.2.subset hp) s with
    ⟨labels, s', S, h1, h2, h3, h4⟩ | ⟨c, s', e, h1, h2, h3, h4, h5⟩
  · exact ⟨labels, s', S, h1, by simpa using h2, h3, h4⟩
  · exfalso
    simp only [Rng.draw] at h4
    rw [if_pos (by omega)] at h4
    cases h4

/-- the end edges enclose [-1, 1] -/
def EdgesCover (edges : List F) (n : Nat) : Prop :=
  (edge edges 0 <=. Num.ofRat (-1)) = true ∧ (Num.ofRat 1 <=. edge edges n) = true

/-- eps is in [-1, 1] -/
def InUnit (e : F) : Prop := (Num.ofRat (-1) <=. e) = true ∧ (e <=. Num.ofRat 1) = true

variable [NumOrd F]

theorem bin0_pos {nBin digits : Int} {edges : List F} {bin0 : Nat}
    (hh : makeHistogram nBin digits = .ok (edges, bin0)) (hc : EdgesCover edges nBin.toNat) :
    0 < bin0 := by
  obtain ⟨hn, hlen, -, hb, hz, -⟩ := makeHistogram_inv hh
  rcases Nat.eq_zero_or_pos bin0 with h | h
  · subst h
    exfalso
    rw [NumOrd.eq_def, Bool.and_eq_true] at hz
    have := lt_of_le_of_lt' (NumOrd.le_trans hz.2 hc.1) (NumOrd.neg_one_lt_zero (F := F))
    rw [lt_irrefl'] at this
    cases this
  · exact h

/-- C37: `split` returns for every generator, and every star gets label 0 or 1 (not uninitialised
memory). -/
theorem C37_labels (junk : Nat → Int) (rng : Rng σ) (hr : rng.OK) {nBin digits : Int}
    {edges : List F} {bin0 : Nat} (hh : makeHistogram nBin digits = .ok (edges, bin0))
    (hs : EdgesSorted edges nBin.toNat) (hc : EdgesCover edges nBin.toNat)
    (eps : List F) (he : ∀ e ∈ eps, InUnit e) (s : σ) :
    ∃ labels s', jHistogramSplit junk rng nBin digits (eps.map fun e => [e]) s = .ok (labels, s') ∧
      labels.length = eps.length ∧ ∀ l ∈ labels, l = 0 ∨ l = 1 := by
  obtain ⟨hn, -⟩ := makeHistogram_inv hh
  have hpos : 0 < nBin.toNat := by omega
  obtain ⟨labels, s', S, h1, h2, h3, h4⟩ :=
    jHistogram_outcome junk rng hr hh (bin0_pos hh hc) eps s
  refine ⟨labels, s', h1, h2, ?_⟩
  intro l hl
  obtain ⟨p, hp⟩ := List.mem_iff_getElem?.1 hl
  have hlt : p < eps.length := by rw [← h2]; exact (List.getElem?_eq_some_iff.1 hp).1
  have hu := he eps[p] (List.getElem_mem hlt)
  obtain ⟨k, hk, hb⟩ := hs.covers hpos (NumOrd.le_trans hc.1 hu.1) (NumOrd.le_trans hu.2 hc.2)
  have := h4 (hs.binIds_disjoint hpos eps) k hk p (mem_binIds.2 ⟨eps[p], by simp [hlt], hb⟩)
  rw [hp] at this
  injection this with this
  rw [this]
  split
  · exact Or.inl rfl
  · exact Or.inr rfl

/-- C39: below the zero edge every star is spheroid; in a bin whose mirror image is below -1
(`k >= 2*bin0`) every star is disk. -/
theorem C39_sides (junk : Nat → Int) (rng : Rng σ) (hr : rng.OK) {nBin digits : Int}
    {edges : List F} {bin0 : Nat} (hh : makeHistogram nBin digits = .ok (edges, bin0))
    (hs : EdgesSorted edges nBin.toNat) (hc : EdgesCover edges nBin.toNat)
    (eps : List F) (he : ∀ e ∈ eps, InUnit e) (s s' : σ) (labels : List Int)
    (h : jHistogramSplit junk rng nBin digits (eps.map fun e => [e]) s = .ok (labels, s'))
    (p : Nat) (e : F) (hp : eps[p]? = some e) :
    ((e <. Num.ofRat 0) = true → labels[p]? = some 0) ∧
    (∀ k, 2 * bin0 ≤ k → k < nBin.toNat → (edge edges k <=. e) = true → labels[p]? = some 1) := by
  obtain ⟨hn, -, -, hbn, hz, -⟩ := makeHistogram_inv hh
  have hpos : 0 < nBin.toNat := by omega
  obtain ⟨labels', s'', S, h1, h2, h3, h4⟩ :=
    jHistogram_outcome junk rng hr hh (bin0_pos hh hc) eps s
  rw [h] at h1
  injection h1 with h1
  injection h1 with h1 _
  subst h1
  have hu := he e (List.mem_of_getElem? hp)
  obtain ⟨k, hk, hb⟩ := hs.covers hpos (NumOrd.le_trans hc.1 hu.1) (NumOrd.le_trans hu.2 hc.2)
  have hlab := h4 (hs.binIds_disjoint hpos eps) k hk p (mem_binIds.2 ⟨e, hp, hb⟩)
  have hbk := hb
  unfold inBinI at hbk
  rw [Bool.and_eq_true] at hbk
  rw [NumOrd.eq_def, Bool.and_eq_true] at hz
  constructor
  · intro hlt
    rw [hlab, if_pos]
    left
    rcases Nat.lt_or_ge k bin0 with hkb | hkb
    · exact hkb
    · exfalso
      have h5 := hs.le hpos bin0 k hkb (by omega)
      have := lt_of_lt_of_le' hlt (NumOrd.le_trans hz.2 (NumOrd.le_trans h5 hbk.1))
      rw [lt_irrefl'] at this
      cases this
  · intro k' hk' hkn hle
    have hkk : k' ≤ k := by
      rcases Nat.lt_or_ge k k' with hlt | hge
      · exfalso
        rw [if_neg (by omega)] at hbk
        have := lt_of_lt_of_le' hbk.2 (NumOrd.le_trans (hs.le hpos (k + 1) k' (by omega) (by omega)) hle)
        rw [lt_irrefl'] at this
        cases this
      · exact hge
    rw [hlab, if_neg]
    have : mirrorEnd nBin.toNat bin0 ≤ 2 * bin0 := by unfold mirrorEnd; omega
    have := bin0_pos hh hc
    omega

/-- the number of stars with a given property and label -/
def countLab (eps : List F) (labels : List Int) (P : F → Bool) (l : Int) : Nat :=
  ((eps.zip labels).filter fun el => P el.1 && el.2 == l).length

theorem filter_length_eq {α : Type} (L : List α) (f : α → Bool) :
    (L.filter f).length = (Np.whereIdx (L.map f)).length := by
  rw [Np.whereIdx_length, Np.count_map_true]

theorem Taken.length {cnt cor sel : List Nat} (h : Taken Drawn cnt cor sel) :
    sel.length = min cnt.length cor.length ∧ sel.Subperm cor := by
  rcases h with ⟨h1, rfl⟩ | ⟨h1, h2, h3⟩
  · exact ⟨by omega, List.Subperm.refl _⟩
  · exact ⟨by omega, h3⟩

/-- the number of stars of bin `k` with label 0 is the number of selected ones -/
theorem countLab_bin {eps : List F} {labels : List Int} {edges : List F} {n k : Nat}
    (Z : Nat → Prop) [DecidablePred Z]
    (hlab : ∀ p ∈ binIds edges n eps k, labels[p]? = some (if Z p then 0 else 1)) :
    countLab eps labels (inBinI edges n k) 0 = ((binIds edges n eps k).filter fun p => Z p).length := by
  unfold countLab
  rw [filter_length_eq]
  apply List.Perm.length_eq
  apply (List.perm_ext_iff_of_nodup (Np.whereIdx_nodup _) ((binIds_nodup _ _ _ _).filter _)).2
  intro p
  rw [Np.mem_whereIdx, List.mem_filter, List.getElem?_map, Option.map_eq_some_iff]
  constructor
  · rintro ⟨⟨e, l⟩, hz, hb⟩
    rw [List.getElem?_zip_eq_some] at hz
    rw [Bool.and_eq_true] at hb
    have hm : p ∈ binIds edges n eps k := mem_binIds.2 ⟨e, hz.1, hb.1⟩
    refine ⟨hm, ?_⟩
    have := hlab p hm
    have hl0 : l = 0 := by simpa using hb.2
    simp only at hz
    rw [hz.2, hl0] at this
    by_contra hc
    rw [decide_eq_true_eq] at hc
    rw [if_neg hc] at this
    simp at this
  · rintro ⟨hm, hz⟩
    obtain ⟨e, he, hb⟩ := mem_binIds.1 hm
    refine ⟨(e, 0), ?_, ?_⟩
    · rw [List.getElem?_zip_eq_some]
      refine ⟨he, ?_⟩
      have := hlab p hm
      rw [decide_eq_true_eq] at hz
      rw [if_pos hz] at this
      exact this
    · simp [hb]

theorem filter_mem_length {B S : List Nat} (hB : B.Nodup) (h : S.Subperm B) :
    (B.filter fun p => p ∈ S).length = S.length := by
  apply List.Perm.length_eq
  have hS : S.Nodup := by
    obtain ⟨l, hp, hs⟩ := h
    exact hp.nodup_iff.1 (hs.nodup hB)
  apply (List.perm_ext_iff_of_nodup (hB.filter _) hS).2
  intro p
  simp only [List.mem_filter, decide_eq_true_eq]
  exact ⟨fun h => h.2, fun hp => ⟨h.subset hp, hp⟩⟩

/-- C38: how many stars of bin `k` are spheroid: all below the zero edge, `min(counter, co)` in a
mirrored bin, none beyond. -/
theorem C38_bin (junk : Nat → Int) (rng : Rng σ) (hr : rng.OK) {nBin digits : Int}
    {edges : List F} {bin0 : Nat} (hh : makeHistogram nBin digits = .ok (edges, bin0))
    (h0 : 0 < bin0) (hs : EdgesSorted edges nBin.toNat) (eps : List F) (s s' : σ) (labels : List Int)
    (h : jHistogramSplit junk rng nBin digits (eps.map fun e => [e]) s = .ok (labels, s'))
    (k : Nat) (hk : k < nBin.toNat) :
    countLab eps labels (inBinI edges nBin.toNat k) 0 =
      if k < bin0 then (eps.filter (inBinI edges nBin.toNat k)).length
      else if k < 2 * bin0 then min (eps.filter (inBinI edges nBin.toNat (2 * bin0 - 1 - k))).length
        (eps.filter (inBinI edges nBin.toNat k)).length
      else 0 := by
  obtain ⟨hn, -, -, hbn, -, -⟩ := makeHistogram_inv hh
  have hpos : 0 < nBin.toNat := by omega
  obtain ⟨labels', s'', S, h1, h2, h3, h4⟩ := jHistogram_outcome junk rng hr hh h0 eps s
  rw [h] at h1
  injection h1 with h1
  injection h1 with h1 _
  subst h1
  have hlab := h4 (hs.binIds_disjoint hpos eps) k hk
  rw [countLab_bin _ hlab, ← binIds_length, ← binIds_length]
  by_cases hkb : k < bin0
  · rw [if_pos hkb]
    simp [hkb]
  · rw [if_neg hkb]
    by_cases hkM : k < 2 * bin0
    · rw [if_pos hkM]
      have hM : k < mirrorEnd nBin.toNat bin0 := by unfold mirrorEnd; omega
      have ht := (h3 k (by omega) hM).length
      rw [← ht.1, ← filter_mem_length (binIds_nodup _ _ _ _) ht.2]
      simp [hkb, hM]
    · rw [if_neg hkM]
      have hM : ¬ k < mirrorEnd nBin.toNat bin0 := by unfold mirrorEnd; omega
      simp [hkb, hM]

theorem sum_range_single (n k a : Nat) :
    ((List.range n).map fun j => if j = k then a else 0).sum = if k < n then a else 0 := by
  induction n with
  | zero => rfl
  | succ n ih =>
    rw [List.range_succ, List.map_append, List.sum_append, ih]
    by_cases h : n = k
    · subst h; simp
    · by_cases h2 : k < n
      · rw [if_pos h2, if_pos (by omega)]; simp [h]
      · rw [if_neg h2, if_neg (by omega)]; simp [h]

/-- splitting a count over a family of predicates of which exactly one holds -/
theorem length_filter_partition {α : Type} (L : List α) (f : α → Bool) (n : Nat) (q : Nat → α → Bool)
    (h : ∀ x ∈ L, ∃ k < n, q k x = true ∧ ∀ j < n, q j x = true → j = k) :
    (L.filter f).length = ((List.range n).map fun k => (L.filter fun x => q k x && f x).length).sum := by
  induction L with
  | nil => simp
  | cons x L ih =>
    obtain ⟨k, hk, hq, hu⟩ := h x (by simp)
    have ih := ih fun y hy => h y (by simp [hy])
    have e : ((List.range n).map fun k => ((x :: L).filter fun x => q k x && f x).length)
        = (List.range n).map fun k => (if q k x && f x then 1 else 0)
            + (L.filter fun x => q k x && f x).length := by
      apply List.map_congr_left
      intro k _
      rw [List.filter_cons]
      split
      · simp; omega
      · simp
    rw [e, List.sum_map_add, ← ih, List.filter_cons]
    have e2 : ((List.range n).map fun k => if (q k x && f x) = true then 1 else 0).sum
        = if f x = true then 1 else 0 := by
      have : ((List.range n).map fun k => if (q k x && f x) = true then 1 else 0)
          = (List.range n).map fun j => if j = k then (if f x = true then 1 else 0) else 0 := by
        apply List.map_congr_left
        intro j hj
        by_cases hjk : j = k
        · subst hjk; simp [hq]
        · have : q j x = false := by
            cases hqj : q j x with
            | false => rfl
            | true => exact (hjk (hu j (List.mem_range.1 hj) hqj)).elim
          simp [this, hjk]
      rw [this, sum_range_single, if_pos hk]
    rw [e2]
    split
    · simp; omega
    · simp

/-- the spheroid mass predicted by the histogram alone -/
def sphSize (edges : List F) (n bin0 : Nat) (eps : List F) : Nat :=
  ((List.range n).map fun k =>
    if k < bin0 then (eps.filter (inBinI edges n k)).length
    else if k < 2 * bin0 then min (eps.filter (inBinI edges n (2 * bin0 - 1 - k))).length
      (eps.filter (inBinI edges n k)).length
    else 0).sum

theorem count_eq_zip (eps : List F) (labels : List Int) (h : labels.length = eps.length) :
    labels.count 0 = ((eps.zip labels).filter fun el => el.2 == 0).length := by
  have : labels = (eps.zip labels).map Prod.snd := by
    rw [List.map_snd_zip]; omega
  rw [← List.countP_eq_length_filter]
  conv_lhs => rw [this]
  rw [List.count, List.countP_map]
  rfl

/-- C38: the number of spheroid stars is a function of the histogram: the same for all generators,
all their states and all contents of the uninitialised memory. -/
theorem C38_total (junk : Nat → Int) (rng : Rng σ) (hr : rng.OK) {nBin digits : Int}
    {edges : List F} {bin0 : Nat} (hh : makeHistogram nBin digits = .ok (edges, bin0))
    (hs : EdgesSorted edges nBin.toNat) (hc : EdgesCover edges nBin.toNat)
    (eps : List F) (he : ∀ e ∈ eps, InUnit e) (s s' : σ) (labels : List Int)
    (h : jHistogramSplit junk rng nBin digits (eps.map fun e => [e]) s = .ok (labels, s')) :
    labels.count 0 = sphSize edges nBin.toNat bin0 eps ∧
    labels.count 1 = eps.length - sphSize edges nBin.toNat bin0 eps := by
  obtain ⟨hn, -⟩ := makeHistogram_inv hh
  have hpos : 0 < nBin.toNat := by omega
  have h0 := bin0_pos hh hc
  obtain ⟨labels', s'', h1, h2, h3⟩ := C37_labels junk rng hr hh hs hc eps he s
  rw [h] at h1
  injection h1 with h1
  injection h1 with h1 _
  subst h1
  have hz : labels.count 0 = sphSize edges nBin.toNat bin0 eps := by
    rw [count_eq_zip eps labels h2, length_filter_partition _ _ nBin.toNat
      (fun k el => inBinI edges nBin.toNat k el.1)]
    · unfold sphSize
      congr 1
      apply List.map_congr_left
      intro k hk
      exact C38_bin junk rng hr hh h0 hs eps s s' labels h k (List.mem_range.1 hk)
    · intro x hx
      have hx1 : x.1 ∈ eps := (List.of_mem_zip hx).1
      have hu := he x.1 hx1
      obtain ⟨k, hk, hb⟩ := hs.covers hpos (NumOrd.le_trans hc.1 hu.1) (NumOrd.le_trans hu.2 hc.2)
      exact ⟨k, hk, hb, fun j hj hb' => hs.unique hpos hj hk hb' hb⟩
  refine ⟨hz, ?_⟩
  have htot : labels.count 0 + labels.count 1 = labels.length := by
    clear h h2 hz
    induction labels with
    | nil => rfl
    | cons l ls ih =>
      have := ih fun x hx => h3 x (by simp [hx])
      rcases h3 l (by simp) with rfl | rfl
      · simp; omega
      · simp; omega
  omega

/-- C38: seed independence. -/
theorem C38_seed_independent {τ : Type} (junk₁ junk₂ : Nat → Int) (rng₁ : Rng σ) (rng₂ : Rng τ)
    (hr₁ : rng₁.OK) (hr₂ : rng₂.OK) {nBin digits : Int}
    {edges : List F} {bin0 : Nat} (hh : makeHistogram nBin digits = .ok (edges, bin0))
    (hs : EdgesSorted edges nBin.toNat) (hc : EdgesCover edges nBin.toNat)
    (eps : List F) (he : ∀ e ∈ eps, InUnit e) (s₁ s₁' : σ) (s₂ s₂' : τ) (l₁ l₂ : List Int)
    (h₁ : jHistogramSplit junk₁ rng₁ nBin digits (eps.map fun e => [e]) s₁ = .ok (l₁, s₁'))
    (h₂ : jHistogramSplit junk₂ rng₂ nBin digits (eps.map fun e => [e]) s₂ = .ok (l₂, s₂')) :
    l₁.count 0 = l₂.count 0 ∧ l₁.count 1 = l₂.count 1 := by
  have a := C38_total junk₁ rng₁ hr₁ hh hs hc eps he s₁ s₁' l₁ h₁
  have b := C38_total junk₂ rng₂ hr₂ hh hs hc eps he s₂ s₂' l₂ h₂
  exact ⟨by rw [a.1, b.1], by rw [a.2, b.2]⟩

theorem list_sum_le {f g : Nat → Nat} (l : List Nat) (h : ∀ k ∈ l, f k ≤ g k) :
    (l.map f).sum ≤ (l.map g).sum := by
  induction l with
  | nil => simp
  | cons a l ih =>
    have h1 := h a (by simp)
    have h2 := ih fun k hk => h k (by simp [hk])
    simp only [List.map_cons, List.sum_cons]
    omega

/-- summing over the mirrored bins instead of the bins below the zero edge -/
theorem sum_mirror (g : Nat → Nat) (b n : Nat) (hbn : b ≤ n) :
    ((List.range n).map fun k => if b ≤ k ∧ k < 2 * b then g (2 * b - 1 - k) else 0).sum
      ≤ ((List.range n).map fun k => if k < b then g k else 0).sum := by
  have low : ((List.range n).map fun k => if k < b then g k else 0).sum
      = ((List.range b).map g).sum := by
    obtain ⟨d, rfl⟩ : ∃ d, n = b + d := ⟨n - b, by omega⟩
    rw [List.range_add, List.map_append, List.sum_append, List.map_map]
    have h1 : (List.range b).map (fun k => if k < b then g k else 0) = (List.range b).map g :=
      List.map_congr_left fun k hk => by rw [if_pos (List.mem_range.1 hk)]
    have h2 : (List.range d).map ((fun k => if k < b then g k else 0) ∘ fun x => b + x)
        = (List.range d).map fun _ => 0 :=
      List.map_congr_left fun k _ => by
        simp only [Function.comp_apply]; rw [if_neg (by omega)]
    rw [h1, h2]; simp
  have high : ∀ m, ((List.range m).map fun k => if b ≤ k ∧ k < 2 * b then g (2 * b - 1 - k) else 0).sum
      ≤ ((List.range b).map g).sum := by
    have mono : ∀ (m : Nat) (f : Nat → Nat), ((List.range m).map f).sum ≤ ((List.range (m + 2 * b)).map f).sum := by
      intro m f
      rw [List.range_add, List.map_append, List.sum_append]
      exact Nat.le_add_right _ _
    intro m
    refine Nat.le_trans (mono m _) ?_
    rw [Nat.add_comm m, show 2 * b + m = b + (b + m) by omega, List.range_add, List.map_append,
      List.sum_append, List.map_map, List.range_add, List.map_append, List.sum_append, List.map_map]
    have h1 : (List.range b).map (fun k => if b ≤ k ∧ k < 2 * b then g (2 * b - 1 - k) else 0)
        = (List.range b).map fun _ => 0 :=
      List.map_congr_left fun k hk => by
        have := List.mem_range.1 hk
        rw [if_neg (by omega)]
    have h2 : (List.range b).map ((fun k => if b ≤ k ∧ k < 2 * b then g (2 * b - 1 - k) else 0)
        ∘ fun x => b + x) = (List.range b).map fun x => g (b - 1 - x) :=
      List.map_congr_left fun k hk => by
        have := List.mem_range.1 hk
        simp only [Function.comp_apply]
        rw [if_pos (by omega), show 2 * b - 1 - (b + k) = b - 1 - k by omega]
    have h3 : (List.range m).map (((fun k => if b ≤ k ∧ k < 2 * b then g (2 * b - 1 - k) else 0)
        ∘ fun x => b + x) ∘ fun x => b + x) = (List.range m).map fun _ => 0 :=
      List.map_congr_left fun k _ => by
        simp only [Function.comp_apply]
        rw [if_neg (by omega)]
    rw [h1, h2, h3]
    have h4 : (List.range b).map (fun x => g (b - 1 - x)) = ((List.range b).map g).reverse := by
      apply List.ext_getElem
      · simp
      · intro i h5 h6
        simp
    rw [h4]
    simp
  rw [low]
  exact high n

/-- C38: the spheroid has at most as many co-rotating as counter-rotating stars. -/
theorem C38_corotating_le (junk : Nat → Int) (rng : Rng σ) (hr : rng.OK) {nBin digits : Int}
    {edges : List F} {bin0 : Nat} (hh : makeHistogram nBin digits = .ok (edges, bin0))
    (hs : EdgesSorted edges nBin.toNat) (hc : EdgesCover edges nBin.toNat)
    (eps : List F) (he : ∀ e ∈ eps, InUnit e) (s s' : σ) (labels : List Int)
    (h : jHistogramSplit junk rng nBin digits (eps.map fun e => [e]) s = .ok (labels, s')) :
    countLab eps labels (fun e => !(e <. Num.ofRat 0)) 0
      ≤ (eps.filter fun e => e <. Num.ofRat 0).length := by
  obtain ⟨hn, -, -, hbn, hz, -⟩ := makeHistogram_inv hh
  have hpos : 0 < nBin.toNat := by omega
  have h0 := bin0_pos hh hc
  rw [NumOrd.eq_def, Bool.and_eq_true] at hz
  have hone : ∀ e ∈ eps, ∃ k < nBin.toNat, inBinI edges nBin.toNat k e = true ∧
      ∀ j < nBin.toNat, inBinI edges nBin.toNat j e = true → j = k := by
    intro e hm
    have hu := he e hm
    obtain ⟨k, hk, hb⟩ := hs.covers hpos (NumOrd.le_trans hc.1 hu.1) (NumOrd.le_trans hu.2 hc.2)
    exact ⟨k, hk, hb, fun j hj hb' => hs.unique hpos hj hk hb' hb⟩
  -- a bin below the zero edge holds exactly negative values, the others none
  have hneg : ∀ k < nBin.toNat, ∀ e, inBinI edges nBin.toNat k e = true →
      ((e <. Num.ofRat 0) = true ↔ k < bin0) := by
    intro k hk e hb
    have hbk := hb
    unfold inBinI at hbk
    rw [Bool.and_eq_true] at hbk
    constructor
    · intro hlt
      rcases Nat.lt_or_ge k bin0 with hkb | hkb
      · exact hkb
      · exfalso
        have := lt_of_lt_of_le' hlt
          (NumOrd.le_trans hz.2 (NumOrd.le_trans (hs.le hpos bin0 k hkb (by omega)) hbk.1))
        rw [lt_irrefl'] at this
        cases this
    · intro hkb
      have hbn' : bin0 < nBin.toNat := by
        rcases Nat.lt_or_ge bin0 nBin.toNat with hlt | hge
        · exact hlt
        · exfalso
          have : bin0 = nBin.toNat := by omega
          rw [this] at hz
          have := lt_of_le_of_lt' (NumOrd.le_trans hc.2 hz.1) (NumOrd.zero_lt_one (F := F))
          rw [lt_irrefl'] at this
          cases this
      rw [if_neg (by omega)] at hbk
      exact lt_of_lt_of_le' hbk.2 (NumOrd.le_trans (hs.le hpos (k + 1) bin0 hkb (by omega)) hz.1)
  have hR : (eps.filter fun e => e <. Num.ofRat 0).length
      = ((List.range nBin.toNat).map fun k => if k < bin0
          then (eps.filter (inBinI edges nBin.toNat k)).length else 0).sum := by
    rw [length_filter_partition eps _ nBin.toNat (fun k e => inBinI edges nBin.toNat k e) hone]
    congr 1
    apply List.map_congr_left
    intro k hk
    have hk := List.mem_range.1 hk
    split
    · rename_i hkb
      congr 1
      apply List.filter_congr
      intro e _
      cases hb : inBinI edges nBin.toNat k e with
      | false => rfl
      | true => rw [(hneg k hk e hb).2 hkb]; rfl
    · rename_i hkb
      rw [List.length_eq_zero_iff, List.filter_eq_nil_iff]
      intro e _ hf
      rw [Bool.and_eq_true] at hf
      exact hkb ((hneg k hk e hf.1).1 hf.2)
  rw [hR]
  refine Nat.le_trans ?_ (sum_mirror (fun k => (eps.filter (inBinI edges nBin.toNat k)).length)
    bin0 nBin.toNat hbn)
  unfold countLab
  rw [length_filter_partition (eps.zip labels) _ nBin.toNat
    (fun k el => inBinI edges nBin.toNat k el.1) (fun x hx => hone x.1 (List.of_mem_zip hx).1)]
  apply list_sum_le
  intro k hk
  have hk := List.mem_range.1 hk
  by_cases hkb : k < bin0
  · rw [if_neg (by omega), Nat.le_zero, List.length_eq_zero_iff, List.filter_eq_nil_iff]
    intro el _ hf
    rw [Bool.and_eq_true, Bool.and_eq_true] at hf
    have h1 := hf.2.1
    simp only at h1
    rw [(hneg k hk el.1 hf.1).2 hkb] at h1
    cases h1
  · have hb := C38_bin junk rng hr hh h0 hs eps s s' labels h k hk
    rw [if_neg hkb] at hb
    have hle : ((eps.zip labels).filter fun x => inBinI edges nBin.toNat k x.1 &&
        (!(x.1 <. Num.ofRat 0) && x.2 == 0)).length
        ≤ countLab eps labels (inBinI edges nBin.toNat k) 0 := by
      unfold countLab
      apply List.Sublist.length_le
      apply List.monotone_filter_right
      intro el hf
      rw [Bool.and_eq_true, Bool.and_eq_true] at hf
      rw [hf.1, hf.2.2]
      rfl
    rw [hb] at hle
    by_cases hk2 : k < 2 * bin0
    · rw [if_pos hk2] at hle
      rw [if_pos ⟨by omega, hk2⟩]
      exact Nat.le_trans hle (Nat.min_le_left _ _)
    · rw [if_neg hk2] at hle
      rw [if_neg (by omega)]
      exact hle

/-! ## C40 -/

/-- the rounded edges of `_make_histogram` -/
def roundedEdges (nBin digits : Int) : List F :=
  (Np.linspace (Num.ofRat (-1)) (Num.ofRat 1) nBin.toNat).map (Num.roundDec digits)

/-- C40: every failure of `split`, for every column of circularities (also NaN) and every generator:
`ValueError` exactly for `n_bin <= 0`, `IndexError` exactly when no rounded edge is zero, and
`AttributeError` exactly when already the first edge is zero (negative digits). -/
theorem C40_failures (junk : Nat → Int) (rng : Rng σ) (hr : rng.OK) (nBin digits : Int)
    (eps : List F) (s : σ) (err : PyErr) :
    jHistogramSplit junk rng nBin digits (eps.map fun e => [e]) s = .error err ↔
      (nBin ≤ 0 ∧ err = .valueError) ∨
      (0 < nBin ∧ err = .indexError ∧
        ∀ x ∈ (roundedEdges nBin digits : List F), (x ==. Num.ofRat 0) = false) ∨
      (0 < nBin ∧ err = .attributeError ∧
        (edge (roundedEdges nBin digits : List F) 0 ==. Num.ofRat 0) = true) := by
  cases hh : makeHistogram (F := F) nBin digits with
  | error e =>
    have : jHistogramSplit junk rng nBin digits (eps.map fun e => [e]) s = .error e := by
      unfold jHistogramSplit; rw [hh]; rfl
    rw [this]
    rcases makeHistogram_error hh with ⟨h1, rfl⟩ | ⟨h1, rfl, h2⟩
    · constructor
      · intro h; injection h with h; exact Or.inl ⟨h1, h.symm⟩
      · rintro (⟨_, rfl⟩ | ⟨h, _⟩ | ⟨h, _⟩)
        · rfl
        · omega
        · omega
    · constructor
      · intro h; injection h with h; exact Or.inr (Or.inl ⟨h1, h.symm, h2⟩)
      · rintro (⟨h, _⟩ | ⟨_, rfl, _⟩ | ⟨_, _, h⟩)
        · omega
        · rfl
        · exfalso
          have hm : edge (roundedEdges nBin digits : List F) 0 ∈ roundedEdges nBin digits := by
            have hl : 0 < (roundedEdges nBin digits : List F).length := by
              simp [roundedEdges, Np.linspace]
            simp only [edge, List.getD_eq_getElem?_getD, List.getElem?_eq_getElem hl,
              Option.getD_some]
            exact List.getElem_mem hl
          rw [h2 _ hm] at h
          cases h
  | ok r =>
    obtain ⟨edges, bin0⟩ := r
    obtain ⟨hn, hlen, hed, hbn, hz, hfirst⟩ := makeHistogram_inv hh
    have hed' : edges = roundedEdges nBin digits := hed
    rcases Nat.eq_zero_or_pos bin0 with h0 | h0
    · subst h0
      have : jHistogramSplit junk rng nBin digits (eps.map fun e => [e]) s = .error .attributeError := by
        unfold jHistogramSplit
        rw [hh]
        simp only [Py.ok_bind]
        exact labelBins_zero junk _ (makeBins_tab edges nBin.toNat (by omega) _ eps (jIds eps)) s
      rw [this]
      constructor
      · intro h; injection h with h
        exact Or.inr (Or.inr ⟨hn, h.symm, by rw [← hed']; exact hz⟩)
      · rintro (⟨h, _⟩ | ⟨_, _, h⟩ | ⟨_, rfl, _⟩)
        · omega
        · exfalso
          have hm : edge edges 0 ∈ edges := by
            have hl : 0 < edges.length := by omega
            simp only [edge, List.getD_eq_getElem?_getD, List.getElem?_eq_getElem hl,
              Option.getD_some]
            exact List.getElem_mem hl
          rw [h _ (by rw [← hed']; exact hm)] at hz
          cases hz
        · rfl
    · obtain ⟨labels, s', S, h1, -⟩ := jHistogram_outcome junk rng hr hh h0 eps s
      rw [h1]
      constructor
      · intro h; cases h
      · rintro (⟨h, _⟩ | ⟨_, _, h⟩ | ⟨_, _, h⟩)
        · omega
        · exfalso
          have hm : edge edges bin0 ∈ edges := by
            have hl : bin0 < edges.length := by omega
            simp only [edge, List.getD_eq_getElem?_getD, List.getElem?_eq_getElem hl,
              Option.getD_some]
            exact List.getElem_mem hl
          rw [h _ (by rw [← hed']; exact hm)] at hz
          cases hz
        · exfalso
          rw [← hed', hfirst 0 h0] at h
          cases h

/-! ## the decomposition of a galaxy -/

/-- the labels of a galaxy: one per star with finite `eps`, taken in order from `labels` -/
theorem decompose_eps_labels (env : CircEnv F) (cbins : F × F) (b : BGalaxy F) (j : JCirc F)
    (hj : jcirc env (Galaxy.ofBodies b) cbins.1 cbins.2 = .ok j)
    (split : List (List F) → List (Pd.Cell F) → Py (List Int × Option (Mat F)))
    (Q : Int → Prop)
    (hsplit : ∀ eps : List F, (∀ e ∈ eps, e ∈ j.eps ∧ Num.isFinite e = true) → ∀ y,
      ∃ labels, split (eps.map fun e => [e]) y = .ok (labels, none) ∧ labels.length = eps.length ∧
        ∀ l ∈ labels, Q l) :
    ∃ c, decompose env cbins ⟨["eps"], starsRowsMask, split⟩ (Galaxy.ofBodies b) = .ok c ∧
      c.labels.length = b.stars.length + b.dm.length + b.gas.length ∧
      (∀ (i : Nat) (e : F), j.eps[i]? = some e →
        if Num.isFinite e then ∃ l, c.labels[i]? = some (some l) ∧ Q l
        else c.labels[i]? = some none) ∧
      (∀ i, b.stars.length ≤ i → i < b.stars.length + b.dm.length + b.gas.length →
        c.labels[i]? = some none) := by
  have hal : CircAligned env cbins b ["eps"] j := circAligned_of_ok hj (by decide)
  have hlen : j.eps.length = b.stars.length :=
    (hal ⟨"eps", by simp, by decide⟩).2 "eps" (by simp) (by decide)
  have hin : "eps" ∈ circularityAttributes := by decide
  -- what the mask says
  have hmask : ∀ (i : Nat) (e : F), j.eps[i]? = some e →
      (b.numbered.map (validStar j ["eps"]))[i]? = some (Num.isFinite e) := by
    intro i e he
    have := congrArg (fun l => l[i]?) (numbered_eps b j hlen (fun _ => 0))
    have hi : i < j.eps.length := (List.getElem?_eq_some_iff.1 he).1
    simp only [epsLabels] at this
    rw [List.getElem?_append_left (by simpa using hi), List.getElem?_map, List.getElem?_map, he] at this
    rw [List.getElem?_map]
    cases hr : b.numbered[i]? with
    | none => rw [hr] at this; simp at this
    | some ri =>
      rw [hr] at this
      simp only [Option.map_some, Option.some.injEq] at this ⊢
      cases hv : validStar j ["eps"] ri <;> cases hf : Num.isFinite e <;> simp_all
  have hmask2 : ∀ i, b.stars.length ≤ i → i < b.stars.length + b.dm.length + b.gas.length →
      (b.numbered.map (validStar j ["eps"]))[i]? = some false := by
    intro i h1 h2
    have := congrArg (fun l => l[i]?) (numbered_eps b j hlen (fun _ => 0))
    simp only [epsLabels] at this
    rw [List.getElem?_append_right (by simpa [hlen] using h1), List.getElem?_map,
      List.getElem?_replicate, if_pos (by simp [hlen]; omega)] at this
    rw [List.getElem?_map]
    cases hr : b.numbered[i]? with
    | none => rw [hr] at this; simp at this
    | some ri =>
      rw [hr] at this
      simp only [Option.map_some, Option.some.injEq] at this ⊢
      cases hv : validStar j ["eps"] ri with
      | false => rfl
      | true => rw [hv] at this; simp at this
  have hmem : ∀ e ∈ (b.numbered.filter (validStar j ["eps"])).map
      (fun ri => (matCell j ri.1 ri.2 "eps").toNum), e ∈ j.eps ∧ Num.isFinite e = true := by
    intro e he
    rw [List.mem_map] at he
    obtain ⟨ri, hri, rfl⟩ := he
    have hv := (List.mem_filter.1 hri).2
    simp only [validStar, Bool.and_eq_true, beq_iff_eq, List.all_cons, List.all_nil,
      Bool.and_true] at hv
    have hfin := hv.2
    unfold matCell at hfin ⊢
    rw [if_pos hin, if_pos hv.1] at hfin ⊢
    simp only [cellFinite, Pd.Cell.toNum, JCirc.attr] at hfin ⊢
    cases hg : j.eps[ri.2]? with
    | none => simp [hg, NumOrd.nan_not_finite] at hfin
    | some e =>
      simp [hg] at hfin ⊢
      exact ⟨List.mem_of_getElem? hg, hfin⟩
  obtain ⟨labels, hs1, hs2, hs3⟩ := hsplit _ hmem
    ((b.numbered.filter (validStar j ["eps"])).map fun _ => .int PType.stars.value)
  rw [List.map_map] at hs1
  have hN : (b.numbered.map (validStar j ["eps"])).length = (b.rows none).length := by
    simp [BGalaxy.numbered]
  obtain ⟨res, hr1, hr2, hr3, hr4, hr5⟩ := C33_complete_labels (b.rows none).length labels
    (b.numbered.map (validStar j ["eps"])) hN
    (by rw [hs2, Np.count_map_true]; simp)
  refine ⟨_, decompose_eq env cbins b ["eps"] (by simp)
    (by intro a ha; rw [List.mem_singleton] at ha; subst ha; exact hin) j hal split labels res
    hs1 hr1, by simp only; rw [hr2, rows_none_count]; omega, ?_, ?_⟩
  · intro i e he
    cases hf : Num.isFinite e with
    | true =>
      obtain ⟨l, hl, hl2⟩ := hr5 i (by rw [hmask i e he, hf])
      simp only [if_true]
      exact ⟨l, hl2, hs3 l (List.mem_of_getElem? hl)⟩
    | false =>
      simp only [Bool.false_eq_true, if_false]
      exact hr4 i (by rw [hmask i e he, hf])
  · intro i h1 h2
    exact hr4 i (hmask2 i h1 h2)

/-- C37 for galaxies: whenever `jcirc` succeeds, the decomposition by `JHistogram` succeeds, every
star with finite `eps` has label 0 or 1, and no other particle has a label. -/
theorem C37_decompose (junk : Nat → Int) (rng : Rng σ) (hr : rng.OK) {nBin digits : Int}
    {edges : List F} {bin0 : Nat} (hh : makeHistogram nBin digits = .ok (edges, bin0))
    (hs : EdgesSorted edges nBin.toNat) (hc : EdgesCover edges nBin.toNat) (s : σ)
    (env : CircEnv F) (cbins : F × F) (b : BGalaxy F) (j : JCirc F)
    (hj : jcirc env (Galaxy.ofBodies b) cbins.1 cbins.2 = .ok j) :
    ∃ c, decompose env cbins (jHistogram junk rng nBin digits s) (Galaxy.ofBodies b) = .ok c ∧
      c.labels.length = b.stars.length + b.dm.length + b.gas.length ∧
      (∀ (i : Nat) (e : F), j.eps[i]? = some e →
        if Num.isFinite e then ∃ l, c.labels[i]? = some (some l) ∧ (l = 0 ∨ l = 1)
        else c.labels[i]? = some none) ∧
      (∀ i, b.stars.length ≤ i → i < b.stars.length + b.dm.length + b.gas.length →
        c.labels[i]? = some none) := by
  refine decompose_eps_labels env cbins b j hj _ (fun l => l = 0 ∨ l = 1) ?_
  intro eps he y
  obtain ⟨labels, s', h1, h2, h3⟩ := C37_labels junk rng hr hh hs hc eps (by
    intro e hm
    obtain ⟨h1, h2⟩ := he e hm
    rcases C23_eps_range env b cbins.1 cbins.2 j hj e h1 with hn | hu
    · rw [NumOrd.finite_not_nan h2] at hn; cases hn
    · exact hu) s
  refine ⟨labels, ?_, h2, h3⟩
  simp only [h1]
  rfl

end GChop
