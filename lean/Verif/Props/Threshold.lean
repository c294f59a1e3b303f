import Verif.Threshold
import Verif.Props.Decompose

/-!
# C35 and C36: `JThreshold`
-/

set_option linter.unusedSectionVars false

namespace GChop
open Pd

variable {F : Type} [Num F]

theorem Np.where2_single_aux (l : List Bool) (k : Nat) :
    ((l.map fun b => [b]).zipIdx k).flatMap (fun ri => (ri.1.filter id).map fun _ => ri.2)
      = (Np.whereIdx l).map (· + k) := by
  induction l generalizing k with
  | nil => rfl
  | cons b l ih =>
    rw [List.map_cons, List.zipIdx_cons, List.flatMap_cons, ih, Np.whereIdx_cons, List.map_append,
      List.map_map]
    congr 1
    · cases b <;> simp
    · apply List.map_congr_left
      intro i _
      simp only [Function.comp_apply]
      omega

/-- a matrix with one column -/
theorem Np.where2_single (l : List Bool) : Np.where2 (l.map fun b => [b]) = Np.whereIdx l := by
  unfold Np.where2
  rw [Np.where2_single_aux]
  simp

theorem Np.fillAt_length {α : Type} {a r : List α} {idx : List Nat} {v : α}
    (h : Np.fillAt a idx v = .ok r) : r.length = a.length := by
  unfold Np.fillAt at h
  split at h
  · injection h with h
    rw [← h]
    clear h
    generalize hn : List.replicate idx.length v = vs
    clear hn
    induction idx generalizing a vs with
    | nil => rw [Np.writeAt_nil]
    | cons i idx ih =>
      cases vs with
      | nil => rfl
      | cons w vs =>
        rename_i hlt
        simp only [Np.writeAt]
        rw [ih (a := a.set i w)]
        · simp
        · rw [List.all_eq_true] at hlt ⊢
          intro x hx
          have := hlt x (by simp [hx])
          simpa using this
  · cases h

/-- entry `i` of `a[idx] = v` -/
theorem Np.fillAt_get {α : Type} (a : List α) (idx : List Nat) (v : α)
    (h : ∀ i ∈ idx, i < a.length) :
    ∃ r, Np.fillAt a idx v = .ok r ∧ r.length = a.length ∧
      ∀ i, r[i]? = if i ∈ idx then some v else a[i]? := by
  have hall : idx.all (· < a.length) = true := by
    rw [List.all_eq_true]; intro i hi; simpa using h i hi
  refine ⟨Np.writeAt a idx (List.replicate idx.length v), ?_, ?_, ?_⟩
  · unfold Np.fillAt; rw [if_pos hall]
  · exact Np.fillAt_length (a := a) (idx := idx) (v := v) (by unfold Np.fillAt; rw [if_pos hall])
  · clear hall
    induction idx generalizing a with
    | nil => intro i; simp [Np.writeAt_nil]
    | cons k idx ih =>
      intro i
      simp only [List.length_cons, List.replicate_succ, Np.writeAt]
      rw [ih (a.set k v) (fun x hx => by simpa using h x (by simp [hx])) i]
      by_cases hi : i ∈ idx
      · simp [hi]
      · by_cases hk : i = k
        · subst hk
          have := h i (by simp)
          simp [hi, this]
        · rw [if_neg hi, if_neg (by simp [hi, hk]), List.getElem?_set_ne (Ne.symm hk)]

/-- C35: on every column of non-NaN circularities and every non-NaN cut the labels are 1 above the
cut and 0 at or below it, whatever the uninitialised memory contains. -/
theorem C35_split [NumOrd F] (junk : Nat → Int) (cut : F) (hc : Num.isNaN cut = false)
    (eps : List F) (he : ∀ e ∈ eps, Num.isNaN e = false) :
    thresholdSplit junk cut (eps.map fun e => [e])
      = .ok (eps.map fun e => if cut <. e then 1 else 0, none) := by
  have w : ∀ p : F → Bool, Np.where2 ((eps.map fun e => [e]).map fun r => r.map p)
      = Np.whereIdx (eps.map p) := by
    intro p
    rw [List.map_map, ← Np.where2_single (eps.map p), List.map_map]
    rfl
  unfold thresholdSplit
  simp only [w]
  have hr : npEmpty junk (eps.map fun e => [e]).length
      = eps.zipIdx.map fun ei => junk ei.2 := by
    simp only [npEmpty, List.length_map]
    rw [show (eps.zipIdx.map fun ei => junk ei.2) = (eps.zipIdx.map Prod.snd).map junk from by
      rw [List.map_map]; rfl, List.zipIdx_map_snd, List.range_eq_range']
  have h1 : eps.map (fun e => e <=. cut) = eps.zipIdx.map fun ei => ei.1 <=. cut := by
    rw [show (eps.zipIdx.map fun ei => ei.1 <=. cut) = (eps.zipIdx.map Prod.fst).map
      fun e => e <=. cut from by rw [List.map_map]; rfl, List.zipIdx_map_fst]
  have h2 : eps.map (fun e => cut <. e) = eps.zipIdx.map fun ei => cut <. ei.1 := by
    rw [show (eps.zipIdx.map fun ei => cut <. ei.1) = (eps.zipIdx.map Prod.fst).map
      fun e => cut <. e from by rw [List.map_map]; rfl, List.zipIdx_map_fst]
  rw [hr, h1, Np.fillAt_whereIdx]
  simp only [Py.ok_bind]
  rw [h2, Np.fillAt_whereIdx]
  simp only [Py.ok_bind, Py.pure_eq]
  congr 2
  have h3 : eps.map (fun e => if (cut <. e) = true then (1 : Int) else 0)
      = eps.zipIdx.map fun ei => if (cut <. ei.1) = true then (1 : Int) else 0 := by
    rw [show (eps.zipIdx.map fun ei => if (cut <. ei.1) = true then (1 : Int) else 0)
      = (eps.zipIdx.map Prod.fst).map fun e => if (cut <. e) = true then (1 : Int) else 0 from by
        rw [List.map_map]; rfl, List.zipIdx_map_fst]
  rw [h3]
  apply List.map_congr_left
  intro ei hei
  have hn : Num.isNaN ei.1 = false := he ei.1 (by
    have := List.mem_map_of_mem (f := Prod.fst) hei
    rwa [List.zipIdx_map_fst] at this)
  split
  · rfl
  · rename_i hlt
    rw [if_pos (le_of_not_lt hn hc (by simpa using hlt))]

theorem finite_not_nan [NumOrd F] {e : F} (h : Num.isFinite e = true) : Num.isNaN e = false :=
  NumOrd.finite_not_nan h

/-- The outcome of a stars-only decomposition whose split is a function of each row. -/
theorem decompose_eq [NumOrd F] (env : CircEnv F) (cbins : F × F) (b : BGalaxy F)
    (attrs : List String) (hne : attrs ≠ []) (hc : ∀ a ∈ attrs, a ∈ circularityAttributes)
    (j : JCirc F) (hj : CircAligned env cbins b attrs j)
    (split : List (List F) → List (Cell F) → Py (List Int × Option (Mat F)))
    (labels : List Int) (res : List (Option Int))
    (hs : split ((b.numbered.filter (validStar j attrs)).map fun ri =>
        attrs.map fun a => (matCell j ri.1 ri.2 a).toNum)
      ((b.numbered.filter (validStar j attrs)).map fun _ => .int PType.stars.value)
        = .ok (labels, none))
    (hl : completeLabels (b.rows none).length labels (b.numbered.map (validStar j attrs))
      = .ok res) :
    decompose env cbins ⟨attrs, starsRowsMask, split⟩ (Galaxy.ofBodies b)
      = .ok ⟨res, (b.rows none).map (fun r => r.t.humanize), none⟩ := by
  unfold decompose
  rw [attributesMatrix_eq env cbins b attrs j hne (fun a ha => Or.inr (hc a ha)) hj]
  simp only [Py.ok_bind]
  have hnum : ∀ ri : Row F × Nat, ∀ a ∈ attrs, ∃ x, matCell j ri.1 ri.2 a = .num x := by
    intro ri a ha
    unfold matCell
    rw [if_pos (hc a ha)]
    split <;> exact ⟨_, rfl⟩
  have hmask : starsRowsMask (b.numbered.map fun ri => attrs.map (matCell j ri.1 ri.2))
      (b.numbered.map fun ri => .int ri.1.t.value) = .ok (b.numbered.map (validStar j attrs)) := by
    have : ∃ m, starsRowsMask (b.numbered.map fun ri => attrs.map (matCell j ri.1 ri.2))
        (b.numbered.map fun ri => .int ri.1.t.value) = .ok m := by
      unfold starsRowsMask
      rw [mapM_ok _ _ (fun row : List (Cell F) => row.all cellFinite)]
      · simp only [Py.ok_bind]
        unfold Np.bcast
        rw [if_pos (by simp)]
        exact ⟨_, rfl⟩
      · intro row hrow
        rw [List.mem_map] at hrow
        obtain ⟨ri, _, rfl⟩ := hrow
        rw [mapM_ok _ _ cellFinite]
        · simp only [Py.ok_bind, Py.pure_eq, List.all_map]
          rfl
        · intro c hcm
          rw [List.mem_map] at hcm
          obtain ⟨a, ha, rfl⟩ := hcm
          obtain ⟨x, hx⟩ := hnum ri a ha
          rw [hx]
          rfl
    obtain ⟨m, hm⟩ := this
    rw [hm, starsRowsMask_inv b j attrs m hm]
  rw [hmask]
  simp only [Py.ok_bind]
  rw [Np.compress_map, Np.compress_map]
  simp only [Py.ok_bind, List.map_map]
  have e1 : ((b.numbered.filter (validStar j attrs)).map
        ((fun r => r.map Cell.toNum) ∘ fun ri => attrs.map (matCell j ri.1 ri.2)))
      = (b.numbered.filter (validStar j attrs)).map fun ri =>
        attrs.map fun a => (matCell j ri.1 ri.2 a).toNum := by
    apply List.map_congr_left
    intro ri _
    simp [Function.comp_def]
  have e2 : ((b.numbered.filter (validStar j attrs)).map
        fun ri => (.int ri.1.t.value : Cell F))
      = (b.numbered.filter (validStar j attrs)).map fun _ => .int PType.stars.value := by
    apply List.map_congr_left
    intro ri hri
    have := (List.mem_filter.1 hri).2
    simp only [validStar, Bool.and_eq_true, beq_iff_eq] at this
    rw [this.1]
  rw [e1, e2, hs]
  simp only [Py.ok_bind]
  have hn : (b.numbered.map fun ri => attrs.map (matCell j ri.1 ri.2)).length
      = (b.rows none).length := by simp [BGalaxy.numbered]
  rw [hn, hl]
  simp only [Py.ok_bind, completeProbs]
  have hy : (b.numbered.map fun ri => (.int ri.1.t.value : Cell F)).mapM humanizeCell
      = .ok ((b.rows none).map fun r => r.t.humanize) := by
    have e3 : (b.numbered.map fun ri => Cell.int (F := F) ri.1.t.value)
        = (b.rows none).map fun r => Cell.int r.t.value := by
      have : (b.numbered.map fun ri => Cell.int (F := F) ri.1.t.value)
          = ((b.rows none).zipIdx.map Prod.fst).map fun r => Cell.int r.t.value := by
        unfold BGalaxy.numbered
        rw [List.map_map]; rfl
      rw [this, List.zipIdx_map_fst]
    rw [e3, List.mapM_map]
    exact mapM_ok _ _ _ fun r _ => humanizeCell_ptype r.t
  rw [hy]
  simp only [Py.ok_bind]
  have hlen : res.length = (b.rows none).length := by
    unfold completeLabels Np.assignMask at hl
    split at hl
    · split at hl
      · injection hl with hl
        rw [← hl, Np.writeMask_length]; simp
      · split at hl
        · injection hl with hl
          rw [← hl, Np.writeMask_length]; simp
        · cases hl
    · cases hl
  obtain ⟨c, hc1, h1, h2, h3, _⟩ := (C47_components res
    ((b.rows none).map fun r => r.t.humanize) (none : Option (Mat F))).1
    ⟨by simp [hlen], by simp⟩
  rw [hc1]
  cases c
  simp only at h1 h2 h3
  rw [h1, h2, h3]

/-- the labels of a rule applied to the circularity of each star with a finite one; NaN for every
other particle -/
def epsLabels (b : BGalaxy F) (j : JCirc F) (rule : F → Int) : List (Option Int) :=
  j.eps.map (fun e => if Num.isFinite e then some (rule e) else none) ++
    List.replicate (b.dm.length + b.gas.length) none

theorem numbered_eps (b : BGalaxy F) (j : JCirc F) (hlen : j.eps.length = b.stars.length)
    (rule : F → Int) :
    (b.numbered.map fun ri => if validStar j ["eps"] ri
      then some (rule (matCell j ri.1 ri.2 "eps").toNum) else none) = epsLabels b j rule := by
  apply List.ext_getElem?
  intro i
  rw [List.getElem?_map]
  unfold epsLabels
  cases hr : (b.rows none)[i]? with
  | none =>
    have hge : (b.rows none).length ≤ i := List.getElem?_eq_none_iff.1 hr
    rw [rows_none_count] at hge
    rw [List.getElem?_eq_none (by simp [BGalaxy.numbered]; rw [rows_none_count]; omega)]
    rw [List.getElem?_eq_none (by simp [hlen]; omega)]
    rfl
  | some r =>
    rw [numbered_get b i r hr]
    have hlt : i < (b.rows none).length := (List.getElem?_eq_some_iff.1 hr).1
    have hin : "eps" ∈ circularityAttributes := by decide
    rw [rows_none] at hr
    by_cases hi : i < b.stars.length
    · rw [List.getElem?_append_left (by simpa [BSet.rows, BGalaxy.sSet] using hi)] at hr
      simp only [BSet.rows, List.getElem?_map, Option.map_eq_some_iff] at hr
      obtain ⟨x, _, rfl⟩ := hr
      rw [List.getElem?_append_left (by simpa [hlen] using hi)]
      have hie : i < j.eps.length := by omega
      simp [validStar, matCell, hin, JCirc.attr, cellFinite, Cell.toNum, hie]
    · rw [List.getElem?_append_right (by simpa [BSet.rows, BGalaxy.sSet] using hi)] at hr
      have ht : r.t ≠ .stars := by
        have := List.mem_of_getElem? hr
        simp only [BSet.rows, List.mem_append, List.mem_map] at this
        rcases this with ⟨_, _, rfl⟩ | ⟨_, _, rfl⟩ <;> simp
      rw [rows_none_count] at hlt
      rw [List.getElem?_append_right (by simpa [hlen] using hi), List.getElem?_replicate, if_pos]
      · simp [validStar, ht]
      · simp [hlen]; omega

/-- C35: for every galaxy on which `jcirc` succeeds and every non-NaN cut, the decomposition by
`JThreshold` succeeds and labels every star with finite `eps`: 1 if `eps > cut`, 0 if `eps <= cut`;
all other particles have no label. -/
theorem C35_decompose [NumOrd F] (env : CircEnv F) (cbins : F × F) (b : BGalaxy F)
    (junk : Nat → Int) (cut : F) (hc : Num.isNaN cut = false) (j : JCirc F)
    (hj : jcirc env (Galaxy.ofBodies b) cbins.1 cbins.2 = .ok j) :
    decompose env cbins (jThreshold junk cut) (Galaxy.ofBodies b)
      = .ok ⟨epsLabels b j (fun e => if cut <. e then 1 else 0),
          (b.rows none).map (fun r => r.t.humanize), none⟩ := by
  have hal : CircAligned env cbins b ["eps"] j := circAligned_of_ok hj (by decide)
  have hlen : j.eps.length = b.stars.length :=
    (hal ⟨"eps", by simp, by decide⟩).2 "eps" (by simp) (by decide)
  rw [← numbered_eps b j hlen]
  refine decompose_eq env cbins b ["eps"] (by simp)
    (by intro a ha; rw [List.mem_singleton] at ha; subst ha; decide) j hal _
    (((b.numbered.filter (validStar j ["eps"])).map fun ri => (matCell j ri.1 ri.2 "eps").toNum).map
      fun e => if cut <. e then 1 else 0) _ ?_ ?_
  · have := C35_split junk cut hc
      ((b.numbered.filter (validStar j ["eps"])).map fun ri => (matCell j ri.1 ri.2 "eps").toNum) (by
        intro e he
        rw [List.mem_map] at he
        obtain ⟨ri, hri, rfl⟩ := he
        have hv := (List.mem_filter.1 hri).2
        simp only [validStar, Bool.and_eq_true, List.all_cons, List.all_nil, Bool.and_true] at hv
        cases hm : matCell j ri.1 ri.2 "eps" with
        | num x =>
          rw [hm] at hv
          exact finite_not_nan hv.2
        | int i => 
          exfalso
          unfold matCell at hm
          rw [if_pos (by decide)] at hm
          split at hm <;> cases hm
        | str s =>
          rw [hm] at hv
          simp [cellFinite] at hv)
    rw [List.map_map] at this
    exact this
  · unfold completeLabels
    rw [List.map_map, List.map_map]
    have hrep : List.replicate (b.rows none).length (none : Option Int)
        = b.numbered.map fun _ => none := by
      rw [List.map_const']
      simp [BGalaxy.numbered]
    rw [hrep, Np.assignMask_ok]
    · rw [Np.writeMask_map]
      rfl
    · simp
    · rw [Np.count_map_true]; simp

/-- C35: a failure of `jcirc` is the failure of the decomposition. -/
theorem C35_decompose_error (env : CircEnv F) (cbins : F × F) (b : BGalaxy F)
    (junk : Nat → Int) (cut : F) (e : PyErr)
    (hj : jcirc env (Galaxy.ofBodies b) cbins.1 cbins.2 = .error e) :
    decompose env cbins (jThreshold junk cut) (Galaxy.ofBodies b) = .error e := by
  unfold decompose jThreshold
  simp only
  rw [C31_jcirc_error env cbins b ["eps"] e
    (by intro a ha; rw [List.mem_singleton] at ha; subst ha; right; decide)
    ⟨"eps", by simp, by decide⟩ hj]
  rfl

theorem cut_mono [NumOrd F] {c1 c2 e : F} (h : (c1 <=. c2) = true) (h2 : (c2 <. e) = true) :
    (c1 <. e) = true := lt_of_le_of_lt' h h2

/-- C35: raising the cut never moves a particle from the spheroid to the disk, nor gives or takes a
label. -/
theorem C35_monotone [NumOrd F] (env : CircEnv F) (cbins : F × F) (b : BGalaxy F)
    (junk1 junk2 : Nat → Int) (c1 c2 : F) (h : (c1 <=. c2) = true) (r1 r2 : Components F)
    (hr1 : decompose env cbins (jThreshold junk1 c1) (Galaxy.ofBodies b) = .ok r1)
    (hr2 : decompose env cbins (jThreshold junk2 c2) (Galaxy.ofBodies b) = .ok r2) (i : Nat) :
    (r2.labels[i]? = some (some 1) → r1.labels[i]? = some (some 1)) ∧
    (r1.labels[i]? = some (some 0) → r2.labels[i]? = some (some 0)) ∧
    (r1.labels[i]? = some none ↔ r2.labels[i]? = some none) := by
  have hn1 : Num.isNaN c1 = false := (NumOrd.not_nan_of_le h).1
  have hn2 : Num.isNaN c2 = false := (NumOrd.not_nan_of_le h).2
  cases hj : jcirc env (Galaxy.ofBodies b) cbins.1 cbins.2 with
  | error e =>
    rw [C35_decompose_error env cbins b junk1 c1 e hj] at hr1
    cases hr1
  | ok j =>
    rw [C35_decompose env cbins b junk1 c1 hn1 j hj] at hr1
    rw [C35_decompose env cbins b junk2 c2 hn2 j hj] at hr2
    cases hr1
    cases hr2
    unfold epsLabels
    by_cases hi : i < j.eps.length
    · rw [List.getElem?_append_left (by simpa using hi), List.getElem?_append_left (by simpa using hi)]
      simp only [List.getElem?_map, List.getElem?_eq_getElem hi, Option.map_some]
      by_cases hf : Num.isFinite j.eps[i] = true
      · simp only [hf, if_true]
        cases h1 : (c1 <. j.eps[i]) <;> cases h2 : (c2 <. j.eps[i]) <;> simp
        rw [cut_mono h h2] at h1
        cases h1
      · simp [hf]
    · rw [List.getElem?_append_right (by simpa using hi), List.getElem?_append_right (by simpa using hi)]
      simp only [List.length_map, List.getElem?_replicate]
      split <;> simp

/-- C36: every number outside [-1, 1] is rejected, every number inside accepted, and NaN is
accepted. -/
theorem C36_check_partial [NumOrd F] (cut : F) :
    (Num.isNaN cut = false →
      (thresholdCheck cut = .ok () ↔
        (Num.ofRat (-1) <=. cut) = true ∧ (cut <=. Num.ofRat 1) = true) ∧
      (¬ ((Num.ofRat (-1) <=. cut) = true ∧ (cut <=. Num.ofRat 1) = true) →
        thresholdCheck cut = .error .valueError)) ∧
    (Num.isNaN cut = true → thresholdCheck cut = .ok ()) := by
  have hm1 : Num.isNaN (Num.ofRat (-1) : F) = false :=
    (not_nan_of_lt (NumOrd.neg_one_lt_zero (F := F))).1
  have h1 : Num.isNaN (Num.ofRat 1 : F) = false := NumOrd.finite_not_nan (NumOrd.ofRat_finite (by norm_num) (by norm_num))
  constructor
  · intro hn
    unfold thresholdCheck
    have a1 : (Num.ofRat 1 <. cut) = !(cut <=. Num.ofRat 1) := by
      cases h : (cut <=. Num.ofRat 1) with
      | true => rw [not_lt_of_le h]; rfl
      | false => rw [lt_of_not_le hn h1 h]; rfl
    have a2 : (cut <. Num.ofRat (-1)) = !(Num.ofRat (-1) <=. cut) := by
      cases h : (Num.ofRat (-1) <=. cut) with
      | true => rw [not_lt_of_le h]; rfl
      | false => rw [lt_of_not_le hm1 hn h]; rfl
    rw [a1, a2]
    cases (cut <=. Num.ofRat 1) <;> cases (Num.ofRat (-1) <=. cut) <;> simp
  · intro hn
    unfold thresholdCheck
    rw [lt_nan_right hn, lt_nan_left hn]
    rfl

/-- C36 (negation): with a NaN cut the constructor accepts and the labels are the uninitialised
memory. -/
theorem C36_nan_counterexample [NumOrd F] (junk : Nat → Int) (eps : List F) :
    thresholdCheck (Num.nan : F) = .ok () ∧
    thresholdSplit junk (Num.nan : F) (eps.map fun e => [e]) = .ok (npEmpty junk eps.length, none) := by
  have hn : Num.isNaN (Num.nan : F) = true := NumOrd.nan_isNaN
  refine ⟨(C36_check_partial _).2 hn, ?_⟩
  have w : ∀ p : F → Bool, (∀ e, p e = false) →
      Np.where2 ((eps.map fun e => [e]).map fun r => r.map p) = [] := by
    intro p hp
    have : Np.where2 ((eps.map fun e => [e]).map fun r => r.map p) = Np.whereIdx (eps.map p) := by
      rw [List.map_map, ← Np.where2_single (eps.map p), List.map_map]
      rfl
    rw [this]
    have h0 : (Np.whereIdx (eps.map p)).length = 0 := by
      rw [Np.whereIdx_length, Np.count_map_true]
      simp [hp]
    exact List.eq_nil_of_length_eq_zero h0
  unfold thresholdSplit
  rw [w _ (fun e => le_nan_right hn), w _ (fun e => lt_nan_left hn)]
  simp [Np.fillAt, Np.writeAt]

example : thresholdSplit (fun _ => 99) (q (6/10)) [[q (6/10)], [q (7/10)], [q (-1)]]
    = .ok ([0, 1, 0], none) := by decide +kernel
example : thresholdSplit (fun _ => 99) (Ext.nan : Ext ℚ) [[q (6/10)], [q (7/10)]]
    = .ok ([99, 99], none) := by decide +kernel
example : (decompose exEnv defaultCbin (jThreshold (fun _ => 99) (q (6/10)))
      (Galaxy.ofBodies { exLost with
        stars := [orbit (-1) 1, orbit (-1/2) (-2), orbit 1 7], dm := [orbit (-1/1000) 4],
        gas := [orbit (-3/4) 2] }))
    = .ok ⟨[some 1, some 0, none, none, none],
        ["stars", "stars", "stars", "dark_matter", "gas"], none⟩ := by
  decide +kernel

end GChop
