import Verif.Props.Threshold

/-!
# A decomposition of the stars, from the galaxy to the components

What `decompose` does for a decomposer that uses only circularity attributes: `split` gets the
attributes of the stars for which they are all finite, in order, and its answer is put back on those
stars.
-/

set_option linter.unusedSectionVars false

namespace GChop
open Pd

variable {F : Type} [Num F]

/-- the stars for which all the attributes are finite, by position -/
def finiteStars (j : JCirc F) (attrs : List String) (n : Nat) : List Nat :=
  (List.range n).filter fun i => attrs.all fun a => Num.isFinite ((j.attr a).getD i Num.nan)

/-- one row per star with finite attributes -/
def starMatrix (j : JCirc F) (attrs : List String) (n : Nat) : List (List F) :=
  (finiteStars j attrs n).map fun i => attrs.map fun a => (j.attr a).getD i Num.nan

theorem numbered_append (b : BGalaxy F) :
    b.numbered = (b.sSet.rows .stars).zipIdx ++
      (b.dmSet.rows .darkMatter ++ b.gSet.rows .gas).zipIdx b.stars.length := by
  unfold BGalaxy.numbered
  rw [rows_none, List.zipIdx_append]
  simp [BSet.rows, BGalaxy.sSet]

theorem star_rows_filter (b : BGalaxy F) (j : JCirc F) (attrs : List String) :
    ∀ ri ∈ (b.dmSet.rows .darkMatter ++ b.gSet.rows .gas).zipIdx b.stars.length,
      validStar j attrs ri = false := by
  intro ri hri
  have hm : ri.1 ∈ b.dmSet.rows .darkMatter ++ b.gSet.rows .gas := by
    have := List.mem_map_of_mem (f := Prod.fst) hri
    rwa [List.zipIdx_map_fst] at this
  have ht : ri.1.t ≠ .stars := by
    simp only [BSet.rows, List.mem_append, List.mem_map] at hm
    rcases hm with ⟨_, _, h⟩ | ⟨_, _, h⟩ <;> rw [← h] <;> simp
  unfold validStar
  simp [ht]

theorem star_mem (b : BGalaxy F) {ri : Row F × Nat} (h : ri ∈ (b.sSet.rows .stars).zipIdx) :
    ri.1.t = .stars ∧ ri.2 < b.stars.length := by
  have hm : ri.1 ∈ b.sSet.rows .stars := by
    have := List.mem_map_of_mem (f := Prod.fst) h
    rwa [List.zipIdx_map_fst] at this
  have h2 : ri.2 ∈ List.range b.stars.length := by
    have := List.mem_map_of_mem (f := Prod.snd) h
    rw [List.zipIdx_map_snd] at this
    simpa [BSet.rows, BGalaxy.sSet, List.range_eq_range'] using this
  simp only [BSet.rows, List.mem_map] at hm
  obtain ⟨x, _, hx⟩ := hm
  exact ⟨by rw [← hx], List.mem_range.1 h2⟩

theorem validStar_star (j : JCirc F) (attrs : List String)
    (hc : ∀ a ∈ attrs, a ∈ circularityAttributes) (ri : Row F × Nat) (ht : ri.1.t = .stars) :
    validStar j attrs ri = attrs.all fun a => Num.isFinite ((j.attr a).getD ri.2 Num.nan) := by
  unfold validStar
  rw [ht]
  simp only [beq_self_eq_true, Bool.true_and]
  rw [Bool.eq_iff_iff, List.all_eq_true, List.all_eq_true]
  constructor <;> intro h a ha <;> have := h a ha <;>
    simpa [matCell, hc a ha, ht, cellFinite] using this

/-- what `split` gets -/
theorem starMatrix_eq (b : BGalaxy F) (j : JCirc F) (attrs : List String)
    (hc : ∀ a ∈ attrs, a ∈ circularityAttributes) :
    ((b.numbered.filter (validStar j attrs)).map fun ri =>
        attrs.map fun a => (matCell j ri.1 ri.2 a).toNum) = starMatrix j attrs b.stars.length := by
  rw [numbered_append, List.filter_append, (List.filter_eq_nil_iff
    (l := (b.dmSet.rows .darkMatter ++ b.gSet.rows .gas).zipIdx b.stars.length)).2 (by
      intro ri hri; rw [star_rows_filter b j attrs ri hri]; simp), List.append_nil]
  unfold starMatrix finiteStars
  have hr : List.range b.stars.length = (b.sSet.rows .stars).zipIdx.map Prod.snd := by
    rw [List.zipIdx_map_snd, List.range_eq_range']
    simp [BSet.rows, BGalaxy.sSet]
  rw [hr, List.filter_map, List.map_map]
  rw [List.filter_congr (q := fun ri : Row F × Nat =>
    attrs.all fun a => Num.isFinite ((j.attr a).getD ri.2 Num.nan))]
  · apply List.map_congr_left
    intro ri hri
    have ht := (star_mem b (List.mem_of_mem_filter hri)).1
    apply List.map_congr_left
    intro a ha
    simp [matCell, hc a ha, ht, Cell.toNum]
  · intro ri hri
    exact validStar_star j attrs hc ri (star_mem b hri).1

theorem starMask_get (b : BGalaxy F) (j : JCirc F) (attrs : List String)
    (hc : ∀ a ∈ attrs, a ∈ circularityAttributes) (i : Nat) (hi : i < (b.rows none).length) :
    (b.numbered.map (validStar j attrs))[i]?
      = some (decide (i ∈ finiteStars j attrs b.stars.length)) := by
  rw [List.getElem?_map]
  obtain ⟨r, hr⟩ : ∃ r, (b.rows none)[i]? = some r := ⟨_, List.getElem?_eq_getElem hi⟩
  rw [numbered_get b i r hr, Option.map_some]
  congr 1
  rw [rows_none] at hr
  unfold finiteStars
  by_cases h : i < b.stars.length
  · rw [List.getElem?_append_left (by simpa [BSet.rows, BGalaxy.sSet] using h)] at hr
    simp only [BSet.rows, List.getElem?_map, Option.map_eq_some_iff] at hr
    obtain ⟨x, _, rfl⟩ := hr
    rw [validStar_star j attrs hc _ rfl, Bool.eq_iff_iff]
    simp [h]
  · rw [List.getElem?_append_right (by simpa [BSet.rows, BGalaxy.sSet] using h)] at hr
    have ht : r.t ≠ .stars := by
      have := List.mem_of_getElem? hr
      simp only [BSet.rows, List.mem_append, List.mem_map] at this
      rcases this with ⟨_, _, rfl⟩ | ⟨_, _, rfl⟩ <;> simp
    have : validStar j attrs (r, i) = false := by unfold validStar; simp [ht]
    rw [this]
    simp [h]

/-- the steps of `decompose` around `split` -/
theorem decompose_unfold [NumOrd F] (env : CircEnv F) (cbins : F × F) (b : BGalaxy F)
    (attrs : List String) (hne : attrs ≠ []) (hc : ∀ a ∈ attrs, a ∈ circularityAttributes)
    (hz : "normalized_star_Jz" ∉ attrs) (j : JCirc F)
    (hj : jcirc env (Galaxy.ofBodies b) cbins.1 cbins.2 = .ok j)
    (split : List (List F) → List (Cell F) → Py (List Int × Option (Mat F))) :
    decompose env cbins ⟨attrs, starsRowsMask, split⟩ (Galaxy.ofBodies b) = (do
      let lp ← split (starMatrix j attrs b.stars.length)
        (List.replicate (finiteStars j attrs b.stars.length).length (.int PType.stars.value))
      let fl ← completeLabels (b.rows none).length lp.1 (b.numbered.map (validStar j attrs))
      let fp ← completeProbs (b.rows none).length lp.2 (b.numbered.map (validStar j attrs))
      Components.new fl ((b.rows none).map fun r => r.t.humanize) fp) := by
  have hal : CircAligned env cbins b attrs j := circAligned_of_ok hj hz
  unfold decompose
  rw [attributesMatrix_eq env cbins b attrs j hne (fun a ha => Or.inr (hc a ha)) hal]
  simp only [Py.ok_bind]
  have hnum : ∀ ri : Row F × Nat, ∀ a ∈ attrs, ∃ x, matCell j ri.1 ri.2 a = .num x := by
    intro ri a ha
    unfold matCell
    rw [if_pos (hc a ha)]
    split <;> exact ⟨_, rfl⟩
  have hmask : starsRowsMask (b.numbered.map fun ri => attrs.map (matCell j ri.1 ri.2))
      (b.numbered.map fun ri => .int ri.1.t.value) = .ok (b.numbered.map (validStar j attrs)) := by
    have : ∃ m, starsRowsMask (b.numbered.map fun ri => attrs.map (matCell j ri.1 ri.2))
        (b.numbered.map fun ri => .int ri.1.t.value) = .ok m := by
      unfold starsRowsMask
      rw [mapM_ok _ _ (fun row : List (Cell F) => row.all cellFinite)]
      · simp only [Py.ok_bind]
        unfold Np.bcast
        rw [if_pos (by simp)]
        exact ⟨_, rfl⟩
      · intro row hrow
        rw [List.mem_map] at hrow
        obtain ⟨ri, _, rfl⟩ := hrow
        rw [mapM_ok _ _ cellFinite]
        · simp only [Py.ok_bind, Py.pure_eq, List.all_map]
          rfl
        · intro c hcm
          rw [List.mem_map] at hcm
          obtain ⟨a, ha, rfl⟩ := hcm
          obtain ⟨x, hx⟩ := hnum ri a ha
          rw [hx]
          rfl
    obtain ⟨m, hm⟩ := this
    rw [hm, starsRowsMask_inv b j attrs m hm]
  rw [hmask]
  simp only [Py.ok_bind]
  rw [Np.compress_map, Np.compress_map]
  simp only [Py.ok_bind, List.map_map]
  have e1 : ((b.numbered.filter (validStar j attrs)).map
        ((fun r => r.map Cell.toNum) ∘ fun ri => attrs.map (matCell j ri.1 ri.2)))
      = starMatrix j attrs b.stars.length := by
    rw [← starMatrix_eq b j attrs hc]
    apply List.map_congr_left
    intro ri _
    simp [Function.comp_def]
  have e2 : ((b.numbered.filter (validStar j attrs)).map
        fun ri => (.int ri.1.t.value : Cell F))
      = List.replicate (finiteStars j attrs b.stars.length).length (.int PType.stars.value) := by
    have hl := congrArg List.length (starMatrix_eq b j attrs hc)
    simp only [List.length_map, starMatrix] at hl
    rw [← hl, ← List.map_const']
    apply List.map_congr_left
    intro ri hri
    have := (List.mem_filter.1 hri).2
    simp only [validStar, Bool.and_eq_true, beq_iff_eq] at this
    rw [this.1]
  rw [e1, e2]
  have hn : (b.numbered.map fun ri => attrs.map (matCell j ri.1 ri.2)).length
      = (b.rows none).length := by simp [BGalaxy.numbered]
  rw [hn]
  have hy : (b.numbered.map fun ri => (.int ri.1.t.value : Cell F)).mapM humanizeCell
      = .ok ((b.rows none).map fun r => r.t.humanize) := by
    have e3 : (b.numbered.map fun ri => Cell.int (F := F) ri.1.t.value)
        = (b.rows none).map fun r => Cell.int r.t.value := by
      have : (b.numbered.map fun ri => Cell.int (F := F) ri.1.t.value)
          = ((b.rows none).zipIdx.map Prod.fst).map fun r => Cell.int r.t.value := by
        unfold BGalaxy.numbered
        rw [List.map_map]; rfl
      rw [this, List.zipIdx_map_fst]
    rw [e3, List.mapM_map]
    exact mapM_ok _ _ _ fun r _ => humanizeCell_ptype r.t
  rw [hy]
  rfl

/-- The outcome of a stars-only decomposition whose `split` answered with one label, and one row of
probabilities if any, per row: every star with finite attributes has its label and probabilities,
everybody else none. -/
theorem decompose_stars [NumOrd F] (env : CircEnv F) (cbins : F × F) (b : BGalaxy F)
    (attrs : List String) (hne : attrs ≠ []) (hc : ∀ a ∈ attrs, a ∈ circularityAttributes)
    (hz : "normalized_star_Jz" ∉ attrs) (j : JCirc F)
    (hj : jcirc env (Galaxy.ofBodies b) cbins.1 cbins.2 = .ok j)
    (split : List (List F) → List (Cell F) → Py (List Int × Option (Mat F)))
    (labels : List Int) (probs : Option (Mat F))
    (hs : split (starMatrix j attrs b.stars.length)
        (List.replicate (finiteStars j attrs b.stars.length).length (.int PType.stars.value))
      = .ok (labels, probs))
    (hl : labels.length = (finiteStars j attrs b.stars.length).length)
    (hp : ∀ p, probs = some p → p.rows.length = (finiteStars j attrs b.stars.length).length) :
    ∃ c, decompose env cbins ⟨attrs, starsRowsMask, split⟩ (Galaxy.ofBodies b) = .ok c ∧
      c.ptypes = (b.rows none).map (fun r => r.t.humanize) ∧
      c.labels.length = (b.rows none).length ∧
      (finiteStars j attrs b.stars.length).map (fun i => c.labels[i]?)
        = labels.map (fun l => some (some l)) ∧
      (∀ i < (b.rows none).length, i ∉ finiteStars j attrs b.stars.length →
        c.labels[i]? = some none) ∧
      (probs = none → c.probabilities = none) ∧
      ∀ p, probs = some p → ∃ p', c.probabilities = some p' ∧ p'.width = p.width ∧
        p'.rows.length = (b.rows none).length ∧
        (finiteStars j attrs b.stars.length).map (fun i => p'.rows[i]?) = p.rows.map some ∧
        ∀ i < (b.rows none).length, i ∉ finiteStars j attrs b.stars.length →
          p'.rows[i]? = some (List.replicate p.width Num.nan) := by
  rw [decompose_unfold env cbins b attrs hne hc hz j hj, hs]
  simp only [Py.ok_bind]
  set mask := b.numbered.map (validStar j attrs) with hmask
  set ids := finiteStars j attrs b.stars.length with hids
  have hml : mask.length = (b.rows none).length := by simp [hmask, BGalaxy.numbered]
  have hget : ∀ i < (b.rows none).length, mask[i]? = some (decide (i ∈ ids)) :=
    fun i hi => starMask_get b j attrs hc i hi
  have hidlt : ∀ i ∈ ids, i < (b.rows none).length := by
    intro i hi
    have := (List.mem_filter.1 hi).1
    rw [List.mem_range] at this
    rw [rows_none_count]; omega
  have hwhere : Np.whereIdx mask = ids := by
    have h1 : ids = (List.range (b.rows none).length).filter fun i => decide (i ∈ ids) := by
      have h2 : (List.range (b.rows none).length).filter (fun i => decide (i ∈ ids))
          = (List.range b.stars.length ++ (List.range (b.dm.length + b.gas.length)).map
              (b.stars.length + ·)).filter (fun i => decide (i ∈ ids)) := by
        rw [rows_none_count, List.range_add]
      rw [h2, List.filter_append]
      rw [(List.filter_eq_nil_iff (l := (List.range (b.dm.length + b.gas.length)).map
        (b.stars.length + ·))).2]
      · rw [List.append_nil]
        conv_lhs => rw [hids, finiteStars]
        apply List.filter_congr
        intro i hi
        rw [List.mem_range] at hi
        rw [Bool.eq_iff_iff]
        simp [hids, finiteStars, hi]
      · intro i hi
        rw [List.mem_map] at hi
        obtain ⟨k, _, rfl⟩ := hi
        simp [hids, finiteStars]
    rw [h1]
    unfold Np.whereIdx
    rw [hml]
    apply List.filter_congr
    intro i hi
    rw [List.mem_range] at hi
    rw [List.getD_eq_getElem?_getD, hget i hi]
    rfl
  have hcnt : mask.count true = ids.length := by rw [← hwhere, Np.whereIdx_length]
  -- position of a star among the selected ones
  have hplace : ∀ {α : Type} (a vals : List α), a.length = (b.rows none).length →
      vals.length = ids.length →
      ids.map (fun i => (Np.writeMask a mask vals)[i]?) = vals.map some ∧
      ∀ i < (b.rows none).length, i ∉ ids → (Np.writeMask a mask vals)[i]? = a[i]? := by
    intro α a vals ha hv
    constructor
    · rw [← hwhere]
      rw [← Np.writeAt_whereIdx a mask vals (by omega) (by omega), hwhere]
      have hnd : ids.Nodup := List.nodup_range.filter _
      have hlt : ∀ i ∈ ids, i < a.length := fun i hi => by rw [ha]; exact hidlt i hi
      clear_value ids mask
      clear hwhere hget hids hmask hs hp hl hcnt hidlt hml
      induction ids generalizing a vals with
      | nil => cases vals with
        | nil => rfl
        | cons v vs => simp at hv
      | cons k ids ih =>
        cases vals with
        | nil => simp at hv
        | cons v vs =>
          have hk : k ∉ ids := (List.nodup_cons.1 hnd).1
          have keep : ∀ (l : List Nat) (a vs : List α), k ∉ l →
              (Np.writeAt a l vs)[k]? = a[k]? := by
            intro l
            induction l with
            | nil => intro a vs _; rw [Np.writeAt_nil]
            | cons m l ih2 =>
              intro a vs hkl
              cases vs with
              | nil => rfl
              | cons w vs =>
                simp only [Np.writeAt]
                rw [ih2 _ _ (fun h => hkl (by simp [h])), List.getElem?_set_ne]
                rintro rfl; exact hkl (by simp)
          simp only [Np.writeAt, List.map_cons]
          rw [ih (a.set k v) vs (by simpa using ha) (by simpa using hv)
            (List.nodup_cons.1 hnd).2 (by
              intro i hi; rw [List.length_set]; exact hlt i (by simp [hi]))]
          rw [keep _ _ _ hk]
          have := hlt k (by simp)
          simp [this]
    · intro i hi hni
      rw [Np.writeMask_get a mask vals (by omega) (by omega), if_neg]
      rw [hget i hi]
      simp [hni]
  have hlab : completeLabels (b.rows none).length labels mask
      = .ok (Np.writeMask (List.replicate (b.rows none).length none) mask (labels.map some)) := by
    unfold completeLabels
    exact Np.assignMask_ok _ _ _ (by simp [hml]) (by simp [hl, hcnt])
  rw [hlab]
  simp only [Py.ok_bind]
  obtain ⟨hl1, hl2⟩ := hplace (List.replicate (b.rows none).length (none : Option Int))
    (labels.map some) (by simp) (by simp [hl])
  rw [List.map_map] at hl1
  have hl2' : ∀ i < (b.rows none).length, i ∉ ids →
      (Np.writeMask (List.replicate (b.rows none).length none) mask (labels.map some))[i]?
        = some none := by
    intro i hi hni
    rw [hl2 i hi hni, List.getElem?_replicate, if_pos hi]
  cases probs with
  | none =>
    simp only [completeProbs, Py.ok_bind]
    obtain ⟨c, hc1, h1, h2, h3, _⟩ := (C47_components
      (Np.writeMask (List.replicate (b.rows none).length none) mask (labels.map some))
      ((b.rows none).map fun r => r.t.humanize) (none : Option (Mat F))).1
      ⟨by simp [Np.writeMask_length], by simp⟩
    refine ⟨c, hc1, h2, ?_, ?_, ?_, fun _ => h3, by simp⟩
    · rw [h1, Np.writeMask_length]; simp
    · rw [h1]; exact hl1
    · rw [h1]; exact hl2'
  | some p =>
    have hpr : completeProbs (b.rows none).length (some p) mask
        = .ok (some ⟨Np.writeMask (List.replicate (b.rows none).length
            (List.replicate p.width Num.nan)) mask p.rows, p.width⟩) := by
      simp only [completeProbs]
      rw [Np.assignMask_ok _ _ _ (by simp [hml]) (by rw [hp p rfl, hcnt])]
      rfl
    rw [hpr]
    simp only [Py.ok_bind]
    obtain ⟨c, hc1, h1, h2, h3, _⟩ := (C47_components
      (Np.writeMask (List.replicate (b.rows none).length none) mask (labels.map some))
      ((b.rows none).map fun r => r.t.humanize)
      (some (⟨Np.writeMask (List.replicate (b.rows none).length
            (List.replicate p.width Num.nan)) mask p.rows, p.width⟩ : Mat F))).1
      ⟨by simp [Np.writeMask_length], by
        intro p' hp'
        injection hp' with hp'
        rw [← hp']
        simp [Np.writeMask_length]⟩
    obtain ⟨hq1, hq2⟩ := hplace (List.replicate (b.rows none).length
      (List.replicate p.width (Num.nan : F))) p.rows (by simp) (hp p rfl)
    refine ⟨c, hc1, h2, ?_, ?_, ?_, by simp, ?_⟩
    · rw [h1, Np.writeMask_length]; simp
    · rw [h1]; exact hl1
    · rw [h1]; exact hl2'
    · intro p' hp'
      injection hp' with hp'
      subst hp'
      refine ⟨_, h3, rfl, by simp [Np.writeMask_length], hq1, ?_⟩
      intro i hi hni
      rw [hq2 i hi hni, List.getElem?_replicate, if_pos hi]

/-- A failing `split` is the failure of the decomposition. -/
theorem decompose_stars_error [NumOrd F] (env : CircEnv F) (cbins : F × F) (b : BGalaxy F)
    (attrs : List String) (hne : attrs ≠ []) (hc : ∀ a ∈ attrs, a ∈ circularityAttributes)
    (hz : "normalized_star_Jz" ∉ attrs) (j : JCirc F)
    (hj : jcirc env (Galaxy.ofBodies b) cbins.1 cbins.2 = .ok j)
    (split : List (List F) → List (Cell F) → Py (List Int × Option (Mat F))) (e : PyErr)
    (hs : split (starMatrix j attrs b.stars.length)
        (List.replicate (finiteStars j attrs b.stars.length).length (.int PType.stars.value))
      = .error e) :
    decompose env cbins ⟨attrs, starsRowsMask, split⟩ (Galaxy.ofBodies b) = .error e := by
  rw [decompose_unfold env cbins b attrs hne hc hz j hj, hs]
  rfl

end GChop
