import Verif.Lemmas.Base
import Verif.Props.Circ

/-!
# C31: `attributes_matrix`
-/

set_option linter.unusedSectionVars false

namespace GChop
open Pd

variable {F : Type} [Num F]

/-- the array of a circularity attribute -/
def JCirc.attr (j : JCirc F) (a : String) : List F :=
  if a = "eps" then j.eps
  else if a = "eps_r" then j.epsR
  else if a = "normalized_star_Jz" then j.normalizedStarJz
  else j.normalizedStarEnergy

/-- the entry of row `i`, which is particle `r`, in the column of attribute `a` -/
def matCell (j : JCirc F) (r : Row F) (i : Nat) (a : String) : Cell F :=
  if a ∈ circularityAttributes then
    if r.t = .stars then .num ((j.attr a).getD i Num.nan) else .num Num.nan
  else r.cell a

/-- the particles of a galaxy with their row number -/
def BGalaxy.numbered (b : BGalaxy F) : List (Row F × Nat) := (b.rows none).zipIdx

/-- the column of a circularity attribute, dark matter and gas included -/
def circCol (b : BGalaxy F) (j : JCirc F) (a : String) : List (Cell F) :=
  (j.attr a).map .num ++
    (List.replicate b.dm.length (.num Num.nan) ++ List.replicate b.gas.length (.num Num.nan))

/-- the column of any attribute -/
def matCol (b : BGalaxy F) (j : JCirc F) (a : String) : List (Cell F) :=
  if a ∈ circularityAttributes then circCol b j a else (b.rows none).map fun r => r.cell a

theorem rows_ptypesOrder (b : BGalaxy F) : b.rows (some ptypesOrder) = b.rows none := rfl

theorem ptypev_not_circ : "ptypev" ∉ circularityAttributes := by decide

theorem rows_none (b : BGalaxy F) :
    b.rows none = b.sSet.rows .stars ++ (b.dmSet.rows .darkMatter ++ b.gSet.rows .gas) := by
  simp [BGalaxy.rows, BGalaxy.selected]

theorem rows_none_count (b : BGalaxy F) :
    (b.rows none).length = b.stars.length + (b.dm.length + b.gas.length) := by
  simp [rows_none, BSet.rows, BGalaxy.sSet, BGalaxy.dmSet, BGalaxy.gSet]

theorem ptypevCol (b : BGalaxy F) (j : JCirc F) :
    matCol b j "ptypev" = List.replicate b.stars.length (.int PType.stars.value) ++
      (List.replicate b.dm.length (.int PType.darkMatter.value) ++
       List.replicate b.gas.length (.int PType.gas.value)) := by
  rw [matCol, if_neg ptypev_not_circ, rows_none]
  simp [BSet.rows, BGalaxy.sSet, BGalaxy.dmSet, BGalaxy.gSet, Row.cell, attrTable,
    Function.comp_def, List.map_const']

theorem matCol_length (b : BGalaxy F) (j : JCirc F) (a : String)
    (h : a ∈ circularityAttributes → (j.attr a).length = b.stars.length) :
    (matCol b j a).length = (b.rows none).length := by
  unfold matCol
  split
  · rename_i hc
    simp [circCol, h hc, rows_none_count]
  · simp

theorem jcircMakers_get (j : JCirc F) (a : String) (h : a ∈ circularityAttributes) :
    Dict.get? (jcircMakers j) a = some (.arr ((j.attr a).map .num)) := by
  simp only [circularityAttributes, List.mem_cons, List.not_mem_nil, or_false] at h
  rcases h with rfl | rfl | rfl | rfl <;>
  simp [jcircMakers, JCirc.asDict, Dict.set, Dict.get?, JCirc.attr]

theorem jcircMakers_get_ptypev (j : JCirc F) :
    Dict.get? (jcircMakers j) "ptypev" = some (.scalar (.int PType.stars.value)) := by
  simp [jcircMakers, JCirc.asDict, Dict.set, Dict.get?]

/-- the column of a star frame -/
def starCol (j : JCirc F) (a : String) : Col F :=
  if a = "ptypev" then .scalar (.int PType.stars.value) else .arr ((j.attr a).map .num)

theorem mem_circAttrs {attrs : List String} {a : String} :
    a ∈ circAttrs attrs ↔ (a ∈ attrs ∧ a ∈ circularityAttributes) ∨ a = "ptypev" := by
  simp [circAttrs]

theorem starCols_ok (j : JCirc F) (attrs : List String) :
    ParticleSet.collectColumns (jcircMakers j) (circAttrs attrs) []
      = .ok ((distinct (circAttrs attrs)).map fun a => (a, starCol j a)) := by
  refine collectColumns_gen (jcircMakers j) (starCol j) (circAttrs attrs) [] ?_
  intro a ha
  unfold starCol
  rcases mem_circAttrs.1 ha with ⟨_, h⟩ | h
  · rw [if_neg (by rintro rfl; exact ptypev_not_circ h), jcircMakers_get j a h]
  · subst h
    rw [if_pos rfl, jcircMakers_get_ptypev]

/-- the column of a set without circularity -/
def nanCol (rows : Nat) (t : PType) (a : String) : Col F :=
  if a = "ptypev" then .scalar (.int t.value) else .arr (List.replicate rows (.num Num.nan))

theorem nanColumns_eq (rows : Nat) (t : PType) (attrs : List String) :
    (nanColumns rows t (circAttrs attrs) : Dict String (Col F))
      = (distinct (circAttrs attrs)).map fun a => (a, nanCol rows t a) := by
  unfold nanColumns
  simp only
  have h := foldl_set_const (circAttrs attrs) []
    (Col.arr (List.replicate rows (.num Num.nan)) : Col F)
  simp only [List.map_nil] at h
  rw [h]
  change Dict.set ((distinct (circAttrs attrs)).map _) _ _ = _
  rw [Dict.set_map_eq _ (fun _ => Col.arr (List.replicate rows (.num Num.nan))) "ptypev" _
    (mem_distinct.2 (mem_circAttrs.2 (Or.inr rfl))) (distinct_nodup _)]
  rfl

theorem getJcircDf_ok (env : CircEnv F) (cbins : F × F) (b : BGalaxy F) (attrs : List String)
    (j : JCirc F) (hj : jcirc env (Galaxy.ofBodies b) cbins.1 cbins.2 = .ok j)
    (hne : ∃ a ∈ attrs, a ∈ circularityAttributes) (n : Nat)
    (hlen : ∀ a ∈ attrs, a ∈ circularityAttributes → (j.attr a).length = n) :
    getJcircDf env cbins (Galaxy.ofBodies b) (circAttrs attrs)
      = .ok (frameOf (distinct (circAttrs attrs))
          (fun a => if a = "ptypev" then
              List.replicate n (.int PType.stars.value) ++
              (List.replicate b.dm.length (.int PType.darkMatter.value) ++
                List.replicate b.gas.length (.int PType.gas.value))
            else circCol b j a) (n + (b.dm.length + b.gas.length))) := by
  unfold getJcircDf
  rw [hj]
  simp only [Py.ok_bind]
  rw [starCols_ok]
  simp only [Py.ok_bind]
  obtain ⟨a0, ha0, ha0c⟩ := hne
  have hmem : a0 ∈ distinct (circAttrs attrs) :=
    mem_distinct.2 (mem_circAttrs.2 (Or.inl ⟨ha0, ha0c⟩))
  have hnp : a0 ≠ "ptypev" := by rintro rfl; exact ptypev_not_circ ha0c
  rw [ofDict_uniform _ (starCol j) n]
  rotate_left
  · intro a ha
    unfold starCol
    split
    · trivial
    · rcases mem_circAttrs.1 (mem_distinct.1 ha) with ⟨h1, h2⟩ | h
      · simp [fits, hlen a h1 h2]
      · contradiction
  · exact ⟨a0, hmem, by simp [starCol, hnp, isArr]⟩
  simp only [Py.ok_bind]
  rw [nanColumns_eq, ofDict_uniform _ (nanCol _ _) b.dm.length]
  rotate_left
  · intro a ha
    unfold nanCol
    split
    · trivial
    · simp [fits, Galaxy.ofBodies, ParticleSet.ofBodies, ParticleSet.len, BGalaxy.dmSet]
  · exact ⟨a0, hmem, by simp [nanCol, hnp, isArr]⟩
  simp only [Py.ok_bind]
  rw [nanColumns_eq, ofDict_uniform _ (nanCol _ _) b.gas.length]
  rotate_left
  · intro a ha
    unfold nanCol
    split
    · trivial
    · simp [fits, Galaxy.ofBodies, ParticleSet.ofBodies, ParticleSet.len, BGalaxy.gSet]
  · exact ⟨a0, hmem, by simp [nanCol, hnp, isArr]⟩
  simp only [Py.ok_bind]
  have h3 := concatRows_three (distinct (circAttrs attrs))
    (fun a => expand n (starCol j a))
    (fun a => expand b.dm.length
      (nanCol (Galaxy.ofBodies b).darkMatter.len .darkMatter a : Col F))
    (fun a => expand b.gas.length (nanCol (Galaxy.ofBodies b).gas.len .gas a : Col F))
    n b.dm.length b.gas.length
  unfold frameOf at h3 ⊢
  rw [h3]
  congr 2
  apply List.map_congr_left
  intro a _
  by_cases ha : a = "ptypev"
  · simp [ha, starCol, nanCol, expand]
  · simp [ha, starCol, nanCol, expand, circCol, Galaxy.ofBodies, ParticleSet.ofBodies,
      ParticleSet.len, BGalaxy.dmSet, BGalaxy.gSet]

theorem mem_dfAttrs {attrs : List String} {a : String} :
    a ∈ dfAttrs attrs ↔ (a ∈ attrs ∧ a ∉ circularityAttributes) ∨ a = "ptypev" := by
  unfold dfAttrs
  simp only
  split
  · rename_i h
    simp only [List.contains_iff_mem] at h
    constructor
    · intro ha; left; simpa using ha
    · rintro (ha | rfl)
      · simpa using ha
      · exact h
  · simp

theorem particleFrame_ok (b : BGalaxy F) (j : JCirc F) (attrs : List String)
    (hk : ∀ a ∈ attrs, a ∈ attrNames ∨ a ∈ circularityAttributes)
    (hne : ∃ a ∈ attrs, a ∉ circularityAttributes) :
    particleFrame (Galaxy.ofBodies b) attrs
      = .ok [frameOf (distinct (dfAttrs attrs)) (matCol b j) (b.rows none).length] := by
  unfold particleFrame
  have h1 : (attrs.any fun a => !circularityAttributes.contains a) = true := by
    rw [List.any_eq_true]
    obtain ⟨a, ha, hc⟩ := hne
    exact ⟨a, ha, by simp [hc]⟩
  have hp : "ptypev" ∈ dfAttrs attrs := mem_dfAttrs.2 (Or.inr rfl)
  rw [if_pos h1, Galaxy.toDataframe_ok b (some ptypesOrder) (dfAttrs attrs) (by rfl)]
  · simp only [Py.ok_bind, rows_ptypesOrder]
    congr 1
    unfold tableOf
    rw [if_neg (List.ne_nil_of_mem (mem_distinct.2 hp))]
    congr 1
    unfold frameOf
    congr 1
    apply List.map_congr_left
    intro a ha
    have hnc : a ∉ circularityAttributes := by
      rcases mem_dfAttrs.1 (mem_distinct.1 ha) with h | h
      · exact h.2
      · subst h; exact ptypev_not_circ
    simp [matCol, hnc]
  · intro a ha
    rcases mem_dfAttrs.1 ha with h | h
    · exact (hk a h.1).resolve_right h.2
    · subst h; decide
  · intro hs
    have := hs.2 "ptypev" hp
    simp [scalarAttr] at this

theorem circFrame_ok (env : CircEnv F) (cbins : F × F) (b : BGalaxy F) (attrs : List String)
    (j : JCirc F) (hj : jcirc env (Galaxy.ofBodies b) cbins.1 cbins.2 = .ok j)
    (hne : ∃ a ∈ attrs, a ∈ circularityAttributes)
    (hlen : ∀ a ∈ attrs, a ∈ circularityAttributes → (j.attr a).length = b.stars.length) :
    circFrame env cbins (Galaxy.ofBodies b) attrs
      = .ok [frameOf (distinct (circAttrs attrs)) (matCol b j) (b.rows none).length] := by
  unfold circFrame
  have h1 : (attrs.any fun a => circularityAttributes.contains a) = true := by
    rw [List.any_eq_true]
    obtain ⟨a, ha, hc⟩ := hne
    exact ⟨a, ha, by simp [hc]⟩
  rw [if_pos h1, getJcircDf_ok env cbins b attrs j hj hne b.stars.length hlen]
  simp only [Py.ok_bind]
  rw [rows_none_count]
  congr 2
  apply frameOf_congr
  intro a ha
  split
  · rename_i h
    subst h
    rw [ptypevCol]
  · rename_i h
    rcases mem_circAttrs.1 (mem_distinct.1 ha) with h' | h'
    · simp [matCol, h'.2]
    · exact absurd h' h

theorem particleFrame_none (g : Galaxy F) (attrs : List String)
    (h : ∀ a ∈ attrs, a ∈ circularityAttributes) : particleFrame g attrs = .ok [] := by
  unfold particleFrame
  rw [if_neg]
  simpa using h

theorem circFrame_none (env : CircEnv F) (cbins : F × F) (g : Galaxy F) (attrs : List String)
    (h : ∀ a ∈ attrs, a ∉ circularityAttributes) : circFrame env cbins g attrs = .ok [] := by
  unfold circFrame
  rw [if_neg]
  simpa using h

theorem select_ok (L : List String) (f : String → List (Cell F)) (n : Nat) (attrs : List String)
    (h : ∀ a ∈ attrs, a ∈ L) : (frameOf L f n).dropDupCols.select attrs = .ok (attrs.map f) :=
  mapM_ok attrs _ f fun a ha => frame_dropDup_col L f n a (h a ha)

theorem matCol_get (b : BGalaxy F) (j : JCirc F) (a : String)
    (h : a ∈ circularityAttributes → (j.attr a).length = b.stars.length) (i : Nat) (r : Row F)
    (hr : (b.rows none)[i]? = some r) : (matCol b j a)[i]? = some (matCell j r i a) := by
  unfold matCol matCell
  split
  · rename_i hc
    have hl := h hc
    rw [rows_none] at hr
    unfold circCol
    by_cases hi : i < b.stars.length
    · rw [List.getElem?_append_left (by simpa [BSet.rows, BGalaxy.sSet] using hi)] at hr
      simp only [BSet.rows, List.getElem?_map, Option.map_eq_some_iff] at hr
      obtain ⟨x, _, rfl⟩ := hr
      rw [List.getElem?_append_left (by simpa [hl] using hi)]
      simp [hl, hi]
    · rw [List.getElem?_append_right (by simpa [BSet.rows, BGalaxy.sSet] using hi)] at hr
      have ht : r.t ≠ .stars := by
        have := List.mem_of_getElem? hr
        simp only [BSet.rows, List.mem_append, List.mem_map] at this
        rcases this with ⟨_, _, rfl⟩ | ⟨_, _, rfl⟩ <;> simp
      rw [List.getElem?_append_right (by simpa [hl] using hi), if_neg ht,
        ← List.replicate_add, List.getElem?_replicate, if_pos]
      have hlt := (List.getElem?_eq_some_iff.1 hr).1
      simp [BSet.rows, BGalaxy.sSet, BGalaxy.dmSet, BGalaxy.gSet] at hlt
      simp [hl]
      omega
  · simp [hr]

theorem rowsOf_matCols (b : BGalaxy F) (j : JCirc F) (attrs : List String)
    (h : ∀ a ∈ attrs, a ∈ circularityAttributes → (j.attr a).length = b.stars.length) :
    rowsOf (b.rows none).length (attrs.map (matCol b j))
      = b.numbered.map fun ri => attrs.map (matCell j ri.1 ri.2) := by
  apply List.ext_getElem?
  intro i
  unfold rowsOf BGalaxy.numbered
  rw [List.getElem?_map, List.getElem?_map, List.getElem?_zipIdx]
  cases hr : (b.rows none)[i]? with
  | none =>
    have : (b.rows none).length ≤ i := List.getElem?_eq_none_iff.1 hr
    simp [this]
  | some r =>
    have hlt : i < (b.rows none).length := (List.getElem?_eq_some_iff.1 hr).1
    rw [List.getElem?_range hlt]
    simp only [Option.map_some, Nat.zero_add, Option.some.injEq]
    rw [List.filterMap_map]
    induction attrs with
    | nil => rfl
    | cons a attrs ih =>
      have e := matCol_get b j a (h a (by simp)) i r hr
      rw [List.map_cons, ← ih (fun c hc => h c (by simp [hc])), List.filterMap_cons]
      simp [e]

/-- the requested circularity arrays exist and have one entry per star -/
def CircAligned (env : CircEnv F) (cbins : F × F) (b : BGalaxy F) (attrs : List String)
    (j : JCirc F) : Prop :=
  (∃ a ∈ attrs, a ∈ circularityAttributes) →
    jcirc env (Galaxy.ofBodies b) cbins.1 cbins.2 = .ok j ∧
    ∀ a ∈ attrs, a ∈ circularityAttributes → (j.attr a).length = b.stars.length

theorem attributesMatrix_eq (env : CircEnv F) (cbins : F × F) (b : BGalaxy F)
    (attrs : List String) (j : JCirc F) (hne : attrs ≠ [])
    (hk : ∀ a ∈ attrs, a ∈ attrNames ∨ a ∈ circularityAttributes)
    (hj : CircAligned env cbins b attrs j) :
    attributesMatrix env cbins (Galaxy.ofBodies b) attrs
      = .ok (b.numbered.map fun ri => attrs.map (matCell j ri.1 ri.2),
             b.numbered.map fun ri => .int ri.1.t.value) := by
  have hlen : ∀ a ∈ attrs, a ∈ circularityAttributes → (j.attr a).length = b.stars.length :=
    fun a ha hc => (hj ⟨a, ha, hc⟩).2 a ha hc
  have hlp : (matCol b j "ptypev").length = (b.rows none).length :=
    matCol_length b j _ (fun h => absurd h ptypev_not_circ)
  have hdf : ∀ a ∈ distinct (dfAttrs attrs), (matCol b j a).length = (b.rows none).length := by
    intro a ha
    rcases mem_dfAttrs.1 (mem_distinct.1 ha) with h | rfl
    · exact matCol_length b j a (fun h' => absurd h' h.2)
    · exact hlp
  have hci : ∀ a ∈ distinct (circAttrs attrs), (matCol b j a).length = (b.rows none).length := by
    intro a ha
    rcases mem_circAttrs.1 (mem_distinct.1 ha) with h | rfl
    · exact matCol_length b j a (fun h' => hlen a h.1 h')
    · exact hlp
  have key : ∃ L, (do
      let r1 ← particleFrame (Galaxy.ofBodies b) attrs
      let r2 ← circFrame env cbins (Galaxy.ofBodies b) attrs
      concatCols (r1 ++ r2)) = .ok (frameOf L (matCol b j) (b.rows none).length) ∧
      (∀ a ∈ attrs, a ∈ L) ∧ "ptypev" ∈ L := by
    by_cases h1 : ∃ a ∈ attrs, a ∉ circularityAttributes
    · rw [particleFrame_ok b j attrs hk h1]
      by_cases h2 : ∃ a ∈ attrs, a ∈ circularityAttributes
      · rw [circFrame_ok env cbins b attrs j (hj h2).1 h2 hlen]
        refine ⟨_, concatCols_two _ _ _ _ hdf hci, ?_, ?_⟩
        · intro a ha
          rw [List.mem_append, mem_distinct, mem_distinct, mem_dfAttrs, mem_circAttrs]
          by_cases hc : a ∈ circularityAttributes
          · exact Or.inr (Or.inl ⟨ha, hc⟩)
          · exact Or.inl (Or.inl ⟨ha, hc⟩)
        · rw [List.mem_append, mem_distinct, mem_dfAttrs]
          exact Or.inl (Or.inr rfl)
      · have h2' : ∀ a ∈ attrs, a ∉ circularityAttributes := fun a ha hc => h2 ⟨a, ha, hc⟩
        rw [circFrame_none env cbins _ attrs h2']
        refine ⟨_, concatCols_one _ _ _ hdf, ?_, ?_⟩
        · intro a ha
          rw [mem_distinct, mem_dfAttrs]
          exact Or.inl ⟨ha, h2' a ha⟩
        · rw [mem_distinct, mem_dfAttrs]
          exact Or.inr rfl
    · have h1' : ∀ a ∈ attrs, a ∈ circularityAttributes := by
        intro a ha; by_contra hc; exact h1 ⟨a, ha, hc⟩
      obtain ⟨a0, ha0⟩ := List.exists_mem_of_ne_nil attrs hne
      have h2 : ∃ a ∈ attrs, a ∈ circularityAttributes := ⟨a0, ha0, h1' a0 ha0⟩
      rw [particleFrame_none _ attrs h1', circFrame_ok env cbins b attrs j (hj h2).1 h2 hlen]
      refine ⟨_, concatCols_one _ _ _ hci, ?_, ?_⟩
      · intro a ha
        rw [mem_distinct, mem_circAttrs]
        exact Or.inl ⟨ha, h1' a ha⟩
      · rw [mem_distinct, mem_circAttrs]
        exact Or.inr rfl
  obtain ⟨L, hL, hmem, hpt⟩ := key
  unfold attributesMatrix
  cases hr1 : particleFrame (Galaxy.ofBodies b) attrs with
  | error e => rw [hr1] at hL; cases hL
  | ok r1 =>
    cases hr2 : circFrame env cbins (Galaxy.ofBodies b) attrs with
    | error e => rw [hr1, hr2] at hL; cases hL
    | ok r2 =>
      rw [hr1, hr2] at hL
      simp only [Py.ok_bind] at hL ⊢
      rw [hL]
      simp only [Py.ok_bind]
      rw [select_ok L _ _ attrs hmem]
      simp only [Py.ok_bind]
      rw [frame_dropDup_col L _ _ _ hpt]
      simp only [Py.ok_bind, Py.pure_eq]
      have e : (frameOf L (matCol b j) (b.rows none).length).dropDupCols.nrows
          = (b.rows none).length := rfl
      rw [e, rowsOf_matCols b j attrs hlen]
      congr 2
      rw [matCol, if_neg ptypev_not_circ]
      unfold BGalaxy.numbered
      have e2 : ((b.rows none).zipIdx.map fun ri => Cell.int (F := F) ri.1.t.value)
          = ((b.rows none).zipIdx.map Prod.fst).map fun r => Cell.int r.t.value := by
        rw [List.map_map]; rfl
      rw [e2, List.zipIdx_map_fst]
      apply List.map_congr_left
      intro r _
      simp [Row.cell, attrTable]

end GChop

namespace GChop
open Pd

variable {F : Type} [Num F]

/-- C31: for every galaxy and every non-empty list of known attributes, in any mix, order and with
repetitions, such that the requested circularity arrays have one entry per star, the matrix has one
row per particle and one column per requested attribute.  Row `i` is particle `i` (stars, dark
matter, gas); its entry for a particle attribute is that attribute, for a circularity attribute it is
entry `i` of the array on stars and NaN on dark matter and gas.  `y` lists the particle types. -/
theorem C31_aligned (env : CircEnv F) (cbins : F × F) (b : BGalaxy F) (attrs : List String)
    (j : JCirc F) (hne : attrs ≠ [])
    (hk : ∀ a ∈ attrs, a ∈ attrNames ∨ a ∈ circularityAttributes)
    (hj : CircAligned env cbins b attrs j) :
    ∃ X y, attributesMatrix env cbins (Galaxy.ofBodies b) attrs = .ok (X, y) ∧
      X.length = (b.rows none).length ∧
      (∀ (i : Nat) (r : Row F), (b.rows none)[i]? = some r →
        X[i]? = some (attrs.map fun a =>
          if a ∈ circularityAttributes then
            (if r.t = .stars then .num ((j.attr a).getD i Num.nan) else .num Num.nan)
          else r.cell a)) ∧
      y = (b.rows none).map fun r => .int r.t.value := by
  refine ⟨_, _, attributesMatrix_eq env cbins b attrs j hne hk hj, ?_, ?_, ?_⟩
  · simp [BGalaxy.numbered]
  · intro i r hr
    simp only [BGalaxy.numbered, List.getElem?_map, List.getElem?_zipIdx, hr, Option.map_some,
      Nat.zero_add]
    rfl
  · have e2 : (b.numbered.map fun ri => Cell.int (F := F) ri.1.t.value)
        = ((b.rows none).zipIdx.map Prod.fst).map fun r => Cell.int r.t.value := by
      unfold BGalaxy.numbered
      rw [List.map_map]; rfl
    rw [e2, List.zipIdx_map_fst]

/-- C31: the hypothesis on lengths holds for every successful `jcirc` if `normalized_star_Jz` is not
requested. -/
theorem circAligned_of_ok [NumOrd F] {env : CircEnv F} {cbins : F × F} {b : BGalaxy F}
    {attrs : List String} {j : JCirc F}
    (h : jcirc env (Galaxy.ofBodies b) cbins.1 cbins.2 = .ok j)
    (hz : "normalized_star_Jz" ∉ attrs) : CircAligned env cbins b attrs j := by
  intro _
  refine ⟨h, ?_⟩
  obtain ⟨_, _, n, _, rfl⟩ := jcirc_inv h
  intro a ha hc
  simp only [circularityAttributes, List.mem_cons, List.not_mem_nil, or_false] at hc
  rcases hc with rfl | rfl | rfl | rfl
  · simp [JCirc.attr, circResult]
  · simp [JCirc.attr, circResult]
  · exact absurd ha hz
  · simp [JCirc.attr, circResult]

/-- C31: and it holds for every attribute list if no star is unbound. -/
theorem circAligned_of_bound [NumOrd F] {env : CircEnv F} {cbins : F × F} {b : BGalaxy F}
    {attrs : List String} {j : JCirc F}
    (h : jcirc env (Galaxy.ofBodies b) cbins.1 cbins.2 = .ok j)
    (hall : ∀ a ∈ b.stars, ¬ Unbound a.energy) : CircAligned env cbins b attrs j := by
  intro _
  refine ⟨h, ?_⟩
  obtain ⟨h1, h2, h3, h4⟩ := C22_lengths env b cbins.1 cbins.2 j h b.stars (by simp) hall (by simp)
  intro a _ hc
  simp only [circularityAttributes, List.mem_cons, List.not_mem_nil, or_false] at hc
  rcases hc with rfl | rfl | rfl | rfl <;> simpa [JCirc.attr]

/-- C31: no attributes at all is a `ValueError`. -/
theorem C31_empty (env : CircEnv F) (cbins : F × F) (g : Galaxy F) :
    attributesMatrix env cbins g [] = .error .valueError := rfl

/-- C31: an unknown attribute name is a `KeyError`. -/
theorem C31_unknown (env : CircEnv F) (cbins : F × F) (b : BGalaxy F) (attrs : List String)
    (h : ∃ a ∈ attrs, a ∉ attrNames ∧ a ∉ circularityAttributes) :
    attributesMatrix env cbins (Galaxy.ofBodies b) attrs = .error .keyError := by
  obtain ⟨a, ha, h1, h2⟩ := h
  unfold attributesMatrix particleFrame
  have hany : (attrs.any fun a => !circularityAttributes.contains a) = true := by
    rw [List.any_eq_true]
    exact ⟨a, ha, by simp [h2]⟩
  rw [if_pos hany, Galaxy.toDataframe_keyError b (some ptypesOrder) (dfAttrs attrs) (by rfl)
    ⟨a, mem_dfAttrs.2 (Or.inl ⟨ha, h2⟩), h1⟩]
  rfl

/-- C31: a failure of `jcirc` is passed on when a circularity attribute is requested. -/
theorem C31_jcirc_error (env : CircEnv F) (cbins : F × F) (b : BGalaxy F) (attrs : List String)
    (e : PyErr) (hk : ∀ a ∈ attrs, a ∈ attrNames ∨ a ∈ circularityAttributes)
    (hc : ∃ a ∈ attrs, a ∈ circularityAttributes)
    (he : jcirc env (Galaxy.ofBodies b) cbins.1 cbins.2 = .error e) :
    attributesMatrix env cbins (Galaxy.ofBodies b) attrs = .error e := by
  have h2 : circFrame env cbins (Galaxy.ofBodies b) attrs = .error e := by
    unfold circFrame
    have hany : (attrs.any fun a => circularityAttributes.contains a) = true := by
      rw [List.any_eq_true]
      obtain ⟨a, ha, h⟩ := hc
      exact ⟨a, ha, by simp [h]⟩
    rw [if_pos hany]
    unfold getJcircDf
    rw [he]
    rfl
  have h1 : ∃ r, particleFrame (Galaxy.ofBodies b) attrs = .ok r := by
    by_cases h : ∃ a ∈ attrs, a ∉ circularityAttributes
    · exact ⟨_, particleFrame_ok b ⟨[], [], [], [], [], []⟩ attrs hk h⟩
    · refine ⟨_, particleFrame_none _ attrs ?_⟩
      intro a ha
      by_contra hc'
      exact h ⟨a, ha, hc'⟩
  obtain ⟨r, hr⟩ := h1
  unfold attributesMatrix
  rw [hr, h2]
  rfl

/-- C31: if the lengths differ among the requested circularity arrays (an unbound star and
`normalized_star_Jz`, see C22), the call is a `ValueError`. -/
theorem C31_unbound_star [NumOrd F] (env : CircEnv F) (cbins : F × F) (b : BGalaxy F)
    (attrs : List String) (j : JCirc F)
    (hk : ∀ a ∈ attrs, a ∈ attrNames ∨ a ∈ circularityAttributes)
    (hz : "normalized_star_Jz" ∈ attrs)
    (ho : ∃ a ∈ attrs, a ∈ circularityAttributes ∧ a ≠ "normalized_star_Jz")
    (hj : jcirc env (Galaxy.ofBodies b) cbins.1 cbins.2 = .ok j)
    (hu : ∃ a ∈ b.stars, Unbound a.energy) :
    attributesMatrix env cbins (Galaxy.ofBodies b) attrs = .error .valueError := by
  obtain ⟨o, hoa, hoc, hon⟩ := ho
  have hlt : j.normalizedStarJz.length < b.stars.length := (C22_unbound_shortens env b _ _ j hj hu).1
  have hol : (j.attr o).length = b.stars.length :=
    (circAligned_of_ok (attrs := [o]) hj (by simpa using hon.symm) ⟨o, by simp, hoc⟩).2 o
      (by simp) hoc
  have h2 : circFrame env cbins (Galaxy.ofBodies b) attrs = .error .valueError := by
    unfold circFrame
    have hany : (attrs.any fun a => circularityAttributes.contains a) = true := by
      rw [List.any_eq_true]
      exact ⟨o, hoa, by simp [hoc]⟩
    rw [if_pos hany]
    unfold getJcircDf
    rw [hj]
    simp only [Py.ok_bind]
    rw [starCols_ok]
    simp only [Py.ok_bind]
    rw [ofDict_lengths_differ _ (starCol j) "normalized_star_Jz" o
      (j.normalizedStarJz.map .num) ((j.attr o).map .num)]
    · rfl
    · exact mem_distinct.2 (mem_circAttrs.2 (Or.inl ⟨hz, by decide⟩))
    · exact mem_distinct.2 (mem_circAttrs.2 (Or.inl ⟨hoa, hoc⟩))
    · simp [starCol, JCirc.attr]
    · unfold starCol
      rw [if_neg (by rintro rfl; exact ptypev_not_circ hoc)]
    · simp only [List.length_map]
      omega
  have h1 : ∃ r, particleFrame (Galaxy.ofBodies b) attrs = .ok r := by
    by_cases h : ∃ a ∈ attrs, a ∉ circularityAttributes
    · exact ⟨_, particleFrame_ok b ⟨[], [], [], [], [], []⟩ attrs hk h⟩
    · refine ⟨_, particleFrame_none _ attrs ?_⟩
      intro a ha
      by_contra hc'
      exact h ⟨a, ha, hc'⟩
  obtain ⟨r, hr⟩ := h1
  unfold attributesMatrix
  rw [hr, h2]
  rfl

/-- C31: with an unbound star, the matrix of `["normalized_star_Jz"]` alone has too few rows. -/
theorem C31_unbound_star_short [NumOrd F] (env : CircEnv F) (cbins : F × F) (b : BGalaxy F)
    (j : JCirc F) (hj : jcirc env (Galaxy.ofBodies b) cbins.1 cbins.2 = .ok j)
    (hu : ∃ a ∈ b.stars, Unbound a.energy) :
    ∃ X y, attributesMatrix env cbins (Galaxy.ofBodies b) ["normalized_star_Jz"] = .ok (X, y) ∧
      X.length < (b.rows none).length := by
  have hlt : j.normalizedStarJz.length < b.stars.length := (C22_unbound_shortens env b _ _ j hj hu).1
  have hall : ∀ a ∈ ["normalized_star_Jz"], a ∈ circularityAttributes := by
    intro a ha
    rw [List.mem_singleton] at ha
    subst ha
    decide
  have hdf := getJcircDf_ok env cbins b ["normalized_star_Jz"] j hj
    ⟨"normalized_star_Jz", by simp, by decide⟩
    j.normalizedStarJz.length (by intro a ha _; rw [List.mem_singleton] at ha; subst ha; rfl)
  unfold attributesMatrix
  rw [particleFrame_none _ _ hall]
  unfold circFrame
  rw [if_pos (by decide), hdf]
  simp only [Py.ok_bind, List.nil_append]
  rw [concatCols_one]
  · simp only [Py.ok_bind]
    rw [select_ok]
    · simp only [Py.ok_bind]
      rw [frame_dropDup_col]
      · refine ⟨_, _, rfl, ?_⟩
        rw [rows_none_count]
        simp [rowsOf, frameOf, DF.dropDupCols]
        omega
      · exact mem_distinct.2 (mem_circAttrs.2 (Or.inr rfl))
    · intro a ha
      exact mem_distinct.2 (mem_circAttrs.2 (Or.inl ⟨ha, hall a ha⟩))
  · intro a ha
    split
    · simp
    · rename_i hn
      rcases mem_circAttrs.1 (mem_distinct.1 ha) with h | h
      · have := h.1
        rw [List.mem_singleton] at this
        subst this
        simp [circCol, JCirc.attr]
      · exact absurd h hn

end GChop
