import Verif.Spec.Frame
import Verif.Lemmas.Data

/-!
# The data-frame functions compute the tables of `Verif/Spec/Frame.lean`
-/

set_option linter.unusedSectionVars false

namespace GChop
open Pd

variable {F : Type} [Num F]

/-! ### dictionaries -/

theorem Dict.get?_map {κ ν : Type} [DecidableEq κ] (l : List κ) (f : κ → ν) (k : κ) :
    Dict.get? (l.map fun a => (a, f a)) k = if k ∈ l then some (f k) else none := by
  induction l with
  | nil => rfl
  | cons a l ih =>
    simp only [List.map_cons, Dict.get?, ih, List.mem_cons]
    by_cases h : a = k
    · subst h; simp
    · have h' : ¬ k = a := fun e => h e.symm
      simp [h, h']

theorem Dict.set_map_mem {κ ν : Type} [DecidableEq κ] (l : List κ) (f : κ → ν) (k : κ)
    (h : k ∈ l) : Dict.set (l.map fun a => (a, f a)) k (f k) = l.map fun a => (a, f a) := by
  induction l with
  | nil => cases h
  | cons a l ih =>
    simp only [List.map_cons, Dict.set]
    by_cases hk : a = k
    · subst hk; simp
    · have : k ∈ l := by
        rcases List.mem_cons.1 h with h | h
        · exact absurd h.symm hk
        · exact h
      simp [hk, ih this]

theorem Dict.set_map_not_mem {κ ν : Type} [DecidableEq κ] (l : List κ) (f : κ → ν) (k : κ)
    (h : k ∉ l) : Dict.set (l.map fun a => (a, f a)) k (f k)
      = (l ++ [k]).map fun a => (a, f a) := by
  induction l with
  | nil => rfl
  | cons a l ih =>
    simp only [List.mem_cons, not_or] at h
    have hk : ¬ a = k := fun e => h.1 e.symm
    simp only [List.map_cons, Dict.set, hk, if_false, ih h.2, List.cons_append]

/-! ### `distinct` -/

theorem distinct_foldl_nodup (l acc : List String) (h : acc.Nodup) :
    (l.foldl (fun acc a => if acc.contains a then acc else acc ++ [a]) acc).Nodup := by
  induction l generalizing acc with
  | nil => simpa
  | cons a l ih =>
    simp only [List.foldl_cons]
    apply ih
    by_cases hc : acc.contains a
    · simpa only [hc, if_true] using h
    · simp only [hc]
      have hc' : a ∉ acc := by simpa using hc
      simp only [Bool.false_eq_true, if_false]
      rw [List.nodup_append]
      exact ⟨h, by simp, by simp; exact fun b hb e => hc' (e ▸ hb)⟩

theorem distinct_nodup (l : List String) : (distinct l).Nodup :=
  distinct_foldl_nodup l [] List.nodup_nil

theorem distinct_foldl_mem (l acc : List String) (a : String) :
    a ∈ l.foldl (fun acc a => if acc.contains a then acc else acc ++ [a]) acc ↔ a ∈ acc ∨ a ∈ l := by
  induction l generalizing acc with
  | nil => simp
  | cons b l ih =>
    simp only [List.foldl_cons]
    rw [ih]
    by_cases hc : acc.contains b
    · have hb : b ∈ acc := by simpa using hc
      simp only [hc, if_true, List.mem_cons]
      constructor
      · rintro (h | h)
        · exact Or.inl h
        · exact Or.inr (Or.inr h)
      · rintro (h | h | h)
        · exact Or.inl h
        · exact Or.inl (h ▸ hb)
        · exact Or.inr h
    · simp only [hc, Bool.false_eq_true, if_false, List.mem_append, List.mem_cons,
        List.not_mem_nil, or_false]
      tauto

theorem mem_distinct {l : List String} {a : String} : a ∈ distinct l ↔ a ∈ l := by
  unfold distinct; rw [distinct_foldl_mem]; simp

theorem distinct_foldl_of_nodup (l acc : List String) (h : (acc ++ l).Nodup) :
    l.foldl (fun acc a => if acc.contains a then acc else acc ++ [a]) acc = acc ++ l := by
  induction l generalizing acc with
  | nil => simp
  | cons a l ih =>
    have ha : a ∉ acc := by
      rw [List.nodup_append] at h
      exact fun hm => h.2.2 a hm a List.mem_cons_self rfl
    have : acc.contains a = false := by simpa using ha
    simp only [List.foldl_cons, this, Bool.false_eq_true, if_false]
    rw [ih _ (by simpa using h)]
    simp

theorem distinct_of_nodup {l : List String} (h : l.Nodup) : distinct l = l := by
  unfold distinct; rw [distinct_foldl_of_nodup _ _ (by simpa using h)]; simp

theorem distinct_eq_nil {l : List String} : distinct l = [] ↔ l = [] := by
  constructor
  · intro h
    cases l with
    | nil => rfl
    | cons a l =>
      have : a ∈ distinct (a :: l) := mem_distinct.2 List.mem_cons_self
      rw [h] at this; cases this
  · rintro rfl; rfl

/-! ### columns -/

/-- the column of an attribute of a set -/
def colSpec (t : PType) (s : BSet F) (a : String) : Col F :=
  if scalarAttr s.hasPot a then
    .scalar (if a = "softening" then .num s.soft else .num Num.nan)
  else .arr ((s.rows t).map fun r => r.cell a)

theorem columnsMakers_ofBodies (t : PType) (s : BSet F) :
    ParticleSet.columnsMakers (.ofBodies t s) = attrNames.map fun a => (a, colSpec t s a) := by
  rcases s with ⟨l, hp, soft⟩
  cases hp <;>
  simp [ParticleSet.columnsMakers, attrNames, colSpec, scalarAttr, ParticleSet.ofBodies,
    ParticleSet.len, BSet.rows, Row.cell, attrTable, Function.comp_def, List.map_const']

theorem collectColumns_ok (t : PType) (s : BSet F) (attrs acc : List String)
    (h : ∀ a ∈ attrs, a ∈ attrNames) :
    ParticleSet.collectColumns (ParticleSet.columnsMakers (.ofBodies t s)) attrs
      (acc.map fun a => (a, colSpec t s a))
      = .ok ((attrs.foldl (fun acc a => if acc.contains a then acc else acc ++ [a]) acc).map
          fun a => (a, colSpec t s a)) := by
  induction attrs generalizing acc with
  | nil => rfl
  | cons a attrs ih =>
    have ha := h a List.mem_cons_self
    have hg : Dict.getItem (ParticleSet.columnsMakers (.ofBodies t s)) a = .ok (colSpec t s a) := by
      rw [columnsMakers_ofBodies]
      unfold Dict.getItem
      rw [Dict.get?_map]
      simp [ha]
    simp only [ParticleSet.collectColumns, hg, Py.ok_bind, List.foldl_cons]
    by_cases hc : a ∈ acc
    · rw [Dict.set_map_mem _ _ _ hc, ih _ (fun b hb => h b (List.mem_cons_of_mem _ hb))]
      simp [hc]
    · rw [Dict.set_map_not_mem _ _ _ hc, ih _ (fun b hb => h b (List.mem_cons_of_mem _ hb))]
      simp [hc]

theorem collectColumns_keyError (t : PType) (s : BSet F) (attrs : List String)
    (d : Dict String (Col F)) (h : ∃ a ∈ attrs, a ∉ attrNames) :
    ParticleSet.collectColumns (ParticleSet.columnsMakers (.ofBodies t s)) attrs d
      = .error .keyError := by
  induction attrs generalizing d with
  | nil => obtain ⟨a, ha, _⟩ := h; cases ha
  | cons a attrs ih =>
    have hg : Dict.getItem (ParticleSet.columnsMakers (.ofBodies t s)) a
        = if a ∈ attrNames then .ok (colSpec t s a) else .error .keyError := by
      rw [columnsMakers_ofBodies]
      unfold Dict.getItem
      rw [Dict.get?_map]
      by_cases ha : a ∈ attrNames <;> simp [ha]
    simp only [ParticleSet.collectColumns, hg]
    by_cases ha : a ∈ attrNames
    · simp only [ha, if_true, Py.ok_bind]
      apply ih
      obtain ⟨b, hb, hn⟩ := h
      rcases List.mem_cons.1 hb with rfl | hb
      · exact absurd ha hn
      · exact ⟨b, hb, hn⟩
    · simp [ha]

theorem colSpec_expand (t : PType) (s : BSet F) (a : String) (h : a ∈ attrNames) :
    expand s.bodies.length (colSpec t s a) = (s.rows t).map fun r => r.cell a := by
  rcases s with ⟨l, hp, soft⟩
  simp only [attrNames, List.mem_cons, List.not_mem_nil, or_false] at h
  rcases h with h | h | h | h | h | h | h | h | h | h | h | h | h | h | h | h <;> subst h <;>
  cases hp <;>
  simp [colSpec, scalarAttr, expand, BSet.rows, Row.cell, attrTable, Function.comp_def,
    List.map_const']

theorem arrLens_colSpec (t : PType) (s : BSet F) (l : List String) :
    arrLens (l.map fun a => (a, colSpec t s a))
      = (l.filter fun a => !scalarAttr s.hasPot a).map fun _ => s.bodies.length := by
  induction l with
  | nil => rfl
  | cons a l ih =>
    simp only [List.map_cons, List.filter_cons]
    by_cases h : scalarAttr s.hasPot a
    · simp [colSpec, h, arrLens, ← ih]
    · simp only [Bool.not_eq_true] at h
      simp [colSpec, h, arrLens, ← ih, BSet.rows]

/-- all requested columns are scalars (and there is at least one) -/
def allScalar (hasPot : Bool) (attrs : List String) : Prop :=
  attrs ≠ [] ∧ ∀ a ∈ attrs, scalarAttr hasPot a = true

theorem ofDict_colSpec (t : PType) (s : BSet F) (l : List String) (hl : ∀ a ∈ l, a ∈ attrNames) :
    (allScalar s.hasPot l → ofDict (l.map fun a => (a, colSpec t s a)) = .error .valueError) ∧
    (¬ allScalar s.hasPot l →
      ofDict (l.map fun a => (a, colSpec t s a)) = .ok (tableOf (s.rows t) l)) := by
  unfold ofDict
  rw [arrLens_colSpec]
  constructor
  · rintro ⟨hne, hall⟩
    have : l.filter (fun a => !scalarAttr s.hasPot a) = [] := by
      rw [List.filter_eq_nil_iff]
      intro a ha
      simp [hall a ha]
    rw [this]
    cases l with
    | nil => exact absurd rfl hne
    | cons a l => rfl
  · intro hn
    by_cases hne : l = []
    · subst hne; simp [tableOf]
    · have hex : ∃ a ∈ l, scalarAttr s.hasPot a = false := by
        by_contra hcon
        push Not at hcon
        exact hn ⟨hne, fun a ha => by simpa using hcon a ha⟩
      have hf : l.filter (fun a => !scalarAttr s.hasPot a) ≠ [] := by
        obtain ⟨a, ha, hs⟩ := hex
        exact List.ne_nil_of_mem (a := a) (by simp [ha, hs])
      cases hfl : l.filter (fun a => !scalarAttr s.hasPot a) with
      | nil => exact absurd hfl hf
      | cons b bs =>
        simp only [List.map_cons]
        simp only [List.all_map, Function.comp_def, beq_self_eq_true, List.all_eq_true,
          implies_true, if_true, tableOf, hne, if_false, BSet.rows, List.length_map,
          List.map_map]
        congr 2
        apply List.map_congr_left
        intro a ha
        rw [colSpec_expand t s a (hl a ha)]
        simp [BSet.rows]

/-- `ParticleSet.to_dataframe` on a list of names -/
theorem ParticleSet.toDataframe_ofBodies (t : PType) (s : BSet F) (attrs : List String) :
    ((∃ a ∈ attrs, a ∉ attrNames) →
      ParticleSet.toDataframe (.ofBodies t s) (some attrs) = .error .keyError) ∧
    ((∀ a ∈ attrs, a ∈ attrNames) → allScalar s.hasPot attrs →
      ParticleSet.toDataframe (.ofBodies t s) (some attrs) = .error .valueError) ∧
    ((∀ a ∈ attrs, a ∈ attrNames) → ¬ allScalar s.hasPot attrs →
      ParticleSet.toDataframe (.ofBodies t s) (some attrs)
        = .ok (tableOf (s.rows t) (distinct attrs))) := by
  have hsc : allScalar s.hasPot (distinct attrs) ↔ allScalar s.hasPot attrs := by
    unfold allScalar
    rw [Ne, distinct_eq_nil]
    simp [mem_distinct]
  have hcc : (∀ a ∈ attrs, a ∈ attrNames) →
      ParticleSet.collectColumns (ParticleSet.columnsMakers (.ofBodies t s)) attrs []
        = .ok ((distinct attrs).map fun a => (a, colSpec t s a)) :=
    fun h => collectColumns_ok t s attrs [] h
  refine ⟨fun h => ?_, fun h hs => ?_, fun h hs => ?_⟩
  · simp [ParticleSet.toDataframe, collectColumns_keyError t s attrs [] h]
  · simp only [ParticleSet.toDataframe, Option.getD_some, hcc h, Py.ok_bind]
    exact (ofDict_colSpec t s _ (fun a ha => h a (mem_distinct.1 ha))).1 (hsc.2 hs)
  · simp only [ParticleSet.toDataframe, Option.getD_some, hcc h, Py.ok_bind]
    exact (ofDict_colSpec t s _ (fun a ha => h a (mem_distinct.1 ha))).2 (fun h => hs (hsc.1 h))

theorem ParticleSet.toDataframe_none (t : PType) (s : BSet F) :
    ParticleSet.toDataframe (.ofBodies t s) none
      = ParticleSet.toDataframe (.ofBodies t s) (some attrNames) := by
  unfold ParticleSet.toDataframe
  rw [columnsMakers_ofBodies]
  simp [Dict.keys, Function.comp_def]

/-! ### concatenation -/

theorem unionNames_foldl (ts : List (List (Row F))) (S acc : List String)
    (h : acc = S ∨ acc = []) (hS : S ≠ []) (hne : acc = S ∨ ts ≠ []) :
    (ts.map fun rs => tableOf rs S).foldl
      (fun acc df => acc ++ (Dict.keys df.cols).filter (fun k => !acc.contains k)) acc = S := by
  induction ts generalizing acc with
  | nil =>
    rcases hne with h | h
    · simpa using h
    · exact absurd rfl h
  | cons rs ts ih =>
    simp only [List.map_cons, List.foldl_cons]
    have hk : Dict.keys (tableOf rs S).cols = S := by
      simp [tableOf, hS, Dict.keys, Function.comp_def]
    rw [hk]
    have hstep : acc ++ S.filter (fun k => !acc.contains k) = S := by
      rcases h with rfl | rfl
      · have : acc.filter (fun k => !acc.contains k) = [] := by
          rw [List.filter_eq_nil_iff]; intro a ha; simp [ha]
        rw [this]; simp
      · simp
    rw [hstep]
    exact ih S (Or.inl rfl) (Or.inl rfl)

theorem colOrNaN_tableOf (rs : List (Row F)) (S : List String) (a : String) (h : a ∈ S) :
    colOrNaN (tableOf rs S) a = rs.map fun r => r.cell a := by
  have hS : S ≠ [] := List.ne_nil_of_mem h
  unfold colOrNaN
  simp only [tableOf, hS, if_false]
  rw [Dict.get?_map]
  simp [h]

theorem concatRows_tables (ts : List (List (Row F))) (S : List String) (hts : ts ≠ []) :
    concatRows (ts.map fun rs => tableOf rs S) = .ok (tableOf ts.flatten S) := by
  unfold concatRows
  have hne : (ts.map fun rs => tableOf rs S).isEmpty = false := by
    cases ts with
    | nil => exact absurd rfl hts
    | cons _ _ => rfl
  simp only [hne, Bool.false_eq_true, if_false]
  by_cases hS : S = []
  · subst hS
    have hu : unionNames (ts.map fun rs => tableOf rs ([] : List String)) = [] := by
      unfold unionNames
      clear hne hts
      induction ts with
      | nil => rfl
      | cons t ts ih => simpa [tableOf, Dict.keys] using ih
    rw [hu]
    have hs : ((ts.map fun rs => tableOf rs ([] : List String)).map (·.nrows)).sum = 0 := by
      clear hne hts hu
      induction ts with
      | nil => rfl
      | cons t ts ih => simp [tableOf]
    rw [hs]; simp [tableOf]
  · have hu : unionNames (ts.map fun rs => tableOf rs S) = S :=
      unionNames_foldl ts S [] (Or.inr rfl) hS (Or.inr hts)
    rw [hu]
    simp only [tableOf, hS, if_false]
    congr 2
    · apply List.map_congr_left
      intro a ha
      congr 1
      rw [List.flatMap_map]
      have : ∀ rs : List (Row F), colOrNaN (⟨S.map fun a => (a, rs.map fun r => r.cell a),
          rs.length⟩ : DF F) a = rs.map fun r => r.cell a := by
        intro rs
        have := colOrNaN_tableOf rs S a ha
        simpa [tableOf, hS] using this
      simp only [this]
      rw [List.flatMap_def, ← List.map_flatten]
    · simp [Function.comp_def, List.length_flatten]

/-- the sets of a galaxy with their rows -/
def BGalaxy.psets (g : BGalaxy F) : List (PType × BSet F) :=
  [(.stars, g.sSet), (.darkMatter, g.dmSet), (.gas, g.gSet)]

theorem parts_ok (ptypes : Option (List String)) (attrs : List String) (l : List (PType × BSet F))
    (hk : ∀ a ∈ attrs, a ∈ attrNames) (hs : ∀ p ∈ l, ¬ allScalar p.2.hasPot attrs) :
    Galaxy.parts ptypes (some attrs) (l.map fun p => ParticleSet.ofBodies p.1 p.2)
      = .ok ((l.filter fun p => BGalaxy.selected ptypes p.1).map
          fun p => tableOf (p.2.rows p.1) (distinct attrs)) := by
  induction l with
  | nil => rfl
  | cons p l ih =>
    simp only [List.map_cons, Galaxy.parts]
    have hih := ih (fun q hq => hs q (List.mem_cons_of_mem _ hq))
    have hsel : Galaxy.includes ptypes (ParticleSet.ofBodies p.1 p.2).ptype = BGalaxy.selected ptypes p.1 := by
      cases ptypes <;> rfl
    rw [hsel, hih, ((ParticleSet.toDataframe_ofBodies p.1 p.2 attrs).2.2 hk
      (hs p List.mem_cons_self))]
    by_cases hc : BGalaxy.selected ptypes p.1
    · simp [hc]
    · simp [hc]

theorem parts_err (ptypes : Option (List String)) (attrs : List String) (l : List (PType × BSet F))
    (e : PyErr) (hsel : l.any fun p => BGalaxy.selected ptypes p.1)
    (he : ∀ p ∈ l, ParticleSet.toDataframe (.ofBodies p.1 p.2) (some attrs) = .error e) :
    Galaxy.parts ptypes (some attrs) (l.map fun p => ParticleSet.ofBodies p.1 p.2)
      = .error e := by
  induction l with
  | nil => simp at hsel
  | cons p l ih =>
    simp only [List.map_cons, Galaxy.parts]
    have hs : Galaxy.includes ptypes (ParticleSet.ofBodies p.1 p.2).ptype = BGalaxy.selected ptypes p.1 := by
      cases ptypes <;> rfl
    rw [hs, he p List.mem_cons_self]
    by_cases hc : BGalaxy.selected ptypes p.1
    · simp [hc]
    · simp only [hc, Bool.false_eq_true, if_false]
      apply ih
      · simpa [hc] using hsel
      · exact fun q hq => he q (List.mem_cons_of_mem _ hq)

theorem parts_none_selected (ptypes attrs : Option (List String)) (l : List (PType × BSet F))
    (hsel : ∀ p ∈ l, BGalaxy.selected ptypes p.1 = false) :
    Galaxy.parts ptypes attrs (l.map fun p => ParticleSet.ofBodies p.1 p.2) = .ok [] := by
  induction l with
  | nil => rfl
  | cons p l ih =>
    simp only [List.map_cons, Galaxy.parts]
    have hs : Galaxy.includes ptypes (ParticleSet.ofBodies p.1 p.2).ptype = BGalaxy.selected ptypes p.1 := by
      cases ptypes <;> rfl
    rw [hs, hsel p List.mem_cons_self]
    simp only [Bool.false_eq_true, if_false]
    exact ih fun q hq => hsel q (List.mem_cons_of_mem _ hq)

theorem ofBodies_psets (b : BGalaxy F) :
    [(Galaxy.ofBodies b).stars, (Galaxy.ofBodies b).darkMatter, (Galaxy.ofBodies b).gas]
      = b.psets.map fun p => ParticleSet.ofBodies p.1 p.2 := rfl

theorem someSelected_psets (b : BGalaxy F) (ptypes : Option (List String)) :
    (b.psets.any fun p => BGalaxy.selected ptypes p.1) = BGalaxy.someSelected ptypes := rfl

theorem psets_hasPot (b : BGalaxy F) : ∀ p ∈ b.psets, p.2.hasPot = b.hasPot := by
  intro p hp
  simp only [BGalaxy.psets, List.mem_cons, List.not_mem_nil, or_false] at hp
  rcases hp with rfl | rfl | rfl <;> rfl

theorem psets_rows (b : BGalaxy F) (ptypes : Option (List String)) :
    ((b.psets.filter fun p => BGalaxy.selected ptypes p.1).map fun p => p.2.rows p.1).flatten
      = b.rows ptypes := by
  unfold BGalaxy.psets BGalaxy.rows
  simp only [List.filter_cons, List.filter_nil]
  cases BGalaxy.selected ptypes .stars <;> cases BGalaxy.selected ptypes .darkMatter <;>
    cases BGalaxy.selected ptypes .gas <;> simp

/-- `Galaxy.to_dataframe` in the successful case -/
theorem Galaxy.toDataframe_ok (b : BGalaxy F) (ptypes : Option (List String)) (attrs : List String)
    (hsel : BGalaxy.someSelected ptypes = true) (hk : ∀ a ∈ attrs, a ∈ attrNames)
    (hs : ¬ allScalar b.hasPot attrs) :
    Galaxy.toDataframe (.ofBodies b) ptypes (some attrs)
      = .ok (tableOf (b.rows ptypes) (distinct attrs)) := by
  unfold Galaxy.toDataframe
  rw [ofBodies_psets, parts_ok ptypes attrs b.psets hk
    (fun p hp => by rw [psets_hasPot b p hp]; exact hs)]
  simp only [Py.ok_bind]
  have := concatRows_tables
    ((b.psets.filter fun p => BGalaxy.selected ptypes p.1).map fun p => p.2.rows p.1)
    (distinct attrs) (by
      rw [← someSelected_psets b] at hsel
      intro h
      rw [List.map_eq_nil_iff, List.filter_eq_nil_iff] at h
      rw [List.any_eq_true] at hsel
      obtain ⟨p, hp, hc⟩ := hsel
      exact h p hp hc)
  rw [List.map_map] at this
  rw [psets_rows] at this
  exact this

theorem Galaxy.toDataframe_none_selected (b : BGalaxy F) (ptypes attrs : Option (List String))
    (hsel : BGalaxy.someSelected ptypes = false) :
    Galaxy.toDataframe (.ofBodies b) ptypes attrs = .error .valueError := by
  unfold Galaxy.toDataframe
  rw [ofBodies_psets, parts_none_selected ptypes attrs b.psets]
  · rfl
  · intro p hp
    rw [← someSelected_psets b, List.any_eq_false] at hsel
    simpa using hsel p hp

theorem Galaxy.toDataframe_keyError (b : BGalaxy F) (ptypes : Option (List String))
    (attrs : List String) (hsel : BGalaxy.someSelected ptypes = true)
    (hk : ∃ a ∈ attrs, a ∉ attrNames) :
    Galaxy.toDataframe (.ofBodies b) ptypes (some attrs) = .error .keyError := by
  unfold Galaxy.toDataframe
  rw [ofBodies_psets, parts_err ptypes attrs b.psets .keyError]
  · rfl
  · rw [someSelected_psets]; exact hsel
  · exact fun p _ => (ParticleSet.toDataframe_ofBodies p.1 p.2 attrs).1 hk

theorem Galaxy.toDataframe_allScalar (b : BGalaxy F) (ptypes : Option (List String))
    (attrs : List String) (hsel : BGalaxy.someSelected ptypes = true)
    (hk : ∀ a ∈ attrs, a ∈ attrNames) (hs : allScalar b.hasPot attrs) :
    Galaxy.toDataframe (.ofBodies b) ptypes (some attrs) = .error .valueError := by
  unfold Galaxy.toDataframe
  rw [ofBodies_psets, parts_err ptypes attrs b.psets .valueError]
  · rfl
  · rw [someSelected_psets]; exact hsel
  · exact fun p hp => (ParticleSet.toDataframe_ofBodies p.1 p.2 attrs).2.1 hk
      (by rw [psets_hasPot b p hp]; exact hs)

theorem parts_attrs_none (ptypes : Option (List String)) (l : List (PType × BSet F)) :
    Galaxy.parts ptypes none (l.map fun p => ParticleSet.ofBodies p.1 p.2)
      = Galaxy.parts ptypes (some attrNames) (l.map fun p => ParticleSet.ofBodies p.1 p.2) := by
  induction l with
  | nil => rfl
  | cons p l ih =>
    simp only [List.map_cons, Galaxy.parts, ih, ParticleSet.toDataframe_none]

theorem Galaxy.toDataframe_attrs_none (b : BGalaxy F) (ptypes : Option (List String)) :
    Galaxy.toDataframe (.ofBodies b) ptypes none
      = Galaxy.toDataframe (.ofBodies b) ptypes (some attrNames) := by
  unfold Galaxy.toDataframe
  rw [ofBodies_psets, parts_attrs_none]

/-- selecting a column of a table -/
theorem tableOf_col (rs : List (Row F)) (S : List String) (a : String) (h : a ∈ S) :
    (tableOf rs S).col a = .ok (rs.map fun r => r.cell a) := by
  have hS : S ≠ [] := List.ne_nil_of_mem h
  unfold DF.col Dict.getItem
  simp only [tableOf, hS, if_false]
  rw [Dict.get?_map]
  simp [h]

end GChop
