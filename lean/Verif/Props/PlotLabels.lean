import Verif.Props.Plot

/-!
# C58: the renaming of labels
-/

set_option linter.unusedSectionVars false

namespace GChop
open Pd

variable {F : Type} [Num F]

/-- `df'` is `df` with the column `h` replaced by `col` -/
structure Renamed (df df' : DF F) (h : String) (col : List (Cell F)) : Prop where
  nrows : df'.nrows = df.nrows
  keys : Dict.keys df'.cols = Dict.keys df.cols
  others : ∀ a, a ≠ h → df'.col a = df.col a
  hue : df'.col h = .ok col

/-- the value that a dictionary gives to `c` is `c'`: its image, or `c` if it is not a key -/
def DictImage (d : List (Cell F × Cell F)) (c c' : Cell F) : Prop :=
  (∃ kv ∈ d, cellEq kv.1 c = true ∧ c' = kv.2) ∨ ((∀ kv ∈ d, cellEq kv.1 c = false) ∧ c' = c)

theorem col_set (df : DF F) (h : String) (col : List (Cell F)) (a : String) :
    DF.col ⟨Dict.set df.cols h col, df.nrows⟩ a = if h = a then .ok col else df.col a := by
  unfold DF.col Dict.getItem
  simp only [Dict.get?_set_eq]
  by_cases h1 : h = a
  · simp [h1]
  · simp only [if_neg h1]

theorem relabel_some {df : DF F} {h : String} {col : List (Cell F)} (hne : h ≠ "")
    (hcol : df.col h = .ok col) (m : LMap F) :
    relabel df (some h) (some m) = (do
      let col' ← col.mapM m.apply
      return ⟨Dict.set df.cols h col', df.nrows⟩) := by
  unfold relabel
  simp [hne, hcol]

theorem renamed_set {df : DF F} {h : String} {col : List (Cell F)} (hcol : df.col h = .ok col)
    (col' : List (Cell F)) : Renamed df ⟨Dict.set df.cols h col', df.nrows⟩ h col' := by
  refine ⟨rfl, ?_, ?_, ?_⟩
  · have hm : h ∈ Dict.keys df.cols := by
      rw [Dict.mem_keys]
      unfold DF.col Dict.getItem at hcol
      cases hg : Dict.get? df.cols h with
      | none => rw [hg] at hcol; cases hcol
      | some v => exact ⟨v, rfl⟩
    rw [Dict.keys_set]
    simp [hm]
  · intro a ha
    rw [col_set, if_neg (Ne.symm ha)]
  · rw [col_set, if_pos rfl]

/-- the hue is a column -/
def HueCol (df : DF F) (hue : Option String) : Prop :=
  ∀ h, hue = some h → h ≠ "" ∧ ∃ col, df.col h = .ok col

/-- a frame with hue, then the renaming -/
theorem getDfAndHue_lmap (g : Galaxy F) (ptypes attributes : Option (List String))
    (labels : PlotLabels F) (lmap : Option (LMap F)) :
    getDfAndHue g ptypes attributes labels lmap = (do
      let dh ← getDfAndHue g ptypes attributes labels none
      let df ← relabel dh.1 dh.2 lmap
      return (df, dh.2)) := by
  unfold getDfAndHue
  dsimp only
  cases g.toDataframe ptypes (some (hueAttributes (attributes.getD ["x", "y", "z"]) labels.extract).1) with
  | error e => rfl
  | ok df =>
    simp only [Py.ok_bind]
    cases insertLabels df (hueAttributes (attributes.getD ["x", "y", "z"]) labels.extract).2 labels.extract with
    | error e => rfl
    | ok dh =>
      have : relabel dh.1 dh.2 none = .ok dh.1 := by
        unfold relabel
        cases dh.2 <;> rfl
      simp [this]

theorem insertFront_col {df df' : DF F} {n : String} {l : List (Cell F)}
    (h : df.insertFront n l = .ok df') : df'.col n = .ok l := by
  unfold DF.insertFront at h
  split at h
  · cases h
  · split at h
    · cases h; simp [DF.col, Dict.getItem, Dict.get?]
    · split at h
      · cases h; simp [DF.col, Dict.getItem, Dict.get?]
      · cases h

theorem getDfAndHue_hueCol {b : BGalaxy F} {ptypes attributes : Option (List String)}
    {labels : PlotLabels F} {df : DF F} {hue : Option String}
    (h : getDfAndHue (Galaxy.ofBodies b) ptypes attributes labels none = .ok (df, hue)) :
    HueCol df hue := by
  have key : ∀ l, labels.extract = .arr l → HueCol df hue := by
    intro l hl
    rw [getDfAndHue_arr b ptypes attributes labels l hl] at h
    cases ht : Galaxy.toDataframe (Galaxy.ofBodies b) ptypes (some (attributes.getD plotDefault)) with
    | error e => rw [ht] at h; cases h
    | ok d =>
      rw [ht] at h
      simp only [Py.ok_bind] at h
      cases hi : d.insertFront "Labels" l with
      | error e => rw [hi] at h; cases h
      | ok d' =>
        rw [hi] at h
        simp only [Py.ok_bind] at h
        injection h with h
        injection h with h1 h2
        subst h1; subst h2
        rintro x hx
        injection hx with hx
        subst hx
        exact ⟨by decide, l, insertFront_col hi⟩
  cases labels with
  | arr l => exact key l rfl
  | comps c => exact key _ rfl
  | none =>
    rw [C56_no_labels] at h
    cases ht : Galaxy.toDataframe (Galaxy.ofBodies b) ptypes (some (attributes.getD ["x", "y", "z"])) with
    | error e => rw [ht] at h; cases h
    | ok d =>
      rw [ht] at h
      simp only [Py.ok_bind] at h
      injection h with h
      injection h with h1 h2
      subst h2
      rintro x hx
      cases hx
  | attr s =>
    unfold getDfAndHue at h
    simp only [PlotLabels.extract, hueAttributes] at h
    cases ht : Galaxy.toDataframe (Galaxy.ofBodies b) ptypes
        (some (npUnique (attributes.getD ["x", "y", "z"] ++ [s]))) with
    | error e => rw [ht] at h; cases h
    | ok d =>
      rw [ht] at h
      simp only [Py.ok_bind, insertLabels, relabel] at h
      injection h with h
      injection h with h1 h2
      subst h1; subst h2
      rintro x hx
      injection hx with hx
      subst hx
      obtain ⟨rfl, hk⟩ := toDataframe_inv ht
      have hm : s ∈ npUnique (attributes.getD ["x", "y", "z"] ++ [s]) := mem_npUnique.2 (by simp)
      refine ⟨?_, _, tableOf_col _ _ s (mem_distinct.2 hm)⟩
      rintro rfl
      have := hk "" hm
      revert this
      decide

/-- what a renaming does to a frame with hue -/
theorem relabel_dict {df : DF F} {h : String} (hc : HueCol df (some h)) (d : List (Cell F × Cell F)) :
    ∃ col col' df', df.col h = .ok col ∧ relabel df (some h) (some (.dict d)) = .ok df' ∧
      Renamed df df' h col' ∧ List.Forall₂ (DictImage d) col col' := by
  obtain ⟨hne, col, hcol⟩ := hc h rfl
  have hm : col.mapM (LMap.dict d).apply
      = .ok (col.map fun c => ((d.find? fun kv => cellEq kv.1 c).map (·.2)).getD c) :=
    mapM_ok _ _ _ fun c _ => rfl
  refine ⟨col, col.map fun c => ((d.find? fun kv => cellEq kv.1 c).map (·.2)).getD c, _, hcol, ?_,
    renamed_set hcol _, ?_⟩
  · rw [relabel_some hne hcol, hm]
    rfl
  · rw [List.forall₂_map_right_iff, List.forall₂_same]
    intro c _
    cases hf : d.find? fun kv => cellEq kv.1 c with
    | none =>
      right
      rw [List.find?_eq_none] at hf
      exact ⟨fun kv hkv => by simpa using hf kv hkv, rfl⟩
    | some kv =>
      left
      exact ⟨kv, List.mem_of_find?_eq_some hf, by simpa using List.find?_some hf, rfl⟩

theorem relabel_func {df : DF F} {h : String} (hc : HueCol df (some h)) (f : Cell F → Py (Cell F)) :
    ∃ col, df.col h = .ok col ∧
      (∀ g : Cell F → Cell F, (∀ c ∈ col, f c = .ok (g c)) →
        ∃ df', relabel df (some h) (some (.func f)) = .ok df' ∧ Renamed df df' h (col.map g)) ∧
      (∀ e, col.mapM f = .error e → relabel df (some h) (some (.func f)) = .error e) := by
  obtain ⟨hne, col, hcol⟩ := hc h rfl
  refine ⟨col, hcol, ?_, ?_⟩
  · intro g hg
    refine ⟨_, ?_, renamed_set hcol _⟩
    rw [relabel_some hne hcol]
    change (col.mapM f >>= _) = _
    rw [mapM_ok _ _ g hg]
    rfl
  · intro e he
    rw [relabel_some hne hcol]
    change (col.mapM f >>= _) = _
    rw [he]
    rfl

/-- C58: a dictionary renames the hue values that are keys and changes nothing else. -/
theorem C58_dict {b : BGalaxy F} {ptypes attributes : Option (List String)} {labels : PlotLabels F}
    {df : DF F} {h : String}
    (hr : getDfAndHue (Galaxy.ofBodies b) ptypes attributes labels none = .ok (df, some h))
    (d : List (Cell F × Cell F)) :
    ∃ col col' df', df.col h = .ok col ∧
      getDfAndHue (Galaxy.ofBodies b) ptypes attributes labels (some (.dict d)) = .ok (df', some h) ∧
      Renamed df df' h col' ∧ List.Forall₂ (DictImage d) col col' := by
  obtain ⟨col, col', df', h1, h2, h3, h4⟩ := relabel_dict (getDfAndHue_hueCol hr) d
  refine ⟨col, col', df', h1, ?_, h3, h4⟩
  rw [getDfAndHue_lmap, hr]
  simp [h2]

/-- C58: a function is applied to every hue value; if it raises, its exception escapes. -/
theorem C58_func {b : BGalaxy F} {ptypes attributes : Option (List String)} {labels : PlotLabels F}
    {df : DF F} {h : String}
    (hr : getDfAndHue (Galaxy.ofBodies b) ptypes attributes labels none = .ok (df, some h))
    (f : Cell F → Py (Cell F)) :
    ∃ col, df.col h = .ok col ∧
      (∀ g : Cell F → Cell F, (∀ c ∈ col, f c = .ok (g c)) → ∃ df',
        getDfAndHue (Galaxy.ofBodies b) ptypes attributes labels (some (.func f)) = .ok (df', some h) ∧
        Renamed df df' h (col.map g)) ∧
      (∀ e, col.mapM f = .error e →
        getDfAndHue (Galaxy.ofBodies b) ptypes attributes labels (some (.func f)) = .error e) := by
  obtain ⟨col, h1, h2, h3⟩ := relabel_func (getDfAndHue_hueCol hr) f
  refine ⟨col, h1, ?_, ?_⟩
  · intro g hg
    obtain ⟨df', h4, h5⟩ := h2 g hg
    refine ⟨df', ?_, h5⟩
    rw [getDfAndHue_lmap, hr]
    simp [h4]
  · intro e he
    rw [getDfAndHue_lmap, hr]
    simp only [Py.ok_bind, h3 e he]
    rfl

/-- C58: without hue, or when the frame cannot be built, the map changes nothing. -/
theorem C58_no_effect {g : Galaxy F} {ptypes attributes : Option (List String)}
    {labels : PlotLabels F} (lmap : Option (LMap F)) :
    (∀ df, getDfAndHue g ptypes attributes labels none = .ok (df, none) →
      getDfAndHue g ptypes attributes labels lmap = .ok (df, none)) ∧
    (∀ e, getDfAndHue g ptypes attributes labels none = .error e →
      getDfAndHue g ptypes attributes labels lmap = .error e) := by
  constructor
  · intro df h
    rw [getDfAndHue_lmap, h]
    simp [relabel]
  · intro e h
    rw [getDfAndHue_lmap, h]
    rfl

/-! The same for circularity plots. -/

theorem getCircDfAndHue_lmap (env : CircEnv F) (g : Galaxy F) (cbins : F × F)
    (attributes : Option (List String)) (labels : PlotLabels F) (lmap : Option (LMap F)) :
    getCircDfAndHue env g cbins attributes labels lmap = (do
      let dh ← getCircDfAndHue env g cbins attributes labels none
      let df ← relabel dh.1 dh.2 lmap
      return (df, dh.2)) := by
  unfold getCircDfAndHue
  dsimp only
  cases jcirc env g cbins.1 cbins.2 with
  | error e => rfl
  | ok j =>
    simp only [Py.ok_bind]
    cases j.isfinite with
    | error e => rfl
    | ok mask =>
      simp only [Py.ok_bind]
      generalize hueAttributes (attributes.getD (Dict.keys j.asDict)) labels.extract = ah
      cases circColumns j.asDict mask ah.1 [] with
      | error e => rfl
      | ok cols =>
        simp only [Py.ok_bind]
        cases ofDict cols with
        | error e => rfl
        | ok df =>
          simp only [Py.ok_bind]
          cases circLabels labels.extract with
          | error e => rfl
          | ok l =>
            simp only [Py.ok_bind]
            cases insertLabels df ah.2 l with
            | error e => rfl
            | ok dh =>
              have : relabel dh.1 dh.2 none = .ok dh.1 := by
                unfold relabel
                cases dh.2 <;> rfl
              simp [this]

/-! ## Examples -/

example : getDfAndHue (Galaxy.ofBodies exBG) (some ["stars"]) (some ["m"])
      (.comps ⟨[some 1, some 0], ["stars", "stars"], none⟩) (some (.dict [(.int 1, .str "Disk")]))
    = .ok (⟨[("Labels", [.str "Disk", .num (q 0)]), ("m", [.num (q 1), .num (q 2)])], 2⟩, some "Labels") := by
  decide +kernel
example : getDfAndHue (Galaxy.ofBodies exBG) (some ["stars"]) (some ["m"])
      (.arr [.int 1, .int 0]) (some (.func fun c => if c = .int 1 then .ok (.str "Disk") else .error .keyError))
    = .error .keyError := by
  decide +kernel
example : getDfAndHue (Galaxy.ofBodies exBG) (some ["stars"]) (some ["m"])
      (.arr [.int 1, .int 0]) (some (.func fun c => .ok (if c = .int 1 then .str "Disk" else c)))
    = .ok (⟨[("Labels", [.str "Disk", .int 0]), ("m", [.num (q 1), .num (q 2)])], 2⟩, some "Labels") := by
  decide +kernel
example : getDfAndHue (Galaxy.ofBodies exBG) (some ["stars"]) (some ["m"]) .none
      (some (.func fun _ => .error .keyError))
    = .ok (⟨[("m", [.num (q 1), .num (q 2)])], 2⟩, none) := by
  decide +kernel

end GChop
