import Verif.Plot
import Verif.Props.StarsOnly
import Verif.Lemmas.Dict

/-!
# C55 to C58: plots
-/

set_option linter.unusedSectionVars false

namespace GChop
open Pd

variable {F : Type} [Num F]

/-! ## C55 -/

/-- the plot methods -/
def plotMethods : List String :=
  ["pairplot", "scatter", "hist", "kde", "circ_pairplot", "circ_scatter", "circ_hist", "circ_kde"]

/-- C55, for any object: an underscore, a helper and a name without callable attribute are
`ValueError`; otherwise the method is called with the arguments. -/
theorem C55_call {K R : Type} (attrs : String → Option (K → Py R)) (kind : String) (kwargs : K) :
    ((∃ t, kind.toList = '_' :: t) ∨ kind = "get_df_and_hue" ∨ kind = "get_circ_df_and_hue" ∨
        attrs kind = none → plotCallWith attrs kind kwargs = .error .valueError) ∧
    (∀ m, (¬ ∃ t, kind.toList = '_' :: t) → kind ≠ "get_df_and_hue" → kind ≠ "get_circ_df_and_hue" →
      attrs kind = some m → plotCallWith attrs kind kwargs = m kwargs) := by
  have hu : startsUnderscore kind = true ↔ ∃ t, kind.toList = '_' :: t := by
    unfold startsUnderscore
    cases h : kind.toList with
    | nil => simp
    | cons c t => simp
  have hf : plotForbidden.contains kind = true ↔
      kind = "get_df_and_hue" ∨ kind = "get_circ_df_and_hue" := by
    simp [plotForbidden]
  unfold plotCallWith
  constructor
  · intro h
    by_cases h1 : (startsUnderscore kind || plotForbidden.contains kind) = true
    · rw [if_pos h1]
    · rw [if_neg h1]
      rw [Bool.or_eq_true, hu, hf] at h1
      have : attrs kind = none := by tauto
      rw [this]
  · intro m h1 h2 h3 h4
    rw [if_neg, h4]
    rw [Bool.or_eq_true, hu, hf]
    tauto

/-- C55: on a galaxy, the eight plot methods are called with the arguments and every other string is
a `ValueError`. -/
theorem C55_dispatch {K R : Type} (methods : String → K → Py R)
    (hidden : String → Option (K → Py R)) (kind : String) (kwargs : K) :
    (kind ∈ plotMethods → plotCall methods hidden kind kwargs = methods kind kwargs) ∧
    (kind ∉ plotMethods → plotCall methods hidden kind kwargs = .error .valueError) := by
  constructor
  · intro h
    simp only [plotMethods, List.mem_cons, List.not_mem_nil, or_false] at h
    rcases h with rfl | rfl | rfl | rfl | rfl | rfl | rfl | rfl <;> rfl
  · intro h
    unfold plotCall plotCallWith
    split
    · rfl
    · next h1 =>
      rw [Bool.or_eq_true, not_or] at h1
      have hn : plotterAttrs methods hidden kind = none := by
        unfold plotterAttrs
        rw [if_neg h1.1, if_neg]
        intro h2
        simp only [plotForbidden, List.contains_eq_mem, List.mem_cons, List.not_mem_nil, or_false,
          decide_eq_true_eq] at h1
        simp only [plotterPublic, List.contains_eq_mem, List.mem_cons, List.not_mem_nil, or_false,
          decide_eq_true_eq] at h2
        simp only [plotMethods, List.mem_cons, List.not_mem_nil, or_false] at h
        tauto
      rw [hn]

example : plotCall (K := Unit) (R := String) (fun n _ => .ok n) (fun n => some fun _ => .ok n) "hist" ()
    = .ok "hist" := rfl
example : plotCall (K := Unit) (R := String) (fun n _ => .ok n) (fun n => some fun _ => .ok n) "_galaxy" ()
    = .error .valueError := rfl
example : plotCall (K := Unit) (R := String) (fun n _ => .ok n) (fun n => some fun _ => .ok n)
    "get_df_and_hue" () = .error .valueError := rfl

/-! ## The frame before the labels -/

/-- a table that could be built, and why -/
theorem toDataframe_inv {b : BGalaxy F} {ptypes : Option (List String)} {attrs : List String} {df : DF F}
    (h : Galaxy.toDataframe (Galaxy.ofBodies b) ptypes (some attrs) = .ok df) :
    df = tableOf (b.rows ptypes) (distinct attrs) ∧ ∀ a ∈ attrs, a ∈ attrNames := by
  cases hsel : BGalaxy.someSelected ptypes with
  | false => rw [Galaxy.toDataframe_none_selected b ptypes _ hsel] at h; cases h
  | true =>
    by_cases hk : ∀ a ∈ attrs, a ∈ attrNames
    · by_cases hs : allScalar b.hasPot attrs
      · rw [Galaxy.toDataframe_allScalar b ptypes attrs hsel hk hs] at h; cases h
      · rw [Galaxy.toDataframe_ok b ptypes attrs hsel hk hs] at h
        cases h
        exact ⟨rfl, hk⟩
    · push Not at hk
      rw [Galaxy.toDataframe_keyError b ptypes attrs hsel hk] at h; cases h

theorem mem_npUnique {l : List String} {a : String} : a ∈ npUnique l ↔ a ∈ l := by
  unfold npUnique
  rw [List.mem_insertionSort, List.mem_dedup]

theorem npUnique_nodup (l : List String) : (npUnique l).Nodup := by
  unfold npUnique
  exact (List.perm_insertionSort _ _).nodup_iff.2 (List.nodup_dedup l)

theorem npUnique_sorted (l : List String) :
    (npUnique l).Pairwise fun a b => a.toList ≤ b.toList := by
  unfold npUnique
  have : Std.Total (fun a b : String => a.toList ≤ b.toList) := ⟨fun a b => List.le_total _ _⟩
  have : IsTrans String (fun a b : String => a.toList ≤ b.toList) := ⟨fun a b c => List.le_trans⟩
  exact List.pairwise_insertionSort _ _

/-! ## C56 -/

/-- the attributes plotted when none are given -/
def plotDefault : List String := ["x", "y", "z"]

/-- the frame asked of the galaxy fits: some type is selected, the names are known, and one of them
is an array -/
def CanTabulate (b : BGalaxy F) (ptypes : Option (List String)) (attrs : List String) : Prop :=
  (∃ t, BGalaxy.selected ptypes t = true) ∧ (∀ a ∈ attrs, a ∈ attrNames) ∧
    ∃ a ∈ attrs, scalarAttr b.hasPot a = false

theorem CanTabulate.table {b : BGalaxy F} {ptypes : Option (List String)} {attrs : List String}
    (h : CanTabulate b ptypes attrs) :
    Galaxy.toDataframe (Galaxy.ofBodies b) ptypes (some attrs)
      = .ok (tableOf (b.rows ptypes) (distinct attrs)) ∧ distinct attrs ≠ [] := by
  obtain ⟨⟨t, ht⟩, hk, a, ha, hf⟩ := h
  have hsel' : BGalaxy.someSelected ptypes = true := by
    unfold BGalaxy.someSelected
    rw [List.any_eq_true]
    exact ⟨t, by cases t <;> simp [PType.members], ht⟩
  have hns : ¬ allScalar b.hasPot attrs := by
    rintro ⟨_, h⟩
    rw [h a ha] at hf; cases hf
  refine ⟨Galaxy.toDataframe_ok b ptypes attrs hsel' hk hns, ?_⟩
  rw [Ne, distinct_eq_nil]
  rintro rfl
  cases ha

theorem not_labels {attrs : List String} (hk : ∀ a ∈ attrs, a ∈ attrNames) :
    "Labels" ∉ attrs := fun h => by
  have := hk _ h
  revert this
  decide

theorem getDfAndHue_arr (b : BGalaxy F) (ptypes attributes : Option (List String))
    (labels : PlotLabels F) (l : List (Cell F)) (hl : labels.extract = .arr l) :
    getDfAndHue (Galaxy.ofBodies b) ptypes attributes labels none = (do
      let df ← Galaxy.toDataframe (Galaxy.ofBodies b) ptypes (some (attributes.getD plotDefault))
      let df ← df.insertFront "Labels" l
      return (df, some "Labels")) := by
  unfold getDfAndHue
  simp only [hl]
  change (do
    let df ← Galaxy.toDataframe (Galaxy.ofBodies b) ptypes (some (attributes.getD plotDefault))
    let dh ← insertLabels df none (.arr l)
    let df ← relabel dh.1 dh.2 none
    return (df, dh.2)) = _
  cases Galaxy.toDataframe (Galaxy.ofBodies b) ptypes (some (attributes.getD plotDefault)) with
  | error e => rfl
  | ok df =>
    simp only [Py.ok_bind, insertLabels, Option.isNone_none, if_true]
    cases df.insertFront "Labels" l with
    | error e => rfl
    | ok df' => simp [relabel]

/-- the labels given to a plot, as cells -/
def PlotLabels.Cells (labels : PlotLabels F) (l : List (Cell F)) : Prop :=
  labels = .arr l ∨ ∃ c : Components F, labels = .comps c ∧ l = c.labels.map Components.labelCell

theorem PlotLabels.Cells.extract {labels : PlotLabels F} {l : List (Cell F)} (h : labels.Cells l) :
    labels.extract = .arr l := by
  rcases h with rfl | ⟨c, rfl, rfl⟩ <;> rfl

theorem tableOf_keys (rs : List (Row F)) (S : List String) : Dict.keys (tableOf rs S).cols = S := by
  unfold tableOf
  split
  · next h => rw [h]; rfl
  · simp [Dict.keys, Function.comp_def]

/-- C56: labels in an array or a `Components`, one per row: the frame has the labels in front and the
attributes after them; row `i` has label `i` and the attributes of particle `i`. -/
theorem C56_labels (b : BGalaxy F) (ptypes attributes : Option (List String)) (labels : PlotLabels F)
    (l : List (Cell F)) (hl : labels.Cells l)
    (ht : CanTabulate b ptypes (attributes.getD ["x", "y", "z"]))
    (hn : l.length = (b.rows ptypes).length) :
    ∃ df, getDfAndHue (Galaxy.ofBodies b) ptypes attributes labels none = .ok (df, some "Labels") ∧
      df.nrows = (b.rows ptypes).length ∧
      Dict.keys df.cols = "Labels" :: distinct (attributes.getD ["x", "y", "z"]) ∧
      df.col "Labels" = .ok l ∧
      ∀ a ∈ attributes.getD ["x", "y", "z"], df.col a = .ok ((b.rows ptypes).map fun r => r.cell a) := by
  rw [getDfAndHue_arr b ptypes attributes labels l hl.extract]
  obtain ⟨h1, h2⟩ := ht.table
  have hno := not_labels ht.2.1
  change Galaxy.toDataframe (Galaxy.ofBodies b) ptypes (some (attributes.getD plotDefault)) = _ at h1
  rw [h1]
  have hins : (tableOf (b.rows ptypes) (distinct (attributes.getD ["x", "y", "z"]))).insertFront "Labels" l
      = .ok ⟨("Labels", l) :: (tableOf (b.rows ptypes) (distinct (attributes.getD ["x", "y", "z"]))).cols,
        (b.rows ptypes).length⟩ := by
    unfold DF.insertFront
    rw [if_neg, if_pos]
    · simp [tableOf, h2]
    · simp [tableOf, h2, hn]
    · rw [tableOf_keys]
      simpa [mem_distinct] using hno
  simp only [Py.ok_bind, hins]
  refine ⟨_, rfl, rfl, ?_, ?_, ?_⟩
  · change "Labels" :: Dict.keys (tableOf _ _).cols = _
    rw [tableOf_keys]
  · simp [DF.col, Dict.getItem, Dict.get?]
  · intro a ha
    have hne : "Labels" ≠ a := fun h => hno (h ▸ ha)
    have := tableOf_col (b.rows ptypes) _ a (mem_distinct.2 ha)
    unfold DF.col Dict.getItem at this ⊢
    simp only [Dict.get?, if_neg hne]
    exact this

/-- C56: another number of labels than rows is a `ValueError`, if there is at least one row. -/
theorem C56_wrong_length (b : BGalaxy F) (ptypes attributes : Option (List String))
    (labels : PlotLabels F) (l : List (Cell F)) (hl : labels.Cells l)
    (ht : CanTabulate b ptypes (attributes.getD ["x", "y", "z"]))
    (hn : l.length ≠ (b.rows ptypes).length) (h0 : b.rows ptypes ≠ []) :
    getDfAndHue (Galaxy.ofBodies b) ptypes attributes labels none = .error .valueError := by
  rw [getDfAndHue_arr b ptypes attributes labels l hl.extract]
  obtain ⟨h1, h2⟩ := ht.table
  change Galaxy.toDataframe (Galaxy.ofBodies b) ptypes (some (attributes.getD plotDefault)) = _ at h1
  rw [h1]
  have hins : (tableOf (b.rows ptypes) (distinct (attributes.getD ["x", "y", "z"]))).insertFront "Labels" l
      = .error .valueError := by
    unfold DF.insertFront
    have hr : (tableOf (b.rows ptypes) (distinct (attributes.getD ["x", "y", "z"]))).nrows
        = (b.rows ptypes).length := by simp [tableOf, h2]
    have h0' : ¬ (b.rows ptypes).length = 0 := by simpa using h0
    rw [hr, if_neg hn, if_neg h0']
    split <;> rfl
  simp only [Py.ok_bind, hins]
  rfl

/-- C56 (limits): labels for a frame without rows do not raise: pandas makes rows of NaN for them. -/
theorem C56_no_rows (b : BGalaxy F) (ptypes attributes : Option (List String)) (labels : PlotLabels F)
    (l : List (Cell F)) (hl : labels.Cells l)
    (ht : CanTabulate b ptypes (attributes.getD ["x", "y", "z"])) (h0 : b.rows ptypes = [])
    (hl0 : l ≠ []) :
    getDfAndHue (Galaxy.ofBodies b) ptypes attributes labels none
      = .ok (⟨("Labels", l) :: (distinct (attributes.getD ["x", "y", "z"])).map fun a =>
          (a, List.replicate l.length (.num Num.nan)), l.length⟩, some "Labels") := by
  rw [getDfAndHue_arr b ptypes attributes labels l hl.extract]
  obtain ⟨h1, h2⟩ := ht.table
  have hno := not_labels ht.2.1
  change Galaxy.toDataframe (Galaxy.ofBodies b) ptypes (some (attributes.getD plotDefault)) = _ at h1
  rw [h1]
  have hins : (tableOf (b.rows ptypes) (distinct (attributes.getD ["x", "y", "z"]))).insertFront "Labels" l
      = .ok ⟨("Labels", l) :: (distinct (attributes.getD ["x", "y", "z"])).map fun a =>
          (a, List.replicate l.length (.num Num.nan)), l.length⟩ := by
    unfold DF.insertFront
    have hr : (tableOf (b.rows ptypes) (distinct (attributes.getD ["x", "y", "z"]))).nrows = 0 := by
      simp [tableOf, h2, h0]
    rw [hr, if_neg, if_neg (by simpa using hl0), if_pos rfl]
    · simp [tableOf, h2, Function.comp_def]
    · rw [tableOf_keys]
      simpa [mem_distinct] using hno
  simp only [Py.ok_bind, hins]
  rfl

/-- C56: a string label is an attribute of the frame and the hue; the attributes are in alphabetical
order then. -/
theorem C56_attribute (b : BGalaxy F) (ptypes attributes : Option (List String)) (s : String)
    (ht : CanTabulate b ptypes (attributes.getD ["x", "y", "z"] ++ [s])) :
    ∃ df, getDfAndHue (Galaxy.ofBodies b) ptypes attributes (.attr s) none = .ok (df, some s) ∧
      df.nrows = (b.rows ptypes).length ∧
      (Dict.keys df.cols).Pairwise (fun a b => a.toList ≤ b.toList) ∧ (Dict.keys df.cols).Nodup ∧
      (∀ a, a ∈ Dict.keys df.cols ↔ a = s ∨ a ∈ attributes.getD ["x", "y", "z"]) ∧
      ∀ a, a = s ∨ a ∈ attributes.getD ["x", "y", "z"] →
        df.col a = .ok ((b.rows ptypes).map fun r => r.cell a) := by
  set A := attributes.getD ["x", "y", "z"] with hA
  have ht' : CanTabulate b ptypes (npUnique (A ++ [s])) := by
    obtain ⟨h1, h2, a, h3, h4⟩ := ht
    exact ⟨h1, fun a ha => h2 a (mem_npUnique.1 ha), a, mem_npUnique.2 h3, h4⟩
  obtain ⟨h1, h2⟩ := ht'.table
  rw [distinct_of_nodup (npUnique_nodup _)] at h1 h2
  have hres : getDfAndHue (Galaxy.ofBodies b) ptypes attributes (.attr s) none
      = .ok (tableOf (b.rows ptypes) (npUnique (A ++ [s])), some s) := by
    unfold getDfAndHue
    simp only [PlotLabels.extract, hueAttributes, ← hA]
    rw [h1]
    simp [insertLabels, relabel]
  have hm : ∀ a, a ∈ npUnique (A ++ [s]) ↔ a = s ∨ a ∈ A := by
    intro a
    rw [mem_npUnique, List.mem_append, List.mem_singleton, or_comm]
  refine ⟨_, hres, by simp [tableOf, h2], ?_, ?_, ?_, ?_⟩
  · rw [tableOf_keys]; exact npUnique_sorted _
  · rw [tableOf_keys]; exact npUnique_nodup _
  · rw [tableOf_keys]; exact hm
  · intro a ha
    exact tableOf_col _ _ a ((hm a).2 ha)

/-- C56: without labels the frame is that of the attributes and there is no hue, whatever `lmap`. -/
theorem C56_no_labels (b : BGalaxy F) (ptypes attributes : Option (List String))
    (lmap : Option (LMap F)) :
    getDfAndHue (Galaxy.ofBodies b) ptypes attributes .none lmap = (do
      let df ← Galaxy.toDataframe (Galaxy.ofBodies b) ptypes (some (attributes.getD ["x", "y", "z"]))
      return (df, none)) := by
  unfold getDfAndHue
  simp only [PlotLabels.extract, hueAttributes]
  cases Galaxy.toDataframe (Galaxy.ofBodies b) ptypes (some (attributes.getD ["x", "y", "z"])) with
  | error e => rfl
  | ok df => simp [insertLabels, relabel]

/-- C56: if the frame cannot be built the error is that of `to_dataframe`, whatever the labels. -/
theorem C56_frame_error (b : BGalaxy F) (ptypes attributes : Option (List String))
    (labels : PlotLabels F) (lmap : Option (LMap F)) (e : PyErr)
    (h : Galaxy.toDataframe (Galaxy.ofBodies b) ptypes
      (some (hueAttributes (attributes.getD ["x", "y", "z"]) labels.extract).1) = .error e) :
    getDfAndHue (Galaxy.ofBodies b) ptypes attributes labels lmap = .error e := by
  unfold getDfAndHue
  simp only [h]
  rfl

example : getDfAndHue (Galaxy.ofBodies exBG) (some ["stars"]) (some ["m"])
      (.comps ⟨[some 1, none], ["stars", "stars"], none⟩) none
    = .ok (⟨[("Labels", [.num (q 1), .num .nan]), ("m", [.num (q 1), .num (q 2)])], 2⟩, some "Labels") := by
  decide +kernel
example : getDfAndHue (Galaxy.ofBodies exBG) none (some ["m"]) (.arr [.int 1]) none
    = .error .valueError := by decide +kernel
example : getDfAndHue (Galaxy.ofBodies exBG) (some ["dark_matter"]) (some ["m"]) (.arr [.int 1]) none
    = .ok (⟨[("Labels", [.int 1]), ("m", [.num .nan])], 1⟩, some "Labels") := by decide +kernel
example : getDfAndHue (Galaxy.ofBodies exBG) (some ["gas"]) (some ["x", "m"]) (.attr "ptype") none
    = .ok (⟨[("m", [.num (q 3)]), ("ptype", [.str "gas"]), ("x", [.num (q 7)])], 1⟩, some "ptype") := by
  decide +kernel
example : CanTabulate exBG none ["x", "y", "z"] :=
  ⟨⟨.stars, rfl⟩, by decide, "x", by decide, rfl⟩

end GChop
