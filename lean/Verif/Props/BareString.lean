import Verif.BareString
import Verif.Props.Data

/-!
# C97: a bare string for `ptypes` or `attributes`

`ptypes="stars"` selects the stars, but so does every string in which the word occurs.  `attributes="xyz"`
gives the three coordinates, but the only attributes that can be asked for in this way are `m`, `x`, `y`
and `z`.
-/

namespace GChop
open Pd

variable {F : Type} [Num F]

theorem startsWith_iff (a b : List Char) : startsWith a b = true ↔ a <+: b := by
  induction a generalizing b with
  | nil => simp [startsWith]
  | cons x a ih =>
    cases b with
    | nil => simp [startsWith]
    | cons y b => simp [startsWith, ih, List.cons_prefix_cons]

theorem substringIn_iff (a b : List Char) : substringIn a b = true ↔ a <:+: b := by
  induction b with
  | nil => simp [substringIn, startsWith_iff]
  | cons x b ih => simp [substringIn, startsWith_iff, ih, List.infix_cons_iff]

/-- the tuple of names a `ptypes` argument stands for: those of the three names that occur in it -/
def NamesArg.ptypes : NamesArg → List String
  | .names l => l
  | .text s => ["stars", "dark_matter", "gas"].filter fun n => decide (n.toList <:+: s.toList)

/-- the tuple of names an `attributes` argument stands for: its characters -/
def NamesArg.attributes : NamesArg → List String
  | .names l => l
  | .text s => s.toList.map fun c => String.ofList [c]

theorem has_ptypes (a : NamesArg) (t : PType) :
    a.has t.humanize = a.ptypes.contains t.humanize := by
  cases a with
  | names l => rfl
  | text s =>
    rw [Bool.eq_iff_iff]
    simp only [NamesArg.has, substringIn_iff, NamesArg.ptypes, List.contains_iff_mem,
      List.mem_filter, decide_eq_true_eq]
    exact ⟨fun h => ⟨by cases t <;> decide, h⟩, fun h => h.2⟩

theorem ParticleSet.toDataframeArg_eq (p : ParticleSet F) (attributes : Option NamesArg) :
    p.toDataframeArg attributes = p.toDataframe (attributes.map NamesArg.attributes) := by
  rcases attributes with _ | a
  · rfl
  · cases a <;> rfl

theorem Galaxy.partsArg_eq (ptypes attributes : Option NamesArg) (l : List (ParticleSet F)) :
    Galaxy.partsArg ptypes attributes l =
      Galaxy.parts (ptypes.map NamesArg.ptypes) (attributes.map NamesArg.attributes) l := by
  induction l with
  | nil => rfl
  | cons p l ih =>
    unfold Galaxy.partsArg Galaxy.parts
    rw [ih, ParticleSet.toDataframeArg_eq]
    cases ptypes with
    | none => rfl
    | some a =>
      simp only [Option.map_some, Galaxy.includes]
      rw [has_ptypes]
      rfl

/-- C97: a bare string as `ptypes` stands for the tuple of the particle type names that occur in it, and a
bare string as `attributes` for the tuple of its characters. -/
theorem C97_to_dataframe (g : Galaxy F) (ptypes attributes : Option NamesArg) :
    g.toDataframeArg ptypes attributes =
      g.toDataframe (ptypes.map NamesArg.ptypes) (attributes.map NamesArg.attributes) := by
  unfold Galaxy.toDataframeArg Galaxy.toDataframe
  rw [Galaxy.partsArg_eq]

/-- C97: the same in `get_df_and_hue`, so in the plots. -/
theorem C97_plots (g : Galaxy F) (ptypes attributes : Option NamesArg) (labels : PlotLabels F)
    (lmap : Option (LMap F)) :
    getDfAndHueArg g ptypes attributes labels lmap =
      getDfAndHue g (ptypes.map NamesArg.ptypes) (attributes.map NamesArg.attributes) labels
        lmap := by
  have e : ∀ (a : NamesArg), hueAttributes a.attributes labels.extract =
      ((hueAttributesArg a labels.extract).1.attributes,
        (hueAttributesArg a labels.extract).2) := by
    intro a
    cases a <;> cases labels.extract <;> rfl
  have e' : (attributes.map NamesArg.attributes).getD ["x", "y", "z"] =
      (attributes.getD (.names ["x", "y", "z"])).attributes := by cases attributes <;> rfl
  unfold getDfAndHueArg getDfAndHue
  simp only [C97_to_dataframe, e', e, Option.map_some]

/-- C97: the name of a particle type as a bare string selects this type and no other. -/
theorem C97_one_type (g : Galaxy F) (t : PType) (attributes : Option NamesArg) :
    g.toDataframeArg (some (.text t.humanize)) attributes =
      g.toDataframeArg (some (.names [t.humanize])) attributes := by
  rw [C97_to_dataframe, C97_to_dataframe]
  have : NamesArg.ptypes (.text t.humanize) = NamesArg.ptypes (.names [t.humanize]) := by
    cases t <;> decide +kernel
  simp only [Option.map_some, this]

/-- C97: a string in which no name of a particle type occurs raises ValueError, whatever the
attributes. -/
theorem C97_no_type (b : BGalaxy F) (s : String)
    (hs : ∀ n ∈ ["stars", "dark_matter", "gas"], ¬ n.toList <:+: s.toList) (attrs : List String) :
    (Galaxy.ofBodies b).toDataframeArg (some (.text s)) (some (.names attrs)) =
      .error .valueError := by
  rw [C97_to_dataframe]
  refine (C06_to_dataframe_failures b _ attrs).2.1.2 (.inl fun t => ?_)
  have e : NamesArg.ptypes (.text s) = [] := by
    unfold NamesArg.ptypes
    rw [List.filter_eq_nil_iff]
    intro n hn
    simpa using hs n hn
  simp only [Option.map_some, e]
  rfl

theorem char_attr (c : Char) : String.ofList [c] ∈ attrNames ↔ c ∈ ['m', 'x', 'y', 'z'] := by
  have h : ∀ s : String, String.ofList [c] = s ↔ [c] = s.toList := fun s =>
    ⟨fun h => by rw [← h, String.toList_ofList], fun h => by rw [h, String.ofList_toList]⟩
  simp only [attrNames, List.mem_cons, h]
  simp

/-- C97: with a bare string as `attributes` the call succeeds exactly when all characters are `m`, `x`,
`y` or `z`; otherwise it raises KeyError. -/
theorem C97_attributes (b : BGalaxy F) (ptypes : Option (List String))
    (hp : ∃ t, BGalaxy.selected ptypes t = true) (s : String) :
    ((∃ df, (Galaxy.ofBodies b).toDataframeArg (ptypes.map .names) (some (.text s)) = .ok df) ↔
      ∀ c ∈ s.toList, c ∈ ['m', 'x', 'y', 'z']) ∧
    ((Galaxy.ofBodies b).toDataframeArg (ptypes.map .names) (some (.text s)) = .error .keyError ↔
      ∃ c ∈ s.toList, c ∉ ['m', 'x', 'y', 'z']) := by
  rw [C97_to_dataframe]
  have e : (ptypes.map NamesArg.names).map NamesArg.ptypes = ptypes := by cases ptypes <;> rfl
  rw [e, Option.map_some]
  obtain ⟨h1, -, h3⟩ := C06_to_dataframe_failures b ptypes (NamesArg.text s).attributes
  have hno : ¬ ∀ t, BGalaxy.selected ptypes t = false := fun h => by
    obtain ⟨t, ht⟩ := hp; rw [h t] at ht; cases ht
  have hunk : (∃ a ∈ (NamesArg.text s).attributes, a ∉ attrNames) ↔
      ∃ c ∈ s.toList, c ∉ ['m', 'x', 'y', 'z'] := by
    simp only [NamesArg.attributes, List.mem_map]
    constructor
    · rintro ⟨a, ⟨c, hc, rfl⟩, ha⟩
      exact ⟨c, hc, fun h => ha ((char_attr c).2 h)⟩
    · rintro ⟨c, hc, h⟩
      exact ⟨_, ⟨c, hc, rfl⟩, fun h' => h ((char_attr c).1 h')⟩
  refine ⟨?_, ?_⟩
  · rw [h3, hunk]
    have hsc : ¬ ((NamesArg.text s).attributes ≠ [] ∧ ∀ a ∈ (NamesArg.text s).attributes,
        a = "softening" ∨ (b.hasPot = false ∧ (a = "potential" ∨ a = "total_energy"))) := by
      rintro ⟨hne, h⟩
      obtain ⟨a, ha⟩ := List.exists_mem_of_ne_nil _ hne
      obtain ⟨c, -, rfl⟩ := List.mem_map.1 ha
      have hl : ∀ t : String, String.ofList [c] = t → t.toList.length = 1 := fun t ht => by
        rw [← ht, String.toList_ofList]; rfl
      rcases h _ ha with h | ⟨-, h | h⟩ <;> exact absurd (hl _ h) (by decide +kernel)
    constructor
    · rintro ⟨-, h, -⟩ c hc
      by_contra hcc
      exact h ⟨c, hc, hcc⟩
    · exact fun h => ⟨hno, fun ⟨c, hc, hcc⟩ => hcc (h c hc), hsc⟩
  · rw [h1, hunk]
    exact ⟨fun h => h.2, fun h => ⟨hno, h⟩⟩

/-- C97: the columns of the frame are the characters, once each, in the order of the string, and the
cells are those of the particles. -/
theorem C97_columns (b : BGalaxy F) (ptypes : Option (List String))
    (hp : ∃ t, BGalaxy.selected ptypes t = true) (s : String) (hne : s ≠ "")
    (hs : ∀ c ∈ s.toList, c ∈ ['m', 'x', 'y', 'z']) :
    ∃ df, (Galaxy.ofBodies b).toDataframeArg (ptypes.map .names) (some (.text s)) = .ok df ∧
      Dict.keys df.cols = distinct (s.toList.map fun c => String.ofList [c]) ∧
      df.nrows = (b.rows ptypes).length ∧
      ∀ c ∈ s.toList, ∃ col, df.col (String.ofList [c]) = .ok col ∧
        ∀ i (hi : i < (b.rows ptypes).length),
          col[i]? = some ((b.rows ptypes)[i].cell (String.ofList [c])) := by
  rw [C97_to_dataframe]
  have e : (ptypes.map NamesArg.names).map NamesArg.ptypes = ptypes := by cases ptypes <;> rfl
  rw [e, Option.map_some]
  have hex : ∃ c, c ∈ s.toList := by
    cases h : s.toList with
    | nil => exact absurd (by rw [← String.ofList_toList (s := s), h]) hne
    | cons c l => exact ⟨c, by simp⟩
  obtain ⟨df, h1, h2, h3, h4⟩ := C05_to_dataframe b ptypes (NamesArg.text s).attributes hp
    (by
      intro a ha
      obtain ⟨c, hc, rfl⟩ := List.mem_map.1 ha
      exact (char_attr c).2 (hs c hc))
    (by
      obtain ⟨c, hc⟩ := hex
      refine ⟨_, List.mem_map.2 ⟨c, hc, rfl⟩, ?_⟩
      have := hs c hc
      simp only [List.mem_cons, List.not_mem_nil, or_false] at this
      rcases this with rfl | rfl | rfl | rfl <;> cases b.hasPot <;> decide +kernel)
  refine ⟨df, h1, h2, h3, fun c hc => ?_⟩
  obtain ⟨col, k1, -, k3⟩ := h4 _ (List.mem_map.2 ⟨c, hc, rfl⟩)
  exact ⟨col, k1, k3⟩

section examples

/-- the words may overlap -/
example : NamesArg.ptypes (.text "gastars") = ["stars", "gas"] := by decide +kernel

/-- upper case and partial names select nothing -/
example : NamesArg.ptypes (.text "Stars, dark matter") = [] := by decide +kernel

/-- one particle of each type -/
def exBare : BGalaxy (Ext ℚ) :=
  let p : Body (Ext ℚ) := ⟨.fin 1, .fin 2, .fin 3, .fin 4, .fin 5, .fin 6, .fin 7, .fin 8⟩
  ⟨[p], [p], [p], true, .fin 0, .fin 0, .fin 0⟩

/-- `to_dataframe(ptypes="stars", attributes="xyx")` -/
example : (Galaxy.ofBodies exBare).toDataframeArg (some (.text "stars")) (some (.text "xyx")) =
    .ok ⟨[("x", [.num (.fin 2)]), ("y", [.num (.fin 3)])], 1⟩ := by decide +kernel

/-- `to_dataframe(attributes="Jz")` -/
example : (Galaxy.ofBodies exBare).toDataframeArg none (some (.text "Jz")) = .error .keyError := by
  decide +kernel

end examples

end GChop
