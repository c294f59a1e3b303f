import Verif.Io
import Verif.Lemmas.Dict
import Verif.Lemmas.Frame

/-!
# From tables to galaxies
-/

set_option linter.unusedSectionVars false

namespace GChop
open Pd

variable {F : Type} [Num F]

/-- the columns a table must have -/
def kinNames : List String := ["m", "x", "y", "z", "vx", "vy", "vz"]

/-- the floats of a column, if the table has it -/
def DFfloats (t : DF F) (c : String) : Option (List F) :=
  (Dict.get? t.cols c).map fun l => l.map Cell.toNum

/-- a table has the seven kinematic columns, and otherwise at most `id` and `potential` -/
def GoodColumns (names : List String) : Prop :=
  (∀ c ∈ kinNames, c ∈ names) ∧ ∀ c ∈ names, c ∈ kinNames ∨ c = "id" ∨ c = "potential"

instance (names : List String) : Decidable (GoodColumns names) := by
  unfold GoodColumns; infer_instance

/-- the constructor arguments found in a table -/
def tableArgs (t : DF F) (soft : F) : PArgs F where
  m := (DFfloats t "m").getD []
  x := (DFfloats t "x").getD []
  y := (DFfloats t "y").getD []
  z := (DFfloats t "z").getD []
  vx := (DFfloats t "vx").getD []
  vy := (DFfloats t "vy").getD []
  vz := (DFfloats t "vz").getD []
  potential := DFfloats t "potential"
  softening := soft

/-! ## Keys -/

theorem str_append_inj_left {a b c : String} : a ++ c = b ++ c ↔ a = b := by
  constructor
  · intro h
    have : (a ++ c).toList = (b ++ c).toList := by rw [h]
    rw [String.toList_append, String.toList_append] at this
    exact String.toList_inj.1 (List.append_cancel_right this)
  · rintro rfl; rfl

theorem str_getLast {a c : String} {x : Char} (h : c.toList.getLast? = some x) :
    (a ++ c).toList.getLast? = some x := by
  rw [String.toList_append, List.getLast?_append, h]
  rfl

/-- the three suffixes -/
def sufs : List String := ["s", "dm", "g"]

/-- a key determines its column and its type -/
theorem key_inj {c c' u u' : String} (hu : u ∈ sufs) (hu' : u' ∈ sufs) :
    c ++ "_" ++ u = c' ++ "_" ++ u' ↔ c = c' ∧ u = u' := by
  constructor
  · intro h
    have huu : u = u' := by
      have e : (c ++ "_" ++ u).toList.getLast? = (c' ++ "_" ++ u').toList.getLast? := by rw [h]
      simp only [sufs, List.mem_cons, List.not_mem_nil, or_false] at hu hu'
      have hs : ("s" : String).toList.getLast? = some 's' := by decide +kernel
      have hd : ("dm" : String).toList.getLast? = some 'm' := by decide +kernel
      have hg : ("g" : String).toList.getLast? = some 'g' := by decide +kernel
      rcases hu with rfl | rfl | rfl <;> rcases hu' with rfl | rfl | rfl <;>
        first
          | rfl
          | (exfalso
             simp only [str_getLast hs, str_getLast hd, str_getLast hg] at e
             revert e; decide)
    subst huu
    rw [str_append_inj_left, str_append_inj_left] at h
    exact ⟨h, rfl⟩
  · rintro ⟨rfl, rfl⟩; rfl

theorem params_eq : ∀ k, k ∈ requiredParams ++ optionalParams ↔
    ∃ u ∈ sufs, ∃ c ∈ kinNames ++ ["softening", "potential"], k = c ++ "_" ++ u := by
  intro k
  constructor
  · have h : ∀ k ∈ requiredParams ++ optionalParams,
        ∃ u ∈ sufs, ∃ c ∈ kinNames ++ ["softening", "potential"], k = c ++ "_" ++ u := by
      decide +kernel
    exact h k
  · rintro ⟨u, hu, c, hc, rfl⟩
    simp only [sufs, kinNames, List.mem_cons, List.mem_append, List.not_mem_nil, or_false] at hu hc
    rcases hu with rfl | rfl | rfl <;>
      rcases hc with (rfl|rfl|rfl|rfl|rfl|rfl|rfl)|rfl|rfl <;> decide +kernel

theorem required_eq : ∀ k, k ∈ requiredParams ↔ ∃ u ∈ sufs, ∃ c ∈ kinNames, k = c ++ "_" ++ u := by
  intro k
  constructor
  · have h : ∀ k ∈ requiredParams, ∃ u ∈ sufs, ∃ c ∈ kinNames, k = c ++ "_" ++ u := by
      decide +kernel
    exact h k
  · rintro ⟨u, hu, c, hc, rfl⟩
    simp only [sufs, kinNames, List.mem_cons, List.not_mem_nil, or_false] at hu hc
    rcases hu with rfl | rfl | rfl <;>
      rcases hc with rfl|rfl|rfl|rfl|rfl|rfl|rfl <;> decide +kernel

/-! ## One table -/

/-- the entries before the potential is moved to the end -/
def rawKws (t : DF F) (suffix : String) : Dict String (KVal F) :=
  (t.cols.filter fun kv => kv.1 != "id").map
    fun kv => (kv.1 ++ "_" ++ suffix, .arr (kv.2.map Cell.toNum))

theorem rawKws_get (t : DF F) (u c : String) :
    Dict.get? (rawKws t u) (c ++ "_" ++ u)
      = if c = "id" then none else (DFfloats t c).map KVal.arr := by
  unfold rawKws DFfloats
  generalize t.cols = cols
  induction cols with
  | nil => simp [Dict.get?]
  | cons kv cols ih =>
    obtain ⟨k, v⟩ := kv
    by_cases hk : k = "id"
    · subst hk
      rw [List.filter_cons_of_neg (by simp), ih]
      by_cases hc : c = "id"
      · simp [hc]
      · simp [hc, Dict.get?, Ne.symm hc]
    · rw [List.filter_cons_of_pos (by simpa using hk)]
      simp only [List.map_cons, Dict.get?, str_append_inj_left, ih]
      by_cases hkc : k = c
      · subst hkc; simp [hk]
      · simp [hkc]

theorem rawKws_keys (t : DF F) (u k : String) :
    k ∈ Dict.keys (rawKws t u) ↔ ∃ c ∈ Dict.keys t.cols, c ≠ "id" ∧ k = c ++ "_" ++ u := by
  simp only [rawKws, Dict.keys, List.map_map, List.mem_map, List.mem_filter, Function.comp_apply,
    bne_iff_ne, ne_eq]
  constructor
  · rintro ⟨kv, ⟨h1, h2⟩, rfl⟩
    exact ⟨kv.1, ⟨kv, h1, rfl⟩, h2, rfl⟩
  · rintro ⟨_, ⟨kv, h1, rfl⟩, h2, rfl⟩
    exact ⟨kv, ⟨h1, h2⟩, rfl⟩

theorem rawKws_nodup (t : DF F) (u : String) (h : (Dict.keys t.cols).Nodup) :
    (Dict.keys (rawKws t u)).Nodup := by
  have e : Dict.keys (rawKws t u)
      = ((Dict.keys t.cols).filter (· != "id")).map fun k => k ++ "_" ++ u := by
    simp only [rawKws, Dict.keys, List.map_map, List.filter_map]
    rfl
  rw [e]
  refine List.Pairwise.map _ ?_ (h.filter _)
  intro a b hab
  rwa [ne_eq, str_append_inj_left, str_append_inj_left]

theorem tableToDict_eq (t : DF F) (u : String) : tableToDict t u =
    Dict.set (Dict.erase (rawKws t u) ("potential_" ++ u)) ("potential_" ++ u)
      ((Dict.get? (rawKws t u) ("potential_" ++ u)).getD .none) := rfl

theorem tableToDict_nodup (t : DF F) (u : String) (h : (Dict.keys t.cols).Nodup) :
    (Dict.keys (tableToDict t u)).Nodup := by
  rw [tableToDict_eq]
  exact Dict.nodup_set (Dict.nodup_erase (rawKws_nodup t u h) _) _ _

theorem potential_key (u : String) : "potential_" ++ u = "potential" ++ "_" ++ u := by
  rw [show ("potential" ++ "_" : String) = "potential_" from by decide +kernel]

theorem tableToDict_get (t : DF F) (u c : String) :
    Dict.get? (tableToDict t u) (c ++ "_" ++ u)
      = if c = "potential" then some (KVal.ofOption (DFfloats t "potential"))
        else if c = "id" then none else (DFfloats t c).map KVal.arr := by
  rw [tableToDict_eq, potential_key, Dict.get?_set_eq, Dict.get?_erase, rawKws_get, rawKws_get]
  by_cases hc : c = "potential"
  · subst hc
    rw [if_pos rfl, if_pos rfl, if_neg (by decide)]
    cases DFfloats t "potential" <;> rfl
  · rw [if_neg (by rw [str_append_inj_left, str_append_inj_left]; exact Ne.symm hc),
      if_neg (by rw [str_append_inj_left, str_append_inj_left]; exact Ne.symm hc), if_neg hc]

theorem tableToDict_keys (t : DF F) (u k : String) :
    k ∈ Dict.keys (tableToDict t u) ↔
      ∃ c, (c ∈ Dict.keys t.cols ∨ c = "potential") ∧ c ≠ "id" ∧ k = c ++ "_" ++ u := by
  have hset : k ∈ Dict.keys (tableToDict t u) ↔
      k ∈ Dict.keys (rawKws t u) ∨ k = "potential" ++ "_" ++ u := by
    rw [tableToDict_eq, potential_key, Dict.mem_keys, Dict.mem_keys, Dict.get?_set_eq, Dict.get?_erase]
    by_cases h : "potential" ++ "_" ++ u = k
    · rw [if_pos h]
      exact ⟨fun _ => Or.inr h.symm, fun _ => ⟨_, rfl⟩⟩
    · rw [if_neg h, if_neg h]
      exact ⟨Or.inl, fun h' => h'.resolve_right (Ne.symm h)⟩
  rw [hset, rawKws_keys]
  constructor
  · rintro (⟨c, h1, h2, h3⟩ | h)
    · exact ⟨c, Or.inl h1, h2, h3⟩
    · exact ⟨"potential", Or.inr rfl, by decide, h⟩
  · rintro ⟨c, h1 | rfl, h2, h3⟩
    · exact Or.inl ⟨c, h1, h2, h3⟩
    · exact Or.inr h3

/-- the entries of one type do not occur among those of another -/
theorem tableToDict_other (t : DF F) {u u' : String} (hu : u ∈ sufs) (hu' : u' ∈ sufs) (h : u ≠ u')
    (c : String) : Dict.get? (tableToDict t u) (c ++ "_" ++ u') = none := by
  rw [← Dict.not_mem_keys, tableToDict_keys]
  rintro ⟨c', -, -, e⟩
  exact h ((key_inj hu' hu).1 e).2.symm

/-! ## Three tables -/

/-- the keyword arguments of `mkgalaxy` -/
def tableKws (s d g : DF F) (a b c : F) : Dict String (KVal F) :=
  Dict.update (Dict.update (Dict.update
    [("softening_s", .num a), ("softening_dm", .num b), ("softening_g", .num c)]
    (tableToDict s "s")) (tableToDict d "dm")) (tableToDict g "g")

theorem galaxyOfTables_eq (s d g : DF F) (a b c : F) :
    galaxyOfTables s d g a b c = mkgalaxyKw (tableKws s d g a b c) := rfl

/-- the table of a type -/
def pickT {α : Type} (s d g : α) (u : String) : α := if u = "s" then s else if u = "dm" then d else g

theorem tableKws_get (s d g : DF F) (a b c : F) (hs : (Dict.keys s.cols).Nodup)
    (hd : (Dict.keys d.cols).Nodup) (hg : (Dict.keys g.cols).Nodup) {u : String} (hu : u ∈ sufs)
    (k : String) :
    Dict.get? (tableKws s d g a b c) (k ++ "_" ++ u)
      = (Dict.get? (tableToDict (pickT s d g u) u) (k ++ "_" ++ u)).or
          (if k = "softening" then some (.num (pickT a b c u)) else none) := by
  unfold tableKws
  rw [Dict.get?_update _ _ (tableToDict_nodup g "g" hg),
    Dict.get?_update _ _ (tableToDict_nodup d "dm" hd),
    Dict.get?_update _ _ (tableToDict_nodup s "s" hs)]
  have hsoft : Dict.get? ([("softening_s", .num a), ("softening_dm", .num b),
      ("softening_g", .num c)] : Dict String (KVal F)) (k ++ "_" ++ u)
      = if k = "softening" then some (.num (pickT a b c u)) else none := by
    have e1 : ("softening_s" : String) = "softening" ++ "_" ++ "s" := by decide +kernel
    have e2 : ("softening_dm" : String) = "softening" ++ "_" ++ "dm" := by decide +kernel
    have e3 : ("softening_g" : String) = "softening" ++ "_" ++ "g" := by decide +kernel
    rw [e1, e2, e3]
    simp only [Dict.get?, key_inj (show "s" ∈ sufs by decide) hu,
      key_inj (show "dm" ∈ sufs by decide) hu, key_inj (show "g" ∈ sufs by decide) hu]
    simp only [sufs, List.mem_cons, List.not_mem_nil, or_false] at hu
    by_cases hk : k = "softening"
    · subst hk
      rcases hu with rfl | rfl | rfl <;> simp [pickT]
    · rcases hu with rfl | rfl | rfl <;> simp [hk, Ne.symm hk]
  rw [hsoft]
  simp only [sufs, List.mem_cons, List.not_mem_nil, or_false] at hu
  rcases hu with rfl | rfl | rfl
  · rw [tableToDict_other g (u := "g") (by decide) (by decide) (by decide),
      tableToDict_other d (u := "dm") (by decide) (by decide) (by decide)]
    simp [pickT]
  · rw [tableToDict_other g (u := "g") (by decide) (by decide) (by decide),
      tableToDict_other s (u := "s") (by decide) (by decide) (by decide)]
    simp [pickT]
  · rw [tableToDict_other d (u := "dm") (by decide) (by decide) (by decide),
      tableToDict_other s (u := "s") (by decide) (by decide) (by decide)]
    simp [pickT]

theorem tableKws_keys (s d g : DF F) (a b c : F) (hs : (Dict.keys s.cols).Nodup)
    (hd : (Dict.keys d.cols).Nodup) (hg : (Dict.keys g.cols).Nodup) (k : String) :
    k ∈ Dict.keys (tableKws s d g a b c) ↔
      ∃ u ∈ sufs, ∃ n, (n ∈ Dict.keys (pickT s d g u).cols ∨ n = "potential" ∨ n = "softening") ∧
        n ≠ "id" ∧ k = n ++ "_" ++ u := by
  constructor
  · intro h
    rw [Dict.mem_keys] at h
    obtain ⟨v, hv⟩ := h
    unfold tableKws at hv
    rw [Dict.get?_update _ _ (tableToDict_nodup g "g" hg),
      Dict.get?_update _ _ (tableToDict_nodup d "dm" hd),
      Dict.get?_update _ _ (tableToDict_nodup s "s" hs)] at hv
    have aux : ∀ (t : DF F) (u : String), u ∈ sufs → t = pickT s d g u →
        Dict.get? (tableToDict t u) k ≠ none →
        ∃ u ∈ sufs, ∃ n, (n ∈ Dict.keys (pickT s d g u).cols ∨ n = "potential" ∨ n = "softening") ∧
          n ≠ "id" ∧ k = n ++ "_" ++ u := by
      intro t u hu ht hne
      have hk : k ∈ Dict.keys (tableToDict t u) := by
        by_contra hc
        exact hne (Dict.not_mem_keys.1 hc)
      rw [tableToDict_keys] at hk
      obtain ⟨n, h1, h2, h3⟩ := hk
      refine ⟨u, hu, n, ?_, h2, h3⟩
      rw [← ht]
      rcases h1 with h | h
      · exact Or.inl h
      · exact Or.inr (Or.inl h)
    by_cases h1 : Dict.get? (tableToDict g "g") k = none
    · by_cases h2 : Dict.get? (tableToDict d "dm") k = none
      · by_cases h3 : Dict.get? (tableToDict s "s") k = none
        · rw [h1, h2, h3] at hv
          simp only [Option.none_or, Dict.get?] at hv
          split at hv
          · next h => exact ⟨"s", by decide, "softening", by simp, by decide, by rw [← h]; decide +kernel⟩
          · split at hv
            · next h => exact ⟨"dm", by decide, "softening", by simp, by decide, by rw [← h]; decide +kernel⟩
            · split at hv
              · next h => exact ⟨"g", by decide, "softening", by simp, by decide, by rw [← h]; decide +kernel⟩
              · cases hv
        · exact aux s "s" (by decide) rfl h3
      · exact aux d "dm" (by decide) rfl h2
    · exact aux g "g" (by decide) rfl h1
  · rintro ⟨u, hu, n, hn, hid, rfl⟩
    rw [Dict.mem_keys, tableKws_get s d g a b c hs hd hg hu]
    by_cases hp : n ∈ Dict.keys (pickT s d g u).cols ∨ n = "potential"
    · have : n ++ "_" ++ u ∈ Dict.keys (tableToDict (pickT s d g u) u) :=
        (tableToDict_keys _ _ _).2 ⟨n, hp, hid, rfl⟩
      obtain ⟨v, hv⟩ := Dict.mem_keys.1 this
      exact ⟨v, by rw [hv]; rfl⟩
    · have hn : n = "softening" := by tauto
      rw [if_pos hn]
      cases Dict.get? (tableToDict (pickT s d g u) u) (n ++ "_" ++ u) with
      | none => exact ⟨_, rfl⟩
      | some v => exact ⟨v, rfl⟩

theorem pargsOf_tables (s d g : DF F) (a b c : F) (hs : (Dict.keys s.cols).Nodup)
    (hd : (Dict.keys d.cols).Nodup) (hg : (Dict.keys g.cols).Nodup) {u : String} (hu : u ∈ sufs)
    (good : GoodColumns (Dict.keys (pickT s d g u).cols)) :
    pargsOf (tableKws s d g a b c) u = .ok (tableArgs (pickT s d g u) (pickT a b c u)) := by
  have kin : ∀ n ∈ kinNames, arrArg (tableKws s d g a b c) (n ++ "_" ++ u)
      = .ok ((DFfloats (pickT s d g u) n).getD []) := by
    intro n hn
    obtain ⟨v, hv⟩ := Dict.mem_keys.1 (good.1 n hn)
    have hp : n ≠ "potential" ∧ n ≠ "id" := by
      constructor <;> (rintro rfl; revert hn; decide)
    unfold arrArg
    rw [tableKws_get s d g a b c hs hd hg hu, tableToDict_get, if_neg hp.1, if_neg hp.2]
    simp [DFfloats, hv]
  have pot : optArrArg (tableKws s d g a b c) ("potential" ++ "_" ++ u)
      = .ok (DFfloats (pickT s d g u) "potential") := by
    unfold optArrArg
    rw [tableKws_get s d g a b c hs hd hg hu, tableToDict_get, if_pos rfl]
    cases DFfloats (pickT s d g u) "potential" <;> rfl
  have soft : numArg (tableKws s d g a b c) ("softening" ++ "_" ++ u) = .ok (pickT a b c u) := by
    have hnone : DFfloats (pickT s d g u) "softening" = none := by
      unfold DFfloats
      rw [Dict.not_mem_keys.1 (fun h => by
        have := good.2 _ h
        revert this; decide)]
      rfl
    unfold numArg
    rw [tableKws_get s d g a b c hs hd hg hu, tableToDict_get, if_neg (by decide), if_neg (by decide),
      hnone, if_pos rfl]
    rfl
  have e : ∀ p q : String, p ++ "_" = q → ∀ w : String, q ++ w = p ++ "_" ++ w := by
    rintro p q rfl w; rfl
  unfold pargsOf
  rw [e "m" "m_" (by decide +kernel), e "x" "x_" (by decide +kernel), e "y" "y_" (by decide +kernel),
    e "z" "z_" (by decide +kernel), e "vx" "vx_" (by decide +kernel), e "vy" "vy_" (by decide +kernel),
    e "vz" "vz_" (by decide +kernel), e "potential" "potential_" (by decide +kernel),
    e "softening" "softening_" (by decide +kernel)]
  rw [kin "m" (by decide), kin "x" (by decide), kin "y" (by decide), kin "z" (by decide),
    kin "vx" (by decide), kin "vy" (by decide), kin "vz" (by decide), pot, soft]
  rfl

/-- three tables with the right columns: the galaxy of their columns, by name -/
theorem galaxyOfTables_good (s d g : DF F) (a b c : F) (hs : (Dict.keys s.cols).Nodup)
    (hd : (Dict.keys d.cols).Nodup) (hg : (Dict.keys g.cols).Nodup)
    (gs : GoodColumns (Dict.keys s.cols)) (gd : GoodColumns (Dict.keys d.cols))
    (gg : GoodColumns (Dict.keys g.cols)) :
    galaxyOfTables s d g a b c = mkgalaxy (tableArgs s a) (tableArgs d b) (tableArgs g c) := by
  have good : ∀ u ∈ sufs, GoodColumns (Dict.keys (pickT s d g u).cols) := by
    intro u hu
    simp only [sufs, List.mem_cons, List.not_mem_nil, or_false] at hu
    rcases hu with rfl | rfl | rfl
    · exact gs
    · exact gd
    · exact gg
  rw [galaxyOfTables_eq]
  unfold mkgalaxyKw
  rw [if_neg, if_neg, pargsOf_tables s d g a b c hs hd hg (u := "s") (by decide) (good _ (by decide)),
    pargsOf_tables s d g a b c hs hd hg (u := "dm") (by decide) (good _ (by decide)),
    pargsOf_tables s d g a b c hs hd hg (u := "g") (by decide) (good _ (by decide))]
  · rfl
  · simp only [Bool.not_eq_true', Bool.not_eq_false, List.all_eq_true, List.contains_iff_mem]
    intro k hk
    rw [required_eq] at hk
    obtain ⟨u, hu, n, hn, rfl⟩ := hk
    rw [tableKws_keys s d g a b c hs hd hg]
    refine ⟨u, hu, n, Or.inl ((good u hu).1 n hn), ?_, rfl⟩
    rintro rfl; revert hn; decide
  · simp only [Bool.not_eq_true', Bool.not_eq_false, List.all_eq_true, List.contains_iff_mem]
    intro k hk
    rw [tableKws_keys s d g a b c hs hd hg] at hk
    obtain ⟨u, hu, n, hn, hid, rfl⟩ := hk
    rw [params_eq]
    refine ⟨u, hu, n, ?_, rfl⟩
    rcases hn with hn | rfl | rfl
    · rcases (good u hu).2 n hn with h | h | h
      · exact List.mem_append_left _ h
      · exact absurd h hid
      · rw [h]; decide
    · decide
    · decide

theorem pargsOf_err {kw : Dict String (KVal F)} {u : String} {e : PyErr}
    (h : pargsOf kw u = .error e) : e = .typeError := by
  have ha : ∀ {k : String} {e}, arrArg kw k = .error e → e = .typeError := by
    intro k e h; unfold arrArg at h; split at h <;> cases h; rfl
  have ho : ∀ {k : String} {e}, optArrArg kw k = .error e → e = .typeError := by
    intro k e h; unfold optArrArg at h; split at h <;> cases h; rfl
  have hn : ∀ {k : String} {e}, numArg kw k = .error e → e = .typeError := by
    intro k e h; unfold numArg at h; split at h <;> cases h; rfl
  unfold pargsOf at h
  cases h1 : arrArg kw ("m_" ++ u) with
  | error e' => rw [h1] at h; cases h; exact ha h1
  | ok v1 =>
  cases h2 : arrArg kw ("x_" ++ u) with
  | error e' => rw [h1, h2] at h; cases h; exact ha h2
  | ok v2 =>
  cases h3 : arrArg kw ("y_" ++ u) with
  | error e' => rw [h1, h2, h3] at h; cases h; exact ha h3
  | ok v3 =>
  cases h4 : arrArg kw ("z_" ++ u) with
  | error e' => rw [h1, h2, h3, h4] at h; cases h; exact ha h4
  | ok v4 =>
  cases h5 : arrArg kw ("vx_" ++ u) with
  | error e' => rw [h1, h2, h3, h4, h5] at h; cases h; exact ha h5
  | ok v5 =>
  cases h6 : arrArg kw ("vy_" ++ u) with
  | error e' => rw [h1, h2, h3, h4, h5, h6] at h; cases h; exact ha h6
  | ok v6 =>
  cases h7 : arrArg kw ("vz_" ++ u) with
  | error e' => rw [h1, h2, h3, h4, h5, h6, h7] at h; cases h; exact ha h7
  | ok v7 =>
  cases h8 : optArrArg kw ("potential_" ++ u) with
  | error e' => rw [h1, h2, h3, h4, h5, h6, h7, h8] at h; cases h; exact ho h8
  | ok v8 =>
  cases h9 : numArg kw ("softening_" ++ u) with
  | error e' => rw [h1, h2, h3, h4, h5, h6, h7, h8, h9] at h; cases h; exact hn h9
  | ok v9 => rw [h1, h2, h3, h4, h5, h6, h7, h8, h9] at h; cases h

/-- a table that lacks a column or has another one: `TypeError` -/
theorem galaxyOfTables_bad (s d g : DF F) (a b c : F) (hs : (Dict.keys s.cols).Nodup)
    (hd : (Dict.keys d.cols).Nodup) (hg : (Dict.keys g.cols).Nodup)
    (bad : ¬ (GoodColumns (Dict.keys s.cols) ∧ GoodColumns (Dict.keys d.cols) ∧
      GoodColumns (Dict.keys g.cols))) :
    galaxyOfTables s d g a b c = .error .typeError := by
  rw [galaxyOfTables_eq]
  have hbad : ∃ u ∈ sufs, ¬ GoodColumns (Dict.keys (pickT s d g u).cols) := by
    by_cases h1 : GoodColumns (Dict.keys s.cols)
    · by_cases h2 : GoodColumns (Dict.keys d.cols)
      · exact ⟨"g", by decide, fun h => bad ⟨h1, h2, h⟩⟩
      · exact ⟨"dm", by decide, h2⟩
    · exact ⟨"s", by decide, h1⟩
  obtain ⟨u, hu, hbu⟩ := hbad
  unfold mkgalaxyKw
  split
  · rfl
  · next hall =>
    split
    · rfl
    · next hreq =>
      simp only [Bool.not_eq_true', Bool.not_eq_false, List.all_eq_true, List.contains_iff_mem] at hall hreq
      -- every required column is there, so some other column is: only `softening` is possible
      have h1 : ∀ n ∈ kinNames, n ∈ Dict.keys (pickT s d g u).cols := by
        intro n hn
        have := hreq _ ((required_eq _).2 ⟨u, hu, n, hn, rfl⟩)
        rw [tableKws_keys s d g a b c hs hd hg] at this
        obtain ⟨u', hu', n', hn', -, e⟩ := this
        obtain ⟨rfl, rfl⟩ := (key_inj hu hu').1 e
        rcases hn' with h | rfl | rfl
        · exact h
        · exact absurd hn (by decide)
        · exact absurd hn (by decide)
      have h2 : "softening" ∈ Dict.keys (pickT s d g u).cols := by
        by_contra hns
        refine hbu ⟨h1, fun n hn => ?_⟩
        by_cases hid : n = "id"
        · exact Or.inr (Or.inl hid)
        · have := hall _ ((tableKws_keys s d g a b c hs hd hg _).2 ⟨u, hu, n, Or.inl hn, hid, rfl⟩)
          rw [params_eq] at this
          obtain ⟨u', hu', n', hn', e⟩ := this
          obtain ⟨rfl, rfl⟩ := (key_inj hu hu').1 e
          simp only [List.mem_append, List.mem_cons, List.not_mem_nil, or_false] at hn'
          rcases hn' with h | rfl | rfl
          · exact Or.inl h
          · exact absurd hn hns
          · exact Or.inr (Or.inr rfl)
      have hsoft : numArg (tableKws s d g a b c) ("softening_" ++ u) = .error .typeError := by
        obtain ⟨v, hv⟩ := Dict.mem_keys.1 h2
        rw [show "softening_" ++ u = "softening" ++ "_" ++ u by
          rw [show ("softening" ++ "_" : String) = "softening_" from by decide +kernel]]
        unfold numArg
        rw [tableKws_get s d g a b c hs hd hg hu, tableToDict_get, if_neg (by decide),
          if_neg (by decide)]
        simp [DFfloats, hv]
      have herr : pargsOf (tableKws s d g a b c) u = .error .typeError := by
        cases hp : pargsOf (tableKws s d g a b c) u with
        | error e => rw [pargsOf_err hp]
        | ok A =>
          exfalso
          unfold pargsOf at hp
          simp only [Py.bind_eq_ok] at hp
          obtain ⟨_, _, _, _, _, _, _, _, _, _, _, _, _, _, _, _, so, hso, _⟩ := hp
          rw [hsoft] at hso
          cases hso
      simp only [sufs, List.mem_cons, List.not_mem_nil, or_false] at hu
      cases p1 : pargsOf (tableKws s d g a b c) "s" with
      | error e => rw [pargsOf_err p1]; rfl
      | ok A1 =>
        cases p2 : pargsOf (tableKws s d g a b c) "dm" with
        | error e => rw [pargsOf_err p2]; rfl
        | ok A2 =>
          cases p3 : pargsOf (tableKws s d g a b c) "g" with
          | error e => rw [pargsOf_err p3]; rfl
          | ok A3 =>
            rcases hu with rfl | rfl | rfl
            · rw [herr] at p1; cases p1
            · rw [herr] at p2; cases p2
            · rw [herr] at p3; cases p3

end GChop
