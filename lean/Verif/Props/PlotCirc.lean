import Verif.Props.PlotLabels

/-!
# C57: circularity plots
-/

set_option linter.unusedSectionVars false

namespace GChop
open Pd

variable {F : Type} [Num F]

/-- the stars shown in a circularity plot: finite in the four attributes -/
def shownStars (j : JCirc F) (n : Nat) : List Nat :=
  (List.range n).filter fun i =>
    Num.isFinite (j.normalizedStarEnergy.getD i Num.nan) && Num.isFinite (j.normalizedStarJz.getD i Num.nan) &&
    Num.isFinite (j.eps.getD i Num.nan) && Num.isFinite (j.epsR.getD i Num.nan)

/-- the values of a circularity attribute for the given stars -/
def shownCol (j : JCirc F) (stars : List Nat) (a : String) : List (Cell F) :=
  stars.map fun i => .num ((j.attr a).getD i Num.nan)

/-- all four arrays have one entry per star -/
def FullLength (j : JCirc F) (n : Nat) : Prop := ∀ a ∈ circularityAttributes, (j.attr a).length = n

theorem fullLength_iff {j : JCirc F} {n : Nat} : FullLength j n ↔ j.normalizedStarEnergy.length = n ∧
    j.normalizedStarJz.length = n ∧ j.eps.length = n ∧ j.epsR.length = n := by
  unfold FullLength circularityAttributes
  constructor
  · intro h
    exact ⟨h "normalized_star_energy" (by simp), h "normalized_star_Jz" (by simp), h "eps" (by simp),
      h "eps_r" (by simp)⟩
  · rintro ⟨h1, h2, h3, h4⟩ a ha
    simp only [List.mem_cons, List.not_mem_nil, or_false] at ha
    rcases ha with rfl | rfl | rfl | rfl
    · exact h3
    · exact h4
    · exact h2
    · exact h1

theorem fullLength_of_bound [NumOrd F] {env : CircEnv F} {b : BGalaxy F} {bin0 bin1 : F} {j : JCirc F}
    (h : jcirc env (Galaxy.ofBodies b) bin0 bin1 = .ok j)
    (hall : ∀ a ∈ b.stars, ¬ Unbound a.energy) : FullLength j b.stars.length := by
  have := C22_lengths env b bin0 bin1 j h b.stars (by simp) hall (by simp)
  exact fullLength_iff.2 ⟨this.1, this.2.2.2, this.2.1, this.2.2.1⟩

theorem finiteStars_all (j : JCirc F) (n : Nat) :
    finiteStars j circularityAttributes n = shownStars j n := by
  unfold finiteStars shownStars
  congr 1
  funext i
  simp only [circularityAttributes, List.all_cons, List.all_nil, JCirc.attr]
  simp only [if_true, String.reduceEq, if_false]
  cases Num.isFinite (j.normalizedStarEnergy.getD i Num.nan) <;>
  cases Num.isFinite (j.normalizedStarJz.getD i Num.nan) <;>
  cases Num.isFinite (j.eps.getD i Num.nan) <;> cases Num.isFinite (j.epsR.getD i Num.nan) <;> rfl

/-- is the star shown? -/
def isShown (j : JCirc F) (i : Nat) : Bool :=
  Num.isFinite (j.normalizedStarEnergy.getD i Num.nan) && Num.isFinite (j.normalizedStarJz.getD i Num.nan) &&
    Num.isFinite (j.eps.getD i Num.nan) && Num.isFinite (j.epsR.getD i Num.nan)

theorem jcirc_isfinite {j : JCirc F} {n : Nat} (h : FullLength j n) :
    j.isfinite = .ok ((List.range n).map (isShown j)) := by
  obtain ⟨h1, h2, h3, h4⟩ := fullLength_iff.1 h
  unfold JCirc.isfinite
  simp only [JCirc.asDict, List.map_cons, List.map_nil, List.all_cons, List.all_nil, h1, h2, h3, h4,
    beq_self_eq_true, Bool.and_true, if_true]
  congr 1
  apply List.map_congr_left
  intro i _
  unfold isShown
  simp only [Bool.and_assoc]

theorem jcirc_isfinite_error {j : JCirc F} (h : ∀ n, ¬ FullLength j n) :
    j.isfinite = .error .valueError := by
  unfold JCirc.isfinite
  rw [if_neg]
  intro hall
  simp only [JCirc.asDict, List.map_cons, List.map_nil, List.all_cons, List.all_nil, Bool.and_true,
    Bool.and_eq_true, beq_iff_eq] at hall
  exact h j.normalizedStarEnergy.length (fullLength_iff.2 ⟨rfl, hall.2.1, hall.2.2.1, hall.2.2.2⟩)

theorem asDict_get (j : JCirc F) (a : String) (ha : a ∈ circularityAttributes) :
    Dict.getItem j.asDict a = .ok (j.attr a) := by
  simp only [circularityAttributes, List.mem_cons, List.not_mem_nil, or_false] at ha
  rcases ha with rfl | rfl | rfl | rfl <;> rfl

theorem asDict_get_error (j : JCirc F) (a : String) (ha : a ∉ circularityAttributes) :
    Dict.getItem j.asDict a = .error .keyError := by
  simp only [circularityAttributes, List.mem_cons, List.not_mem_nil, or_false, not_or] at ha
  obtain ⟨h1, h2, h3, h4⟩ := ha
  simp [Dict.getItem, JCirc.asDict, Dict.get?, Ne.symm h1, Ne.symm h2, Ne.symm h3, Ne.symm h4]

theorem compress_shown {j : JCirc F} {n : Nat} (h : FullLength j n) {a : String}
    (ha : a ∈ circularityAttributes) :
    Np.compress ((List.range n).map (isShown j)) (j.attr a)
      = .ok ((shownStars j n).map fun i => (j.attr a).getD i Num.nan) := by
  have e : j.attr a = (List.range n).map fun i => (j.attr a).getD i Num.nan := by
    apply List.ext_getElem
    · simp [h a ha]
    · intro i h1 h2
      simp [List.getD_eq_getElem?_getD, List.getElem?_eq_getElem h1]
  conv_lhs => rw [e]
  rw [Np.compress_map]
  rfl

theorem circColumns_ok {j : JCirc F} {n : Nat} (h : FullLength j n) (attrs acc : List String)
    (hk : ∀ a ∈ attrs, a ∈ circularityAttributes) :
    circColumns j.asDict ((List.range n).map (isShown j)) attrs
      (acc.map fun a => (a, Col.arr (shownCol j (shownStars j n) a)))
      = .ok ((attrs.foldl (fun acc a => if acc.contains a then acc else acc ++ [a]) acc).map
          fun a => (a, Col.arr (shownCol j (shownStars j n) a))) := by
  induction attrs generalizing acc with
  | nil => rfl
  | cons a attrs ih =>
    have ha := hk a List.mem_cons_self
    have e : Col.arr (List.map Cell.num ((shownStars j n).map fun i => (j.attr a).getD i Num.nan))
        = Col.arr (shownCol j (shownStars j n) a) := by
      simp [shownCol, Function.comp_def]
    simp only [circColumns, asDict_get j a ha, Py.ok_bind, compress_shown h ha, List.foldl_cons]
    rw [e]
    by_cases hc : a ∈ acc
    · rw [Dict.set_map_mem _ (fun a => Col.arr (shownCol j (shownStars j n) a)) _ hc,
        ih _ (fun b hb => hk b (List.mem_cons_of_mem _ hb))]
      simp [hc]
    · rw [Dict.set_map_not_mem _ (fun a => Col.arr (shownCol j (shownStars j n) a)) _ hc,
        ih _ (fun b hb => hk b (List.mem_cons_of_mem _ hb))]
      simp [hc]

theorem circColumns_keyError {j : JCirc F} {n : Nat} (h : FullLength j n) (attrs : List String)
    (acc : Dict String (Col F)) (hk : ∃ a ∈ attrs, a ∉ circularityAttributes) :
    circColumns j.asDict ((List.range n).map (isShown j)) attrs acc = .error .keyError := by
  induction attrs generalizing acc with
  | nil => obtain ⟨a, ha, _⟩ := hk; cases ha
  | cons a attrs ih =>
    by_cases ha : a ∈ circularityAttributes
    · simp only [circColumns, asDict_get j a ha, Py.ok_bind, compress_shown h ha]
      apply ih
      obtain ⟨x, hx, hn⟩ := hk
      rcases List.mem_cons.1 hx with rfl | hx
      · exact absurd ha hn
      · exact ⟨x, hx, hn⟩
    · simp only [circColumns, asDict_get_error j a ha]
      rfl

/-- the frame before the labels -/
def shownTable (j : JCirc F) (n : Nat) (attrs : List String) : DF F :=
  ⟨attrs.map fun a => (a, shownCol j (shownStars j n) a), (shownStars j n).length⟩

theorem shownTable_ok {j : JCirc F} {n : Nat} (attrs : List String) (hne : attrs ≠ []) :
    ofDict ((distinct attrs).map fun a => (a, Col.arr (shownCol j (shownStars j n) a)))
      = .ok (shownTable j n (distinct attrs)) := by
  have hne' : distinct attrs ≠ [] := by rw [Ne, distinct_eq_nil]; exact hne
  obtain ⟨a, ha⟩ := List.exists_mem_of_ne_nil _ hne'
  rw [ofDict_uniform (distinct attrs) (fun a => Col.arr (shownCol j (shownStars j n) a))
    (shownStars j n).length]
  · rfl
  · intro a _
    simp [fits, shownCol]
  · exact ⟨a, ha, by simp [isArr]⟩

/-- the attributes of a circularity plot when none are given -/
def circDefault : List String := ["normalized_star_energy", "normalized_star_Jz", "eps", "eps_r"]

theorem getCirc_unfold {env : CircEnv F} {b : BGalaxy F} {cbins : F × F} {j : JCirc F}
    (hj : jcirc env (Galaxy.ofBodies b) cbins.1 cbins.2 = .ok j) (hf : FullLength j b.stars.length)
    (attributes : Option (List String)) (labels : PlotLabels F)
    (hk : ∀ a ∈ (hueAttributes (attributes.getD circDefault) labels.extract).1, a ∈ circularityAttributes)
    (hne : (hueAttributes (attributes.getD circDefault) labels.extract).1 ≠ []) :
    getCircDfAndHue env (Galaxy.ofBodies b) cbins attributes labels none = (do
      let l ← circLabels labels.extract
      insertLabels (shownTable j b.stars.length
          (distinct (hueAttributes (attributes.getD circDefault) labels.extract).1))
        (hueAttributes (attributes.getD circDefault) labels.extract).2 l) := by
  unfold getCircDfAndHue
  dsimp only
  rw [hj]
  simp only [Py.ok_bind]
  rw [jcirc_isfinite hf]
  simp only [Py.ok_bind]
  rw [show Dict.keys j.asDict = circDefault from rfl]
  have h1 := circColumns_ok hf (hueAttributes (attributes.getD circDefault) labels.extract).1 [] hk
  simp only [List.map_nil] at h1
  rw [h1]
  simp only [Py.ok_bind]
  have h2 := shownTable_ok (j := j) (n := b.stars.length) _ hne
  unfold distinct at h2
  rw [h2]
  simp only [Py.ok_bind]
  cases circLabels labels.extract with
  | error e => rfl
  | ok l =>
    simp only [Py.ok_bind]
    change (insertLabels (shownTable j b.stars.length
          (distinct (hueAttributes (attributes.getD circDefault) labels.extract).1)) _ l >>= _) = _
    cases insertLabels (shownTable j b.stars.length
          (distinct (hueAttributes (attributes.getD circDefault) labels.extract).1))
        (hueAttributes (attributes.getD circDefault) labels.extract).2 l with
    | error e => rfl
    | ok dh =>
      have : relabel dh.1 dh.2 none = .ok dh.1 := by
        unfold relabel
        cases dh.2 <;> rfl
      simp [this]

/-- the labels that are shown: the finite ones, in order -/
theorem finiteLabels_ok {l : List (Cell F)} (h : ∀ c ∈ l, ∀ s, c ≠ .str s) :
    finiteLabels l = .ok (l.filter cellFinite) := by
  unfold finiteLabels
  rw [mapM_ok l _ cellFinite]
  · simp only [Py.ok_bind]
    have := Np.compress_map l cellFinite id
    simpa using this
  · intro c hc
    cases c with
    | num x => rfl
    | int i => rfl
    | str s => exact absurd rfl (h _ hc s)

theorem shownTable_col {j : JCirc F} {n : Nat} {S : List String} {a : String} (h : a ∈ S) :
    (shownTable j n S).col a = .ok (shownCol j (shownStars j n) a) := by
  unfold DF.col Dict.getItem shownTable
  simp only
  rw [Dict.get?_map]
  simp [h]

theorem labels_not_circ : "Labels" ∉ circularityAttributes := by decide

/-- C57: what a circularity plot shows with labels in an array or a `Components`.  The rows are the
stars finite in the four attributes.  If there are as many finite labels, the `k`-th finite label is
on the `k`-th row; otherwise it is a `ValueError`, unless there is no row at all, in which case the
labels are shown beside NaN. -/
theorem C57_outcomes {env : CircEnv F} {b : BGalaxy F} {cbins : F × F} {j : JCirc F}
    (hj : jcirc env (Galaxy.ofBodies b) cbins.1 cbins.2 = .ok j) (hf : FullLength j b.stars.length)
    (attributes : Option (List String)) (labels : PlotLabels F) (l : List (Cell F))
    (hl : labels.Cells l) (hs : ∀ c ∈ l, ∀ s, c ≠ .str s)
    (hk : ∀ a ∈ attributes.getD circDefault, a ∈ circularityAttributes)
    (hne : attributes.getD circDefault ≠ []) :
    let R := shownStars j b.stars.length
    let L := l.filter cellFinite
    (L.length = R.length → ∃ df,
      getCircDfAndHue env (Galaxy.ofBodies b) cbins attributes labels none = .ok (df, some "Labels") ∧
      df.nrows = R.length ∧
      Dict.keys df.cols = "Labels" :: distinct (attributes.getD circDefault) ∧
      df.col "Labels" = .ok L ∧
      ∀ a ∈ attributes.getD circDefault, df.col a = .ok (shownCol j R a)) ∧
    (L.length ≠ R.length → R ≠ [] →
      getCircDfAndHue env (Galaxy.ofBodies b) cbins attributes labels none = .error .valueError) ∧
    (L ≠ [] → R = [] →
      getCircDfAndHue env (Galaxy.ofBodies b) cbins attributes labels none
        = .ok (⟨("Labels", L) :: (distinct (attributes.getD circDefault)).map fun a =>
            (a, List.replicate L.length (.num Num.nan)), L.length⟩, some "Labels")) := by
  intro R L
  have he := hl.extract
  have hu := getCirc_unfold hj hf attributes labels (by rw [he]; exact hk) (by rw [he]; exact hne)
  rw [he] at hu
  have hcl : circLabels (.arr l : PlotLabels F) = .ok (.arr L) := by
    change (finiteLabels l >>= fun x => pure (PlotLabels.arr x)) = _
    rw [finiteLabels_ok hs]
    rfl
  rw [hcl] at hu
  have hu' : getCircDfAndHue env (Galaxy.ofBodies b) cbins attributes labels none = (do
      let df ← (shownTable j b.stars.length (distinct (attributes.getD circDefault))).insertFront "Labels" L
      return (df, some "Labels")) := hu
  rw [hu']
  have hkey : (Dict.keys (shownTable j b.stars.length (distinct (attributes.getD circDefault))).cols)
      = distinct (attributes.getD circDefault) := by
    simp [shownTable, Dict.keys, Function.comp_def]
  have hno : ¬ (Dict.keys (shownTable j b.stars.length
      (distinct (attributes.getD circDefault))).cols).contains "Labels" = true := by
    rw [hkey]
    intro h
    exact labels_not_circ (hk _ (mem_distinct.1 (by simpa using h)))
  have hnr : (shownTable j b.stars.length (distinct (attributes.getD circDefault))).nrows = R.length := rfl
  refine ⟨?_, ?_, ?_⟩
  · intro hlen
    have hins : (shownTable j b.stars.length (distinct (attributes.getD circDefault))).insertFront "Labels" L
        = .ok ⟨("Labels", L) :: (shownTable j b.stars.length (distinct (attributes.getD circDefault))).cols,
          R.length⟩ := by
      unfold DF.insertFront
      rw [if_neg hno, hnr, if_pos hlen]
    rw [hins]
    refine ⟨_, rfl, rfl, ?_, ?_, ?_⟩
    · change "Labels" :: Dict.keys (shownTable _ _ _).cols = _
      rw [hkey]
    · simp [DF.col, Dict.getItem, Dict.get?]
    · intro a ha
      have hne' : "Labels" ≠ a := fun h => labels_not_circ (hk _ (h ▸ ha))
      have := shownTable_col (j := j) (n := b.stars.length) (mem_distinct.2 ha)
      unfold DF.col Dict.getItem at this ⊢
      simp only [Dict.get?, if_neg hne']
      exact this
  · intro hlen hR
    have hins : (shownTable j b.stars.length (distinct (attributes.getD circDefault))).insertFront "Labels" L
        = .error .valueError := by
      unfold DF.insertFront
      have hR0 : ¬ R.length = 0 := by simpa using hR
      rw [if_neg hno, hnr, if_neg hlen, if_neg hR0]
    rw [hins]
    rfl
  · intro hL hR
    have hins : (shownTable j b.stars.length (distinct (attributes.getD circDefault))).insertFront "Labels" L
        = .ok ⟨("Labels", L) :: (distinct (attributes.getD circDefault)).map fun a =>
            (a, List.replicate L.length (.num Num.nan)), L.length⟩ := by
      unfold DF.insertFront
      have hR0 : R.length = 0 := by simp [hR]
      rw [if_neg hno, hnr, hR0, if_neg (by simpa using hL), if_pos rfl]
      simp [shownTable, Function.comp_def]
    rw [hins]
    rfl

/-- C57: an unbound star makes every circularity plot fail. -/
theorem C57_unbound [NumOrd F] {env : CircEnv F} {b : BGalaxy F} {cbins : F × F}
    (hu : ∃ a ∈ b.stars, Unbound a.energy) (attributes : Option (List String)) (labels : PlotLabels F)
    (lmap : Option (LMap F)) :
    ∃ e, getCircDfAndHue env (Galaxy.ofBodies b) cbins attributes labels lmap = .error e := by
  unfold getCircDfAndHue
  dsimp only
  cases hj : jcirc env (Galaxy.ofBodies b) cbins.1 cbins.2 with
  | error e => exact ⟨e, rfl⟩
  | ok j =>
    simp only [Py.ok_bind]
    rw [(C22_unbound_shortens env b cbins.1 cbins.2 j hj hu).2.2]
    exact ⟨_, rfl⟩

/-! ## Labels of a decomposition -/

theorem labelCells_filter [NumOrd F] (L : List (Option Int))
    (hfin : ∀ l, some l ∈ L → Num.isFinite (Num.ofInt l : F) = true) :
    (L.map (Components.labelCell (F := F))).filter cellFinite
      = ((List.range L.length).filter fun i => (L.getD i none).isSome).map
          fun i => Components.labelCell (L.getD i none) := by
  have e : L = (List.range L.length).map fun i => L.getD i none := by
    apply List.ext_getElem
    · simp
    · intro i h1 h2
      simp [List.getD_eq_getElem?_getD, List.getElem?_eq_getElem h1]
  conv_lhs => rw [e, List.map_map, List.filter_map]
  congr 1
  apply List.filter_congr
  intro i hi
  have hi' : i < L.length := by simpa using hi
  have hm : L.getD i none ∈ L := by
    rw [List.getD_eq_getElem?_getD, List.getElem?_eq_getElem hi']
    exact List.getElem_mem hi'
  simp only [Function.comp_apply]
  cases ho : L.getD i none with
  | none => simp [Components.labelCell, cellFinite, NumOrd.nan_not_finite]
  | some l =>
    rw [ho] at hm
    simp [Components.labelCell, cellFinite, hfin l hm]

/-- the label of a particle as shown in a plot -/
def shownLabel (c : Components F) (i : Nat) : Cell F := Components.labelCell (c.labels.getD i none)

/-- the finite labels of a stars-only decomposition are those of the stars with finite attributes -/
theorem decomposition_labels [NumOrd F] {env : CircEnv F} {b : BGalaxy F} {cbins : F × F} {j : JCirc F}
    (hj : jcirc env (Galaxy.ofBodies b) cbins.1 cbins.2 = .ok j)
    (hall : ∀ a ∈ b.stars, ¬ Unbound a.energy)
    {attrs : List String} (hne : attrs ≠ []) (hc : ∀ a ∈ attrs, a ∈ circularityAttributes)
    {split : List (List F) → List (Cell F) → Py (List Int × Option (Mat F))}
    (hsplit : SplitPerRow split) {c : Components F}
    (h : decompose env cbins ⟨attrs, starsRowsMask, split⟩ (Galaxy.ofBodies b) = .ok c)
    (hfin : ∀ l, some l ∈ c.labels → Num.isFinite (Num.ofInt l : F) = true) :
    (c.labels.map Components.labelCell).filter cellFinite
      = (finiteStars j attrs b.stars.length).map (shownLabel c) := by
  obtain ⟨j', hal, hlen, _, _, hlab⟩ := C32_decompose env cbins b attrs split hsplit c h (Or.inr hall)
  obtain ⟨a0, ha0⟩ := List.exists_mem_of_ne_nil _ hne
  have hj' := (hal ⟨a0, ha0, hc a0 ha0⟩).1
  rw [hj] at hj'
  obtain rfl : j = j' := by injection hj'
  rw [labelCells_filter c.labels hfin]
  have e : (List.range c.labels.length).filter (fun i => (c.labels.getD i none).isSome)
      = finiteStars j attrs b.stars.length := by
    rw [hlen, rows_none_count]
    unfold finiteStars
    rw [List.range_add, List.filter_append]
    have hstar : ∀ i < b.stars.length, ∃ r, (b.rows none)[i]? = some r ∧ r.t = .stars := by
      intro i hi
      rw [rows_none, List.getElem?_append_left (by simpa [BSet.rows, BGalaxy.sSet] using hi)]
      refine ⟨_, List.getElem?_eq_getElem (by simpa [BSet.rows, BGalaxy.sSet] using hi), ?_⟩
      simp [BSet.rows]
    have hother : ∀ i, b.stars.length ≤ i → i < (b.rows none).length →
        ∃ r, (b.rows none)[i]? = some r ∧ r.t ≠ .stars := by
      intro i h1 h2
      refine ⟨_, List.getElem?_eq_getElem h2, ?_⟩
      have hm : (b.rows none)[i] ∈ b.dmSet.rows .darkMatter ++ b.gSet.rows .gas := by
        have hlen' : (b.sSet.rows .stars).length = b.stars.length := by simp [BSet.rows, BGalaxy.sSet]
        have h3 := List.getElem?_eq_getElem h2
        have h4 : (b.rows none)[i]? = (b.dmSet.rows .darkMatter ++ b.gSet.rows .gas)[i - b.stars.length]? := by
          rw [rows_none, List.getElem?_append_right (by omega), hlen']
        rw [h4] at h3
        exact List.mem_of_getElem? h3
      rcases List.mem_append.1 hm with hm | hm
      · obtain ⟨x, _, hx⟩ := List.mem_map.1 hm
        rw [← hx]; simp
      · obtain ⟨x, _, hx⟩ := List.mem_map.1 hm
        rw [← hx]; simp
    have e2 : ((List.range (b.dm.length + b.gas.length)).map fun x => b.stars.length + x).filter
        (fun i => (c.labels.getD i none).isSome) = [] := by
      rw [List.filter_eq_nil_iff]
      intro i hi
      obtain ⟨x, hx, rfl⟩ := List.mem_map.1 hi
      have hx' : x < b.dm.length + b.gas.length := by simpa using hx
      obtain ⟨r, hr, ht⟩ := hother (b.stars.length + x) (by omega) (by rw [rows_none_count]; omega)
      have := ((hlab _ r hr).2 fun hh => ht hh.1).1
      rw [List.getD_eq_getElem?_getD, this]
      simp
    rw [e2, List.append_nil]
    apply List.filter_congr
    intro i hi
    have hi' : i < b.stars.length := by simpa using hi
    obtain ⟨r, hr, ht⟩ := hstar i hi'
    have hcell : ∀ a ∈ attrs, cellFinite (matCell j r i a) = Num.isFinite ((j.attr a).getD i Num.nan) := by
      intro a ha
      unfold matCell
      rw [if_pos (hc a ha), if_pos ht]
      rfl
    by_cases hv : ∀ a ∈ attrs, cellFinite (matCell j r i a) = true
    · obtain ⟨l, hl⟩ := (hlab i r hr).1 ⟨ht, hv⟩
      rw [List.getD_eq_getElem?_getD, hl]
      symm
      simp only [Option.getD_some, Option.isSome_some]
      rw [List.all_eq_true]
      intro a ha
      rw [← hcell a ha]
      exact hv a ha
    · have := ((hlab i r hr).2 fun hh => hv hh.2).1
      rw [List.getD_eq_getElem?_getD, this]
      symm
      simp only [Option.getD_some, Option.isSome_none]
      rw [Bool.eq_false_iff]
      intro hh
      rw [List.all_eq_true] at hh
      exact hv fun a ha => by rw [hcell a ha]; exact hh a ha
  rw [e]
  rfl

/-- the shown stars are among the labelled ones -/
theorem shown_sublist (j : JCirc F) {attrs : List String} (hc : ∀ a ∈ attrs, a ∈ circularityAttributes)
    (n : Nat) : (shownStars j n).Sublist (finiteStars j attrs n) := by
  rw [← finiteStars_all]
  unfold finiteStars
  apply List.monotone_filter_right
  intro i hi
  rw [List.all_eq_true] at hi ⊢
  exact fun a ha => hi a (hc a ha)

theorem comps_no_str (c : Components F) :
    ∀ x ∈ c.labels.map (Components.labelCell (F := F)), ∀ s, x ≠ .str s := by
  intro x hx s
  obtain ⟨o, _, rfl⟩ := List.mem_map.1 hx
  cases o <;> simp [Components.labelCell]

/-- C57: a circularity plot of a stars-only decomposition of the same galaxy puts the label of each
star on its row if the stars with finite decomposition attributes are the stars with four finite
attributes; otherwise it raises `ValueError` or, when no star has four finite attributes, shows the
labels beside rows of NaN. -/
theorem C57_decomposition [NumOrd F] {env : CircEnv F} {b : BGalaxy F} {cbins : F × F} {j : JCirc F}
    (hj : jcirc env (Galaxy.ofBodies b) cbins.1 cbins.2 = .ok j)
    (hall : ∀ a ∈ b.stars, ¬ Unbound a.energy)
    {attrs : List String} (hne : attrs ≠ []) (hc : ∀ a ∈ attrs, a ∈ circularityAttributes)
    {split : List (List F) → List (Cell F) → Py (List Int × Option (Mat F))}
    (hsplit : SplitPerRow split) {c : Components F}
    (h : decompose env cbins ⟨attrs, starsRowsMask, split⟩ (Galaxy.ofBodies b) = .ok c)
    (hfin : ∀ l, some l ∈ c.labels → Num.isFinite (Num.ofInt l : F) = true)
    (attributes : Option (List String))
    (hk : ∀ a ∈ attributes.getD circDefault, a ∈ circularityAttributes)
    (hne' : attributes.getD circDefault ≠ []) :
    let R := shownStars j b.stars.length
    let S := finiteStars j attrs b.stars.length
    (S = R → ∃ df,
      getCircDfAndHue env (Galaxy.ofBodies b) cbins attributes (.comps c) none = .ok (df, some "Labels") ∧
      df.nrows = R.length ∧ df.col "Labels" = .ok (R.map (shownLabel c)) ∧
      ∀ a ∈ attributes.getD circDefault, df.col a = .ok (shownCol j R a)) ∧
    (S ≠ R → R ≠ [] →
      getCircDfAndHue env (Galaxy.ofBodies b) cbins attributes (.comps c) none = .error .valueError) ∧
    (S ≠ R → R = [] →
      getCircDfAndHue env (Galaxy.ofBodies b) cbins attributes (.comps c) none
        = .ok (⟨("Labels", S.map (shownLabel c)) :: (distinct (attributes.getD circDefault)).map fun a =>
            (a, List.replicate S.length (.num Num.nan)), S.length⟩, some "Labels")) := by
  intro R S
  have hL := decomposition_labels hj hall hne hc hsplit h hfin
  obtain ⟨h1, h2, h3⟩ := C57_outcomes hj (fullLength_of_bound hj hall) attributes (.comps c)
    (c.labels.map Components.labelCell) (Or.inr ⟨c, rfl, rfl⟩) (comps_no_str c) hk hne'
  rw [hL] at h1 h2 h3
  simp only [List.length_map] at h1 h2 h3
  have hsub := shown_sublist j hc b.stars.length
  have hlen : S ≠ R → S.length ≠ R.length := fun hSR hl => hSR (hsub.eq_of_length hl.symm).symm
  refine ⟨?_, fun hSR hR => h2 (hlen hSR) hR, fun hSR hR => ?_⟩
  · intro hSR
    obtain ⟨df, hd, hr, -, hcol, hrest⟩ := h1 (congrArg List.length hSR)
    refine ⟨df, hd, hr, ?_, hrest⟩
    rw [hcol]
    change Except.ok (S.map _) = _
    rw [hSR]
  · have hS : S ≠ [] := fun h0 => hSR (by rw [h0, hR])
    exact h3 (by simpa using hS) hR

/-- C57: for a decomposition by energy, circularity and projected circularity (the clustering
decomposers) the plot is always right; the only law used is that a finite quotient has a finite
numerator. -/
theorem C57_clustering [NumOrd F] (hdiv : ∀ a c : F, Num.isFinite (a /. c) = true → Num.isFinite a = true)
    {env : CircEnv F} {b : BGalaxy F} {cbins : F × F} {j : JCirc F}
    (hj : jcirc env (Galaxy.ofBodies b) cbins.1 cbins.2 = .ok j)
    (hall : ∀ a ∈ b.stars, ¬ Unbound a.energy) {attrs : List String}
    (hc : ∀ a ∈ attrs, a ∈ circularityAttributes) (h1 : "normalized_star_energy" ∈ attrs)
    (h2 : "eps" ∈ attrs) (h3 : "eps_r" ∈ attrs) :
    finiteStars j attrs b.stars.length = shownStars j b.stars.length := by
  unfold finiteStars shownStars
  apply List.filter_congr
  intro i hi
  have hi' : i < b.stars.length := by simpa using hi
  obtain ⟨m, J, R, -, -, -, hout⟩ := C23_star_outputs env b cbins.1 cbins.2 j hj
  have ho := hout i _ (List.getElem?_eq_getElem hi') (hall _ (List.getElem_mem hi'))
  dsimp only at ho
  obtain ⟨o1, o2, o3, o4⟩ := ho
  rw [Bool.eq_iff_iff, List.all_eq_true]
  simp only [Bool.and_eq_true]
  constructor
  · intro hh
    have e1 := hh _ h1
    have e2 := hh _ h2
    have e3 := hh _ h3
    simp only [JCirc.attr, if_true, String.reduceEq, if_false] at e1 e2 e3
    refine ⟨⟨⟨e1, ?_⟩, e2⟩, e3⟩
    rw [List.getD_eq_getElem?_getD, o3] at e2
    rw [List.getD_eq_getElem?_getD, o2]
    simp only [Option.getD_some] at e2 ⊢
    split at e2
    · rw [NumOrd.nan_not_finite] at e2; cases e2
    · next hr =>
      rw [if_neg hr]
      exact hdiv _ _ e2
  · rintro ⟨⟨⟨e1, e2⟩, e3⟩, e4⟩ a ha
    have := hc a ha
    simp only [circularityAttributes, List.mem_cons, List.not_mem_nil, or_false] at this
    rcases this with rfl | rfl | rfl | rfl
    · exact e3
    · exact e4
    · exact e2
    · exact e1

/-! ## C58 for circularity plots -/

theorem getCirc_hueCol [NumOrd F] {env : CircEnv F} {b : BGalaxy F} {cbins : F × F}
    {attributes : Option (List String)} {labels : PlotLabels F} {df : DF F} {hue : Option String}
    (h : getCircDfAndHue env (Galaxy.ofBodies b) cbins attributes labels none = .ok (df, hue)) :
    HueCol df hue := by
  unfold getCircDfAndHue at h
  dsimp only at h
  cases hj : jcirc env (Galaxy.ofBodies b) cbins.1 cbins.2 with
  | error e => rw [hj] at h; cases h
  | ok j =>
    rw [hj] at h
    simp only [Py.ok_bind] at h
    by_cases hf : ∃ n, FullLength j n
    · obtain ⟨n, hf⟩ := hf
      rw [jcirc_isfinite hf] at h
      simp only [Py.ok_bind] at h
      rw [show Dict.keys j.asDict = circDefault from rfl] at h
      generalize hah : hueAttributes (attributes.getD circDefault) labels.extract = ah at h
      by_cases hk : ∀ a ∈ ah.1, a ∈ circularityAttributes
      · have h1 := circColumns_ok hf ah.1 [] hk
        simp only [List.map_nil] at h1
        rw [h1] at h
        simp only [Py.ok_bind] at h
        cases ho : ofDict ((ah.1.foldl (fun acc a => if acc.contains a then acc else acc ++ [a]) []).map
            fun a => (a, Col.arr (shownCol j (shownStars j n) a))) with
        | error e => rw [ho] at h; cases h
        | ok d =>
          rw [ho] at h
          simp only [Py.ok_bind] at h
          cases hl : circLabels labels.extract with
          | error e => rw [hl] at h; cases h
          | ok l =>
            rw [hl] at h
            simp only [Py.ok_bind] at h
            cases hi : insertLabels d ah.2 l with
            | error e => rw [hi] at h; cases h
            | ok dh =>
              rw [hi] at h
              have hrel : relabel dh.1 dh.2 none = .ok dh.1 := by
                unfold relabel
                cases dh.2 <;> rfl
              simp only [Py.ok_bind, hrel] at h
              injection h with h
              injection h with e1 e2
              subst e1; subst e2
              -- the three kinds of labels
              cases hx : labels.extract with
              | none =>
                rw [hx] at hah hl
                subst hah
                cases hl
                cases hi
                intro x hx'
                cases hx'
              | comps c => cases labels <;> cases hx
              | attr s =>
                rw [hx] at hah hl
                subst hah
                cases hl
                cases hi
                intro x hx'
                simp only [hueAttributes, Option.some.injEq] at hx'
                subst hx'
                have hm : s ∈ npUnique (attributes.getD circDefault ++ [s]) := mem_npUnique.2 (by simp)
                have hsc := hk s hm
                refine ⟨?_, ?_⟩
                · rintro rfl
                  revert hsc
                  decide
                · have h2 := shownTable_ok (j := j) (n := n) (npUnique (attributes.getD circDefault ++ [s]))
                    (List.ne_nil_of_mem hm)
                  unfold distinct at h2
                  change ofDict ((List.foldl _ [] (npUnique (attributes.getD circDefault ++ [s]))).map _) = _ at ho
                  rw [h2] at ho
                  cases ho
                  exact ⟨_, shownTable_col (mem_distinct.2 hm)⟩
              | arr l0 =>
                rw [hx] at hah hl
                subst hah
                change (finiteLabels l0 >>= fun x => pure (PlotLabels.arr x)) = _ at hl
                cases hfl : finiteLabels l0 with
                | error e => rw [hfl] at hl; cases hl
                | ok l1 =>
                  rw [hfl] at hl
                  simp only [Py.ok_bind, Py.pure_eq] at hl
                  cases hl
                  simp only [insertLabels, hueAttributes, Option.isNone_none, if_true] at hi
                  cases hin : d.insertFront "Labels" l1 with
                  | error e => rw [hin] at hi; cases hi
                  | ok d' =>
                    rw [hin] at hi
                    simp only [Py.ok_bind, Py.pure_eq] at hi
                    cases hi
                    intro x hx'
                    cases hx'
                    exact ⟨by decide, l1, insertFront_col hin⟩
      · push Not at hk
        rw [circColumns_keyError hf ah.1 [] hk] at h
        cases h
    · push Not at hf
      rw [jcirc_isfinite_error hf] at h
      cases h

/-- C58, circularity plots: a dictionary renames the hue values that are keys and nothing else. -/
theorem C58_circ_dict [NumOrd F] {env : CircEnv F} {b : BGalaxy F} {cbins : F × F}
    {attributes : Option (List String)} {labels : PlotLabels F} {df : DF F} {h : String}
    (hr : getCircDfAndHue env (Galaxy.ofBodies b) cbins attributes labels none = .ok (df, some h))
    (d : List (Cell F × Cell F)) :
    ∃ col col' df', df.col h = .ok col ∧
      getCircDfAndHue env (Galaxy.ofBodies b) cbins attributes labels (some (.dict d))
        = .ok (df', some h) ∧
      Renamed df df' h col' ∧ List.Forall₂ (DictImage d) col col' := by
  obtain ⟨col, col', df', h1, h2, h3, h4⟩ := relabel_dict (getCirc_hueCol hr) d
  refine ⟨col, col', df', h1, ?_, h3, h4⟩
  rw [getCircDfAndHue_lmap, hr]
  simp [h2]

/-- C58, circularity plots: a function is applied to every hue value; its exceptions escape. -/
theorem C58_circ_func [NumOrd F] {env : CircEnv F} {b : BGalaxy F} {cbins : F × F}
    {attributes : Option (List String)} {labels : PlotLabels F} {df : DF F} {h : String}
    (hr : getCircDfAndHue env (Galaxy.ofBodies b) cbins attributes labels none = .ok (df, some h))
    (f : Cell F → Py (Cell F)) :
    ∃ col, df.col h = .ok col ∧
      (∀ g : Cell F → Cell F, (∀ c ∈ col, f c = .ok (g c)) → ∃ df',
        getCircDfAndHue env (Galaxy.ofBodies b) cbins attributes labels (some (.func f))
          = .ok (df', some h) ∧
        Renamed df df' h (col.map g)) ∧
      (∀ e, col.mapM f = .error e →
        getCircDfAndHue env (Galaxy.ofBodies b) cbins attributes labels (some (.func f)) = .error e) := by
  obtain ⟨col, h1, h2, h3⟩ := relabel_func (getCirc_hueCol hr) f
  refine ⟨col, h1, ?_, ?_⟩
  · intro g hg
    obtain ⟨df', h4, h5⟩ := h2 g hg
    refine ⟨df', ?_, h5⟩
    rw [getCircDfAndHue_lmap, hr]
    simp [h4]
  · intro e he
    rw [getCircDfAndHue_lmap, hr]
    simp only [Py.ok_bind, h3 e he]
    rfl

/-! ## Examples -/

/-- labels the rows 0, 1, 2, ... -/
def exSplit : List (List (Ext ℚ)) → List (Cell (Ext ℚ)) → Py (List Int × Option (Mat (Ext ℚ))) :=
  fun X _ => .ok ((List.range X.length).map (fun i : Nat => (i : Int)), none)

/-- the frame of a plot of the decomposition by the given attributes -/
def exPlot (b : BGalaxy (Ext ℚ)) (attrs : List String) : Py (DF (Ext ℚ) × Option String) := do
  let c ← decompose exEnv defaultCbin ⟨attrs, starsRowsMask, exSplit⟩ (Galaxy.ofBodies b)
  getCircDfAndHue exEnv (Galaxy.ofBodies b) defaultCbin (some ["eps"]) (.comps c) none

/-- a particle out of the plane -/
def outOfPlane (e jz : ℚ) : Body (Ext ℚ) :=
  ⟨q 1, q 1, q 0, q 0, q 0, q jz, q 1, q (e - (jz * jz + 1) / 2)⟩

/-- C57 (negation): in a galaxy whose particles move in one plane every `eps_r` is NaN, so the plot
of a decomposition by `eps` shows the labels of two stars beside NaN. -/
theorem C57_counterexample :
    exPlot { exLost with stars := [orbit (-1) 1, orbit (-1/2) 2], dm := [orbit (-1/1000) 4] } ["eps"]
      = .ok (⟨[("Labels", [.num (q 0), .num (q 1)]), ("eps", [.num .nan, .num .nan])], 2⟩,
        some "Labels") := by
  decide +kernel

/-- C57 (negation): a bin whose particles have no angular momentum gives NaN circularity to its star,
so the plot of a decomposition by energy raises. -/
theorem C57_counterexample_raises :
    exPlot { exLost with stars := [orbit (-1) 0, orbit (-1/2) 2], dm := [outOfPlane (-1/1000) 4] }
      ["normalized_star_energy"] = .error .valueError := by
  decide +kernel

/-- with a particle out of the plane the labels are on the rows of their stars -/
example : exPlot { exLost with
      stars := [orbit (-1) 1, orbit (-1/2) (-2), orbit (-1/4) 1], dm := [outOfPlane (-1/1000) 4] } ["eps"]
    = .ok (⟨[("Labels", [.num (q 0), .num (q 1), .num (q 2)]),
        ("eps", [.num (q 1), .num (q (-1)), .num (q 1)])], 3⟩, some "Labels") := by
  decide +kernel

end GChop
