import Verif.Props.PlotCirc

/-!
# C61: what the plot methods hand to seaborn
-/

set_option linter.unusedSectionVars false

namespace GChop
open Pd

variable {F : Type} [Num F] {K : Type}

/-! ## The frame, whatever the labels and their map -/

theorem relabel_inv {df df' : DF F} {hue : Option String} {lmap : Option (LMap F)}
    (h : relabel df hue lmap = .ok df') :
    df'.nrows = df.nrows ∧ (∀ a, hue ≠ some a → df'.col a = df.col a) ∧
      (HueCol df hue → HueCol df' hue) := by
  unfold relabel at h
  cases hue with
  | none => cases h; exact ⟨rfl, fun _ _ => rfl, id⟩
  | some n =>
    cases lmap with
    | none => cases h; exact ⟨rfl, fun _ _ => rfl, id⟩
    | some m =>
      dsimp only at h
      split at h
      · cases h; exact ⟨rfl, fun _ _ => rfl, id⟩
      · cases hc : df.col n with
        | error e => rw [hc] at h; cases h
        | ok col =>
          rw [hc] at h
          simp only [Py.ok_bind] at h
          cases hm : col.mapM m.apply with
          | error e => rw [hm] at h; cases h
          | ok col' =>
            rw [hm] at h
            simp only [Py.ok_bind] at h
            cases h
            refine ⟨rfl, ?_, ?_⟩
            · intro a ha
              rw [col_set, if_neg]
              rintro rfl
              exact ha rfl
            · intro hh x hx
              injection hx with hx
              subst hx
              exact ⟨(hh n rfl).1, col', by rw [col_set, if_pos rfl]⟩

theorem insertFront_inv {df df' : DF F} {n : String} {l : List (Cell F)}
    (h : df.insertFront n l = .ok df') (h0 : df.nrows ≠ 0) :
    l.length = df.nrows ∧ df'.nrows = df.nrows ∧ (∀ a, n ≠ a → df'.col a = df.col a) := by
  unfold DF.insertFront at h
  split at h
  · cases h
  · split at h
    · next hl =>
      cases h
      refine ⟨hl, rfl, ?_⟩
      intro a ha
      simp [DF.col, Dict.getItem, Dict.get?, ha]
    · cases h

/-- the hue that a `labels` argument asks for -/
def PlotLabels.hueName : PlotLabels F → Option String
  | .none => Option.none
  | .attr s => some s
  | .arr _ => some "Labels"
  | .comps _ => some "Labels"

/-- The frame of a plot that was made: its hue, its number of rows and every column but the hue. -/
theorem getDfAndHue_inv {b : BGalaxy F} {ptypes attributes : Option (List String)}
    {labels : PlotLabels F} {lmap : Option (LMap F)} {df : DF F} {hue : Option String}
    (h : getDfAndHue (Galaxy.ofBodies b) ptypes attributes labels lmap = .ok (df, hue))
    (hA : attributes.getD ["x", "y", "z"] ≠ []) :
    hue = labels.hueName ∧ HueCol df hue ∧
    (b.rows ptypes ≠ [] → df.nrows = (b.rows ptypes).length ∧
      ∀ a ∈ attributes.getD ["x", "y", "z"], hue ≠ some a →
        df.col a = .ok ((b.rows ptypes).map fun r => r.cell a)) := by
  rw [getDfAndHue_lmap] at h
  cases hd : getDfAndHue (Galaxy.ofBodies b) ptypes attributes labels none with
  | error e => rw [hd] at h; cases h
  | ok dh =>
    obtain ⟨d, hu⟩ := dh
    rw [hd] at h
    simp only [Py.ok_bind] at h
    cases hr : relabel d hu lmap with
    | error e => rw [hr] at h; cases h
    | ok d' =>
      rw [hr] at h
      simp only [Py.ok_bind] at h
      cases h
      obtain ⟨r1, r2, r3⟩ := relabel_inv hr
      have hcol := r3 (getDfAndHue_hueCol hd)
      suffices hue = labels.hueName ∧ (b.rows ptypes ≠ [] → d.nrows = (b.rows ptypes).length ∧
          ∀ a ∈ attributes.getD ["x", "y", "z"], hue ≠ some a →
            d.col a = .ok ((b.rows ptypes).map fun r => r.cell a)) by
        refine ⟨this.1, hcol, fun h0 => ⟨r1.trans (this.2 h0).1, fun a ha hne => ?_⟩⟩
        rw [r2 a hne]
        exact (this.2 h0).2 a ha hne
      have nrows : ∀ S : List String, S ≠ [] →
          (tableOf (b.rows ptypes) S).nrows = (b.rows ptypes).length := by
        intro S hS
        simp [tableOf, hS]
      have key : ∀ l, labels.extract = .arr l → hue = some "Labels" ∧
          (b.rows ptypes ≠ [] → d.nrows = (b.rows ptypes).length ∧
          ∀ a ∈ attributes.getD ["x", "y", "z"], hue ≠ some a →
            d.col a = .ok ((b.rows ptypes).map fun r => r.cell a)) := by
        intro l hl
        rw [getDfAndHue_arr b ptypes attributes labels l hl] at hd
        cases ht : Galaxy.toDataframe (Galaxy.ofBodies b) ptypes (some (attributes.getD plotDefault)) with
        | error e => rw [ht] at hd; cases hd
        | ok t =>
          rw [ht] at hd
          simp only [Py.ok_bind] at hd
          cases hi : t.insertFront "Labels" l with
          | error e => rw [hi] at hd; cases hd
          | ok t' =>
            rw [hi] at hd
            simp only [Py.ok_bind] at hd
            cases hd
            refine ⟨rfl, fun h0 => ?_⟩
            obtain ⟨rfl, hk⟩ := toDataframe_inv ht
            have hS : distinct (attributes.getD plotDefault) ≠ [] := by
              rw [Ne, distinct_eq_nil]; exact hA
            have hn0 : (tableOf (b.rows ptypes) (distinct (attributes.getD plotDefault))).nrows ≠ 0 := by
              rw [nrows _ hS]; simpa using h0
            obtain ⟨i1, i2, i3⟩ := insertFront_inv hi hn0
            refine ⟨i2.trans (nrows _ hS), fun a ha hne => ?_⟩
            rw [i3 a (fun h => hne (congrArg some h))]
            exact tableOf_col _ _ a (mem_distinct.2 ha)
      cases labels with
      | arr l => exact key l rfl
      | comps c => exact key _ rfl
      | none =>
        rw [C56_no_labels] at hd
        cases ht : Galaxy.toDataframe (Galaxy.ofBodies b) ptypes (some (attributes.getD ["x", "y", "z"])) with
        | error e => rw [ht] at hd; cases hd
        | ok t =>
          rw [ht] at hd
          simp only [Py.ok_bind] at hd
          cases hd
          obtain ⟨rfl, hk⟩ := toDataframe_inv ht
          refine ⟨rfl, fun _ => ⟨nrows _ (by rw [Ne, distinct_eq_nil]; exact hA), fun a ha _ => ?_⟩⟩
          exact tableOf_col _ _ a (mem_distinct.2 ha)
      | attr s =>
        unfold getDfAndHue at hd
        simp only [PlotLabels.extract, hueAttributes] at hd
        cases ht : Galaxy.toDataframe (Galaxy.ofBodies b) ptypes
            (some (npUnique (attributes.getD ["x", "y", "z"] ++ [s]))) with
        | error e => rw [ht] at hd; cases hd
        | ok t =>
          rw [ht] at hd
          simp only [Py.ok_bind, insertLabels, relabel] at hd
          cases hd
          obtain ⟨rfl, hk⟩ := toDataframe_inv ht
          refine ⟨rfl, fun _ => ⟨nrows _ ?_, fun a ha _ => ?_⟩⟩
          · rw [Ne, distinct_eq_nil]
            intro hnil
            have : s ∈ npUnique (attributes.getD ["x", "y", "z"] ++ [s]) := mem_npUnique.2 (by simp)
            rw [hnil] at this
            cases this
          · exact tableOf_col _ _ a (mem_distinct.2 (mem_npUnique.2 (by simp [ha])))

/-! ## The calls -/

theorem snsCall_inv {fn : String} {x y : Option String} {dh : DF F × Option String}
    {kwargs : Dict String K} {c : SnsCall F K} (h : snsCall fn x y dh kwargs = .ok c) :
    c = ⟨fn, x, y, dh.1, dh.2, kwargs⟩ ∧ "data" ∉ Dict.keys kwargs ∧ "hue" ∉ Dict.keys kwargs := by
  unfold snsCall at h
  split at h
  · cases h
  · next hk =>
    cases h
    rw [List.any_eq_true] at hk
    push Not at hk
    exact ⟨rfl, fun hd => hk _ hd (by simp), fun hd => hk _ hd (by simp)⟩

theorem snsCall_ok {fn : String} {x y : Option String} {dh : DF F × Option String}
    {kwargs : Dict String K} (h1 : "data" ∉ Dict.keys kwargs) (h2 : "hue" ∉ Dict.keys kwargs) :
    snsCall fn x y dh kwargs = .ok ⟨fn, x, y, dh.1, dh.2, kwargs⟩ := by
  unfold snsCall
  rw [if_neg]
  rw [List.any_eq_true]
  rintro ⟨k, hk, he⟩
  rw [Bool.or_eq_true, beq_iff_eq, beq_iff_eq] at he
  rcases he with rfl | rfl
  · exact h1 hk
  · exact h2 hk

theorem snsCall_typeError {fn : String} {x y : Option String} {dh : DF F × Option String}
    {kwargs : Dict String K} (h : "data" ∈ Dict.keys kwargs ∨ "hue" ∈ Dict.keys kwargs) :
    snsCall fn x y dh kwargs = .error .typeError := by
  unfold snsCall
  rw [if_pos]
  rw [List.any_eq_true]
  rcases h with h | h
  · exact ⟨_, h, by simp⟩
  · exact ⟨_, h, by simp⟩

/-- the keyword arguments of a pair plot: those of the caller and two defaults -/
structure PairKwargs (str : String → K) (user sent : Dict String K) : Prop where
  given : ∀ k v, Dict.get? user k = some v → Dict.get? sent k = some v
  kind : Dict.get? user "kind" = none → Dict.get? sent "kind" = some (str "hist")
  diag : Dict.get? user "diag_kind" = none → Dict.get? sent "diag_kind" = some (str "kde")
  rest : ∀ k, k ≠ "kind" → k ≠ "diag_kind" → Dict.get? sent k = Dict.get? user k

theorem get?_setDefault (d : Dict String K) (k : String) (v : K) (a : String) :
    Dict.get? (setDefault d k v) a
      = if k = a then some ((Dict.get? d a).getD v) else Dict.get? d a := by
  unfold setDefault
  by_cases hk : k ∈ Dict.keys d
  · rw [if_pos (by simpa using hk)]
    split
    · next h =>
      subst h
      obtain ⟨w, hw⟩ := Dict.mem_keys.1 hk
      simp [hw]
    · rfl
  · rw [if_neg (by simpa using hk), Dict.get?_set_eq]
    split
    · next h =>
      subst h
      cases hw : Dict.get? d k with
      | none => rfl
      | some w => exact absurd (Dict.mem_keys.2 ⟨w, hw⟩) hk
    · rfl

theorem pairKwargs (str : String → K) (d : Dict String K) :
    PairKwargs str d (setDefault (setDefault d "kind" (str "hist")) "diag_kind" (str "kde")) := by
  refine ⟨fun k v h => ?_, fun h => ?_, fun h => ?_, fun k h1 h2 => ?_⟩
  · simp only [get?_setDefault]
    split_ifs <;> simp_all
  · simp [get?_setDefault, h]
  · simp [get?_setDefault, h]
  · simp [get?_setDefault, Ne.symm h1, Ne.symm h2]

theorem PairKwargs.keys {str : String → K} {user sent : Dict String K} (h : PairKwargs str user sent)
    {k : String} (h1 : k ≠ "kind") (h2 : k ≠ "diag_kind") :
    k ∈ Dict.keys sent ↔ k ∈ Dict.keys user := by
  rw [Dict.mem_keys, Dict.mem_keys, h.rest k h1 h2]

/-! ## C61 -/

/-- What seaborn is told about the particles `rows`: the hue is the one asked for by `labels` and is a
column, and so is every name in `names`; there is one row per particle, and a column that is not the
hue has in row `i` the value of particle `i`. -/
structure Shows (rows : List (Row F)) (names : List String) (labels : PlotLabels F)
    (c : SnsCall F K) : Prop where
  hue : c.hue = labels.hueName
  hueCol : ∀ h, c.hue = some h → ∃ col, c.data.col h = .ok col
  nrows : rows ≠ [] → c.data.nrows = rows.length
  cols : rows ≠ [] → ∀ a ∈ names, c.hue ≠ some a → c.data.col a = .ok (rows.map fun r => r.cell a)

theorem axes_ne_nil (x : String) (y : Option String) : axes x y ≠ [] := by cases y <;> simp [axes]

/-- C61: a `scatter`, `hist` or `kde` that reaches seaborn passes the axes it was given, the keyword
arguments unchanged, and a frame with the values of the particles on both axes. -/
theorem C61_xy {fn : String} {b : BGalaxy F} {x : String} {y : Option String}
    {ptypes : Option (List String)} {labels : PlotLabels F} {lmap : Option (LMap F)}
    {kwargs : Dict String K} {c : SnsCall F K}
    (h : plotXY fn (Galaxy.ofBodies b) x y ptypes labels lmap kwargs = .ok c) :
    c.fn = fn ∧ c.x = some x ∧ c.y = y ∧ c.kwargs = kwargs ∧
      "data" ∉ Dict.keys kwargs ∧ "hue" ∉ Dict.keys kwargs ∧
      Shows (b.rows ptypes) (x :: y.toList) labels c := by
  unfold plotXY at h
  cases hd : getDfAndHue (Galaxy.ofBodies b) ptypes (some (axes x y)) labels lmap with
  | error e => rw [hd] at h; cases h
  | ok dh =>
    rw [hd] at h
    simp only [Py.ok_bind] at h
    obtain ⟨rfl, h1, h2⟩ := snsCall_inv h
    obtain ⟨g1, g2, g3⟩ := getDfAndHue_inv (hue := dh.2) (df := dh.1) hd (axes_ne_nil x y)
    refine ⟨rfl, rfl, rfl, rfl, h1, h2, g1, fun n hn => (g2 n hn).2, fun h0 => (g3 h0).1, ?_⟩
    intro h0 a ha
    apply (g3 h0).2 a
    cases y <;> simpa [axes] using ha

/-- C61: `pairplot` passes the frame of the attributes; the keyword arguments of the caller are kept
and `kind` and `diag_kind` are added if they were not given. -/
theorem C61_pairplot {str : String → K} {b : BGalaxy F} {ptypes attributes : Option (List String)}
    {labels : PlotLabels F} {lmap : Option (LMap F)} {kwargs : Dict String K} {c : SnsCall F K}
    (h : plotPairplot str (Galaxy.ofBodies b) ptypes attributes labels lmap kwargs = .ok c)
    (hA : attributes ≠ some []) :
    c.fn = "pairplot" ∧ c.x = none ∧ c.y = none ∧ PairKwargs str kwargs c.kwargs ∧
      "data" ∉ Dict.keys kwargs ∧ "hue" ∉ Dict.keys kwargs ∧
      Shows (b.rows ptypes) (attributes.getD ["x", "y", "z"]) labels c := by
  unfold plotPairplot at h
  cases hd : getDfAndHue (Galaxy.ofBodies b) ptypes attributes labels lmap with
  | error e => rw [hd] at h; cases h
  | ok dh =>
    rw [hd] at h
    simp only [Py.ok_bind] at h
    obtain ⟨rfl, h1, h2⟩ := snsCall_inv h
    have hA' : attributes.getD ["x", "y", "z"] ≠ [] := by
      cases attributes with
      | none => simp
      | some l => simpa using hA
    obtain ⟨g1, g2, g3⟩ := getDfAndHue_inv (hue := dh.2) (df := dh.1) hd hA'
    have hp := pairKwargs str kwargs
    refine ⟨rfl, rfl, rfl, hp, ?_, ?_, g1, fun n hn => (g2 n hn).2, fun h0 => (g3 h0).1,
      fun h0 => (g3 h0).2⟩
    · rwa [hp.keys (by decide) (by decide)] at h1
    · rwa [hp.keys (by decide) (by decide)] at h2

/-- C61: seaborn is reached whenever the frame can be built and the keyword arguments do not repeat
`data` or `hue`; repeating one of them is a `TypeError`; an error of the frame escapes. -/
theorem C61_reaches (fn : String) (str : String → K) (g : Galaxy F) (x : String) (y : Option String)
    (ptypes attributes : Option (List String)) (labels : PlotLabels F) (lmap : Option (LMap F))
    (kwargs : Dict String K) :
    (∀ e, getDfAndHue g ptypes (some (x :: y.toList)) labels lmap = .error e →
      plotXY fn g x y ptypes labels lmap kwargs = .error e) ∧
    (∀ dh, getDfAndHue g ptypes (some (x :: y.toList)) labels lmap = .ok dh →
      (("data" ∈ Dict.keys kwargs ∨ "hue" ∈ Dict.keys kwargs) →
        plotXY fn g x y ptypes labels lmap kwargs = .error .typeError) ∧
      ("data" ∉ Dict.keys kwargs → "hue" ∉ Dict.keys kwargs →
        plotXY fn g x y ptypes labels lmap kwargs = .ok ⟨fn, some x, y, dh.1, dh.2, kwargs⟩)) ∧
    (∀ e, getDfAndHue g ptypes attributes labels lmap = .error e →
      plotPairplot str g ptypes attributes labels lmap kwargs = .error e) ∧
    (∀ dh, getDfAndHue g ptypes attributes labels lmap = .ok dh →
      (("data" ∈ Dict.keys kwargs ∨ "hue" ∈ Dict.keys kwargs) →
        plotPairplot str g ptypes attributes labels lmap kwargs = .error .typeError) ∧
      ("data" ∉ Dict.keys kwargs → "hue" ∉ Dict.keys kwargs → ∃ kw, PairKwargs str kwargs kw ∧
        plotPairplot str g ptypes attributes labels lmap kwargs
          = .ok ⟨"pairplot", none, none, dh.1, dh.2, kw⟩)) := by
  have hax : axes x y = x :: y.toList := by cases y <;> rfl
  have hp := pairKwargs str kwargs
  refine ⟨?_, ?_, ?_, ?_⟩
  · intro e he
    unfold plotXY
    rw [hax, he]
    rfl
  · intro dh hd
    unfold plotXY
    rw [hax, hd]
    exact ⟨fun h => snsCall_typeError h, fun h1 h2 => snsCall_ok h1 h2⟩
  · intro e he
    unfold plotPairplot
    rw [he]
    rfl
  · intro dh hd
    unfold plotPairplot
    rw [hd]
    refine ⟨fun h => snsCall_typeError ?_, fun h1 h2 => ⟨_, hp, snsCall_ok ?_ ?_⟩⟩
    · rwa [hp.keys (by decide) (by decide), hp.keys (by decide) (by decide)]
    · rwa [hp.keys (by decide) (by decide)]
    · rwa [hp.keys (by decide) (by decide)]

/-! ## Circularity plots -/

/-- a circularity plot that was made: no star is unbound, the names are circularity attributes, and
the columns but the hue have the values of the stars that are finite in the four attributes -/
theorem getCirc_inv [NumOrd F] {env : CircEnv F} {b : BGalaxy F} {cbins : F × F}
    {attributes : Option (List String)} {labels : PlotLabels F} {lmap : Option (LMap F)} {df : DF F}
    {hue : Option String}
    (h : getCircDfAndHue env (Galaxy.ofBodies b) cbins attributes labels lmap = .ok (df, hue))
    (hA : attributes.getD circDefault ≠ []) :
    (∀ a ∈ b.stars, ¬ Unbound a.energy) ∧ hue = labels.hueName ∧ HueCol df hue ∧
    ∃ j, jcirc env (Galaxy.ofBodies b) cbins.1 cbins.2 = .ok j ∧
      (∀ a ∈ attributes.getD circDefault, a ∈ circularityAttributes) ∧
      (shownStars j b.stars.length ≠ [] → df.nrows = (shownStars j b.stars.length).length ∧
        ∀ a ∈ attributes.getD circDefault, hue ≠ some a →
          df.col a = .ok (shownCol j (shownStars j b.stars.length) a)) := by
  rw [getCircDfAndHue_lmap] at h
  have hall : ∀ a ∈ b.stars, ¬ Unbound a.energy := by
    intro a ha hu
    obtain ⟨e, he⟩ := C57_unbound (env := env) (cbins := cbins) ⟨a, ha, hu⟩ attributes labels none
    rw [he] at h
    cases h
  refine ⟨hall, ?_⟩
  cases hd : getCircDfAndHue env (Galaxy.ofBodies b) cbins attributes labels none with
  | error e => rw [hd] at h; cases h
  | ok dh =>
    obtain ⟨d, hu⟩ := dh
    rw [hd] at h
    simp only [Py.ok_bind] at h
    cases hr : relabel d hu lmap with
    | error e => rw [hr] at h; cases h
    | ok d' =>
      rw [hr] at h
      simp only [Py.ok_bind] at h
      cases h
      obtain ⟨r1, r2, r3⟩ := relabel_inv hr
      have hcol := r3 (getCirc_hueCol hd)
      cases hj : jcirc env (Galaxy.ofBodies b) cbins.1 cbins.2 with
      | error e =>
        unfold getCircDfAndHue at hd
        rw [hj] at hd
        cases hd
      | ok j =>
        have hf := fullLength_of_bound hj hall
        have hk : ∀ a ∈ (hueAttributes (attributes.getD circDefault) labels.extract).1,
            a ∈ circularityAttributes := by
          by_contra hk
          push Not at hk
          unfold getCircDfAndHue at hd
          dsimp only at hd
          rw [hj] at hd
          simp only [Py.ok_bind] at hd
          rw [jcirc_isfinite hf] at hd
          simp only [Py.ok_bind] at hd
          rw [show Dict.keys j.asDict = circDefault from rfl, circColumns_keyError hf _ [] hk] at hd
          cases hd
        have hsub : ∀ a ∈ attributes.getD circDefault,
            a ∈ (hueAttributes (attributes.getD circDefault) labels.extract).1 := by
          intro a ha
          cases labels.extract with
          | attr s => exact mem_npUnique.2 (by simp [ha])
          | _ => exact ha
        have hne : (hueAttributes (attributes.getD circDefault) labels.extract).1 ≠ [] := by
          obtain ⟨a, ha⟩ := List.exists_mem_of_ne_nil _ hA
          exact List.ne_nil_of_mem (hsub a ha)
        rw [getCirc_unfold hj hf attributes labels hk hne] at hd
        suffices hue = labels.hueName ∧ (shownStars j b.stars.length ≠ [] →
            d.nrows = (shownStars j b.stars.length).length ∧
            ∀ a ∈ attributes.getD circDefault, hue ≠ some a →
              d.col a = .ok (shownCol j (shownStars j b.stars.length) a)) by
          refine ⟨this.1, hcol, j, rfl, fun a ha => hk a (hsub a ha), fun h0 =>
            ⟨r1.trans (this.2 h0).1, fun a ha hn => ?_⟩⟩
          rw [r2 a hn]
          exact (this.2 h0).2 a ha hn
        have key : ∀ l0, labels.extract = .arr l0 → hue = some "Labels" ∧
            (shownStars j b.stars.length ≠ [] → d.nrows = (shownStars j b.stars.length).length ∧
            ∀ a ∈ attributes.getD circDefault, hue ≠ some a →
              d.col a = .ok (shownCol j (shownStars j b.stars.length) a)) := by
          intro l0 hx
          rw [hx] at hd
          change ((finiteLabels l0 >>= fun x => pure (PlotLabels.arr x)) >>= fun l => insertLabels
            (shownTable j b.stars.length (distinct (attributes.getD circDefault))) none l) = _ at hd
          cases hfl : finiteLabels l0 with
          | error e => rw [hfl] at hd; cases hd
          | ok l1 =>
            rw [hfl] at hd
            simp only [Py.ok_bind, Py.pure_eq, insertLabels, Option.isNone_none, if_true] at hd
            cases hin : (shownTable j b.stars.length (distinct (attributes.getD circDefault))).insertFront
                "Labels" l1 with
            | error e => rw [hin] at hd; cases hd
            | ok d' =>
              rw [hin] at hd
              simp only [Py.ok_bind] at hd
              cases hd
              refine ⟨rfl, fun h0 => ?_⟩
              obtain ⟨_, i2, i3⟩ := insertFront_inv hin (by simpa [shownTable] using h0)
              refine ⟨i2, fun a ha hn => ?_⟩
              rw [i3 a (fun h => hn (congrArg some h))]
              exact shownTable_col (mem_distinct.2 ha)
        cases labels with
        | arr l => exact key l rfl
        | comps c => exact key _ rfl
        | none =>
          cases hd
          exact ⟨rfl, fun _ => ⟨rfl, fun a ha _ => shownTable_col (mem_distinct.2 ha)⟩⟩
        | attr s =>
          cases hd
          exact ⟨rfl, fun _ => ⟨rfl, fun a ha _ =>
            shownTable_col (mem_distinct.2 (mem_npUnique.2 (by simp [ha])))⟩⟩

/-- What seaborn is told about the stars `stars` of a galaxy with circularities `j`. -/
structure ShowsCirc (j : JCirc F) (stars : List Nat) (names : List String) (labels : PlotLabels F)
    (c : SnsCall F K) : Prop where
  known : ∀ a ∈ names, a ∈ ["normalized_star_energy", "normalized_star_Jz", "eps", "eps_r"]
  hue : c.hue = labels.hueName
  hueCol : ∀ h, c.hue = some h → ∃ col, c.data.col h = .ok col
  nrows : stars ≠ [] → c.data.nrows = stars.length
  cols : stars ≠ [] → ∀ a ∈ names, c.hue ≠ some a →
    c.data.col a = .ok (stars.map fun i => .num ((j.attr a).getD i Num.nan))

theorem circ_names {a : String} (h : a ∈ circularityAttributes) :
    a ∈ ["normalized_star_energy", "normalized_star_Jz", "eps", "eps_r"] := by
  simp only [circularityAttributes, List.mem_cons, List.not_mem_nil, or_false] at h
  simp only [List.mem_cons, List.not_mem_nil, or_false]
  tauto

/-- C61: a `circ_scatter`, `circ_hist` or `circ_kde` that reaches seaborn passes its axes, the keyword
arguments unchanged, and the circularities of the stars that are finite in the four attributes. -/
theorem C61_circ_xy [NumOrd F] {fn : String} {env : CircEnv F} {b : BGalaxy F} {cbins : F × F}
    {x : String} {y : Option String} {labels : PlotLabels F} {lmap : Option (LMap F)}
    {kwargs : Dict String K} {c : SnsCall F K}
    (h : plotCircXY fn env (Galaxy.ofBodies b) cbins x y labels lmap kwargs = .ok c) :
    c.fn = fn ∧ c.x = some x ∧ c.y = y ∧ c.kwargs = kwargs ∧
      "data" ∉ Dict.keys kwargs ∧ "hue" ∉ Dict.keys kwargs ∧
      ∃ j, jcirc env (Galaxy.ofBodies b) cbins.1 cbins.2 = .ok j ∧
        ShowsCirc j (shownStars j b.stars.length) (x :: y.toList) labels c := by
  have hax : axes x y = x :: y.toList := by cases y <;> rfl
  unfold plotCircXY at h
  cases hd : getCircDfAndHue env (Galaxy.ofBodies b) cbins (some (axes x y)) labels lmap with
  | error e => rw [hd] at h; cases h
  | ok dh =>
    rw [hd] at h
    simp only [Py.ok_bind] at h
    obtain ⟨rfl, h1, h2⟩ := snsCall_inv h
    obtain ⟨-, g1, g2, j, hj, hk, g3⟩ := getCirc_inv (hue := dh.2) (df := dh.1) hd (axes_ne_nil x y)
    simp only [Option.getD_some, hax] at hk g3
    exact ⟨rfl, rfl, rfl, rfl, h1, h2, j, hj, fun a ha => circ_names (hk a ha), g1, fun n hn => (g2 n hn).2, fun h0 => (g3 h0).1,
      fun h0 => (g3 h0).2⟩

/-- C61: the same for `circ_pairplot`, which adds the same two defaults as `pairplot`. -/
theorem C61_circ_pairplot [NumOrd F] {str : String → K} {env : CircEnv F} {b : BGalaxy F}
    {cbins : F × F} {attributes : Option (List String)} {labels : PlotLabels F}
    {lmap : Option (LMap F)} {kwargs : Dict String K} {c : SnsCall F K}
    (h : plotCircPairplot str env (Galaxy.ofBodies b) cbins attributes labels lmap kwargs = .ok c)
    (hA : attributes ≠ some []) :
    c.fn = "pairplot" ∧ c.x = none ∧ c.y = none ∧ PairKwargs str kwargs c.kwargs ∧
      "data" ∉ Dict.keys kwargs ∧ "hue" ∉ Dict.keys kwargs ∧
      ∃ j, jcirc env (Galaxy.ofBodies b) cbins.1 cbins.2 = .ok j ∧
        ShowsCirc j (shownStars j b.stars.length)
          (attributes.getD ["normalized_star_energy", "normalized_star_Jz", "eps", "eps_r"]) labels c := by
  unfold plotCircPairplot at h
  cases hd : getCircDfAndHue env (Galaxy.ofBodies b) cbins attributes labels lmap with
  | error e => rw [hd] at h; cases h
  | ok dh =>
    rw [hd] at h
    simp only [Py.ok_bind] at h
    obtain ⟨rfl, h1, h2⟩ := snsCall_inv h
    have hA' : attributes.getD circDefault ≠ [] := by
      cases attributes with
      | none => simp [circDefault]
      | some l => simpa using hA
    obtain ⟨-, g1, g2, j, hj, hk, g3⟩ := getCirc_inv (hue := dh.2) (df := dh.1) hd hA'
    have hp := pairKwargs str kwargs
    refine ⟨rfl, rfl, rfl, hp, ?_, ?_, j, hj, fun a ha => circ_names (hk a ha), g1, fun n hn => (g2 n hn).2, fun h0 => (g3 h0).1,
      fun h0 => (g3 h0).2⟩
    · rwa [hp.keys (by decide) (by decide)] at h1
    · rwa [hp.keys (by decide) (by decide)] at h2

/-- C61: when a circularity plot reaches seaborn, and how it fails otherwise. -/
theorem C61_circ_reaches (fn : String) (str : String → K) (env : CircEnv F) (g : Galaxy F)
    (cbins : F × F) (x : String) (y : Option String) (attributes : Option (List String))
    (labels : PlotLabels F) (lmap : Option (LMap F)) (kwargs : Dict String K) :
    (∀ e, getCircDfAndHue env g cbins (some (x :: y.toList)) labels lmap = .error e →
      plotCircXY fn env g cbins x y labels lmap kwargs = .error e) ∧
    (∀ dh, getCircDfAndHue env g cbins (some (x :: y.toList)) labels lmap = .ok dh →
      (("data" ∈ Dict.keys kwargs ∨ "hue" ∈ Dict.keys kwargs) →
        plotCircXY fn env g cbins x y labels lmap kwargs = .error .typeError) ∧
      ("data" ∉ Dict.keys kwargs → "hue" ∉ Dict.keys kwargs →
        plotCircXY fn env g cbins x y labels lmap kwargs
          = .ok ⟨fn, some x, y, dh.1, dh.2, kwargs⟩)) ∧
    (∀ e, getCircDfAndHue env g cbins attributes labels lmap = .error e →
      plotCircPairplot str env g cbins attributes labels lmap kwargs = .error e) ∧
    (∀ dh, getCircDfAndHue env g cbins attributes labels lmap = .ok dh →
      (("data" ∈ Dict.keys kwargs ∨ "hue" ∈ Dict.keys kwargs) →
        plotCircPairplot str env g cbins attributes labels lmap kwargs = .error .typeError) ∧
      ("data" ∉ Dict.keys kwargs → "hue" ∉ Dict.keys kwargs → ∃ kw, PairKwargs str kwargs kw ∧
        plotCircPairplot str env g cbins attributes labels lmap kwargs
          = .ok ⟨"pairplot", none, none, dh.1, dh.2, kw⟩)) := by
  have hax : axes x y = x :: y.toList := by cases y <;> rfl
  have hp := pairKwargs str kwargs
  refine ⟨?_, ?_, ?_, ?_⟩
  · intro e he
    unfold plotCircXY
    rw [hax, he]
    rfl
  · intro dh hd
    unfold plotCircXY
    rw [hax, hd]
    exact ⟨fun h => snsCall_typeError h, fun h1 h2 => snsCall_ok h1 h2⟩
  · intro e he
    unfold plotCircPairplot
    rw [he]
    rfl
  · intro dh hd
    unfold plotCircPairplot
    rw [hd]
    refine ⟨fun h => snsCall_typeError ?_, fun h1 h2 => ⟨_, hp, snsCall_ok ?_ ?_⟩⟩
    · rwa [hp.keys (by decide) (by decide), hp.keys (by decide) (by decide)]
    · rwa [hp.keys (by decide) (by decide)]
    · rwa [hp.keys (by decide) (by decide)]

/-! ## Examples -/

/-- what a call passes, in a form that can be compared -/
def SnsCall.parts (c : SnsCall F K) :
    (List (Option String)) × DF F × List (String × K) :=
  ([some c.fn, c.x, c.y, c.hue], c.data, c.kwargs)

example : (plotXY (K := Nat) "scatterplot" (Galaxy.ofBodies exBG) "m" (some "ptype") (some ["stars"])
      (.arr [.int 1, .int 0]) (some (.dict [(.int 1, .str "Disk")])) [("size", 3)]).map SnsCall.parts
    = .ok ([some "scatterplot", some "m", some "ptype", some "Labels"],
        ⟨[("Labels", [.str "Disk", .int 0]), ("m", [.num (q 1), .num (q 2)]),
          ("ptype", [.str "stars", .str "stars"])], 2⟩, [("size", 3)]) := by
  decide +kernel
example : (plotXY (K := Nat) "histplot" (Galaxy.ofBodies exBG) "m" none (some ["stars"])
      .none none [("hue", 3)]).map SnsCall.parts = .error .typeError := by
  decide +kernel
example : (plotPairplot (K := String) id (Galaxy.ofBodies exBG) (some ["gas"]) (some ["m"])
      (.attr "ptype") none [("kind", "reg")]).map SnsCall.parts
    = .ok ([some "pairplot", none, none, some "ptype"], ⟨[("m", [.num (q 3)]), ("ptype", [.str "gas"])], 1⟩,
        [("kind", "reg"), ("diag_kind", "kde")]) := by
  decide +kernel
example : (plotCircXY (K := Nat) "kdeplot" exEnv (Galaxy.ofBodies
      { exLost with stars := [orbit (-1) 1, orbit (-1/2) 2], dm := [outOfPlane (-1/1000) 4] })
      defaultCbin "eps" none .none none []).map (fun c => (c.x, c.hue, c.data.nrows))
    = .ok (some "eps", none, 2) := by
  decide +kernel

end GChop
