import Verif.Lemmas.Io

/-!
# The tables of a galaxy
-/

set_option linter.unusedSectionVars false

namespace GChop
open Pd

variable {F : Type} [Num F]

/-- the table holds these particles, with or without potential -/
structure Holds (t : DF F) (l : List (Body F)) (hp : Bool) : Prop where
  nodup : (Dict.keys t.cols).Nodup
  good : GoodColumns (Dict.keys t.cols)
  args : ∀ soft, tableArgs t soft = BSet.args ⟨l, hp, soft⟩

/-- three sets of particles with their own potential flags: a galaxy, or `ValueError` -/
def galaxyOf (s d g : List (Body F) × Bool) (a b c : F) : Py (Galaxy F) :=
  if s.2 = d.2 ∧ d.2 = g.2 then .ok (Galaxy.ofBodies ⟨s.1, d.1, g.1, s.2, a, b, c⟩)
  else .error .valueError

theorem mkgalaxy_args (s d g : List (Body F) × Bool) (a b c : F) :
    mkgalaxy (BSet.args ⟨s.1, s.2, a⟩) (BSet.args ⟨d.1, d.2, b⟩) (BSet.args ⟨g.1, g.2, c⟩)
      = galaxyOf s d g a b c := by
  obtain ⟨ls, ps⟩ := s
  obtain ⟨ld, pd⟩ := d
  obtain ⟨lg, pg⟩ := g
  unfold mkgalaxy galaxyOf
  simp only [ParticleSet.new_args, Py.ok_bind]
  cases ps <;> cases pd <;> cases pg <;> rfl

theorem galaxyOfTables_holds {s d g : DF F} {ls ld lg : List (Body F)} {ps pd pg : Bool}
    (hs : Holds s ls ps) (hd : Holds d ld pd) (hg : Holds g lg pg) (a b c : F) :
    galaxyOfTables s d g a b c = galaxyOf (ls, ps) (ld, pd) (lg, pg) a b c := by
  rw [galaxyOfTables_good s d g a b c hs.nodup hd.nodup hg.nodup hs.good hd.good hg.good,
    hs.args, hd.args, hg.args, ← mkgalaxy_args]

/-! ## Frames of numbered rows -/

/-- a frame of numbered particles -/
def numFrame (attrs : List String) (l : List (Row F × Nat)) : DF F :=
  ⟨("id", l.map fun p => .int p.2) :: attrs.map fun a => (a, l.map fun p => p.1.cell a), l.length⟩

theorem zip_filter_map {α β : Type} (l : List α) (p : α → Bool) (f : α → β) :
    (((l.map p).zip (l.map f)).filter (·.1)).map (·.2) = (l.filter p).map f := by
  induction l with
  | nil => rfl
  | cons a l ih => cases h : p a <;> simp [h, ih]

theorem numFrame_filterRows (attrs : List String) (l : List (Row F × Nat)) (p : Row F × Nat → Bool) :
    (numFrame attrs l).filterRows (l.map p) = numFrame attrs (l.filter p) := by
  unfold numFrame DF.filterRows
  have hc : (l.map p).count true = (l.filter p).length := by
    induction l with
    | nil => rfl
    | cons a l ih => cases h : p a <;> simp [h, ih]
  simp only [List.map_cons, List.map_map, zip_filter_map, hc, DF.mk.injEq, and_true, List.cons.injEq,
    true_and]
  apply List.map_congr_left
  intro a _
  simp only [Function.comp_apply, zip_filter_map]

theorem map_zipIdx_fst {α β : Type} (f : α → β) (l : List α) (n : Nat) :
    (l.zipIdx n).map (fun p => f p.1) = l.map f := by
  induction l generalizing n with
  | nil => rfl
  | cons a l ih => simp [List.zipIdx_cons, ih]

theorem erase_map {ν : Type} (l : List String) (f : String → ν) (k : String) :
    Dict.erase (l.map fun a => (a, f a)) k = (l.filter (· ≠ k)).map fun a => (a, f a) := by
  induction l with
  | nil => rfl
  | cons a l ih =>
    by_cases h : a = k
    · subst h; simpa [Dict.erase] using ih
    · simp [Dict.erase, h, ih]

/-- the columns of a stored table besides `id` -/
def h5Names (hp : Bool) : List String := kinNames ++ if hp then ["potential"] else []

theorem dfToTable_numFrame (hp : Bool) (l : List (Row F × Nat)) (t : PType) :
    dfToTable (numFrame (h5Attributes hp) l) t
      = .ok (numFrame (h5Names hp) (l.filter fun p => decide (p.1.t = t))) := by
  have hcol : (numFrame (h5Attributes hp) l).col "ptype" = .ok (l.map fun p => .str p.1.t.humanize) := by
    cases hp <;> simp [DF.col, Dict.getItem, numFrame, h5Attributes, Dict.get?, Row.cell, attrTable]
  unfold dfToTable
  rw [hcol]
  simp only [Py.ok_bind, Py.pure_eq, List.map_map]
  have hmask : l.map ((fun c => dfToTable.isStr t.humanize c) ∘ fun p : Row F × Nat =>
      (Cell.str p.1.t.humanize : Cell F)) = l.map fun p => decide (p.1.t = t) := by
    apply List.map_congr_left
    intro p _
    simp only [Function.comp_apply, dfToTable.isStr]
    cases p.1.t <;> cases t <;> decide
  rw [hmask, numFrame_filterRows]
  congr 1
  unfold numFrame
  simp only [DF.mk.injEq, and_true]
  rw [show Dict.erase (("id", (l.filter fun p => decide (p.1.t = t)).map fun p => (Cell.int p.2 : Cell F))
      :: (h5Attributes hp).map fun a => (a, (l.filter fun p => decide (p.1.t = t)).map fun p => p.1.cell a))
      "ptype" = ("id", (l.filter fun p => decide (p.1.t = t)).map fun p => (Cell.int p.2 : Cell F)) ::
        Dict.erase ((h5Attributes hp).map fun a =>
          (a, (l.filter fun p => decide (p.1.t = t)).map fun p => p.1.cell a)) "ptype" from by
    simp [Dict.erase]]
  rw [erase_map]
  cases hp <;> rfl

/-- the three tables before astropy sees them -/
def typeFrame (hp : Bool) (t : PType) (soft : F) (l : List (Body F)) (off : Nat) : DF F :=
  numFrame (h5Names hp) (((l.map (⟨t, soft, hp, ·⟩ : Body F → Row F))).zipIdx off)

theorem filter_type (t t' : PType) (soft : F) (hp : Bool) (l : List (Body F)) (off : Nat) :
    (((l.map (⟨t, soft, hp, ·⟩ : Body F → Row F))).zipIdx off).filter (fun p => decide (p.1.t = t'))
      = if t = t' then ((l.map (⟨t, soft, hp, ·⟩ : Body F → Row F))).zipIdx off else [] := by
  by_cases h : t = t'
  · rw [if_pos h, List.filter_eq_self]
    intro p hp'
    have := List.fst_mem_of_mem_zipIdx hp'
    obtain ⟨b, -, hb⟩ := List.mem_map.1 this
    rw [← hb]; simpa using h
  · rw [if_neg h, List.filter_eq_nil_iff]
    intro p hp'
    have := List.fst_mem_of_mem_zipIdx hp'
    obtain ⟨b, -, hb⟩ := List.mem_map.1 this
    rw [← hb]; simpa using h

theorem h5Tables_ofBodies (b : BGalaxy F) :
    h5Tables (Galaxy.ofBodies b) = .ok
      (storedTable (typeFrame b.hasPot .stars b.softS b.stars 0),
       storedTable (typeFrame b.hasPot .darkMatter b.softDm b.dm b.stars.length),
       storedTable (typeFrame b.hasPot .gas b.softG b.gas (b.stars.length + b.dm.length))) := by
  unfold h5Tables
  have hhp : (Galaxy.ofBodies b).hasPotential = b.hasPot := rfl
  rw [hhp, Galaxy.toDataframe_ok b none _ (by decide +kernel)
    (by cases b.hasPot <;> decide +kernel)
    (by unfold allScalar; cases b.hasPot <;> decide +kernel)]
  have hdis : distinct (h5Attributes b.hasPot) = h5Attributes b.hasPot := by
    cases b.hasPot <;> decide +kernel
  rw [hdis]
  have hne : h5Attributes b.hasPot ≠ [] := by cases b.hasPot <;> decide
  have hins : (tableOf (b.rows none) (h5Attributes b.hasPot)).insertFront "id"
      ((List.range (tableOf (b.rows none) (h5Attributes b.hasPot)).nrows).map fun i : Nat => .int i)
      = .ok (numFrame (h5Attributes b.hasPot) ((b.rows none).zipIdx 0)) := by
    unfold DF.insertFront tableOf
    rw [if_neg hne]
    rw [if_neg (by
      rw [show Dict.keys ((h5Attributes b.hasPot).map fun a =>
        (a, (b.rows none).map fun r => r.cell a)) = h5Attributes b.hasPot by
          unfold Dict.keys; rw [List.map_map]; exact List.map_id _]
      cases b.hasPot <;> decide +kernel), if_pos (by simp)]
    unfold numFrame
    simp only [Except.ok.injEq, DF.mk.injEq, List.length_zipIdx, and_true, List.cons.injEq,
      Prod.mk.injEq, true_and]
    constructor
    · have : ∀ (l : List (Row F)) (n : Nat), (l.zipIdx n).map (fun p => (Cell.int p.2 : Cell F))
          = (List.range' n l.length).map fun i : Nat => .int i := by
        intro l
        induction l with
        | nil => intro n; rfl
        | cons a l ih => intro n; simp [List.zipIdx_cons, ih, List.range'_succ]
      rw [this, List.range_eq_range']
    · apply List.map_congr_left
      intro a _
      simp only [Prod.mk.injEq, true_and]
      exact (map_zipIdx_fst (fun r : Row F => r.cell a) _ 0).symm
  simp only [Py.ok_bind, hins, dfToTable_numFrame, Py.pure_eq]
  have hrows : b.rows none = b.stars.map (⟨.stars, b.softS, b.hasPot, ·⟩) ++
      b.dm.map (⟨.darkMatter, b.softDm, b.hasPot, ·⟩) ++ b.gas.map (⟨.gas, b.softG, b.hasPot, ·⟩) := rfl
  rw [hrows, List.zipIdx_append, List.zipIdx_append]
  simp only [List.filter_append, filter_type, List.length_map, List.length_append, Nat.zero_add]
  simp [typeFrame]

/-! ## Storing a frame -/

/-- the particle has no NaN among the stored values -/
def Body.clean (hp : Bool) (b : Body F) : Bool :=
  !(Num.isNaN b.m || Num.isNaN b.x || Num.isNaN b.y || Num.isNaN b.z || Num.isNaN b.vx ||
    Num.isNaN b.vy || Num.isNaN b.vz || (hp && Num.isNaN b.pot))

theorem clean_iff (hp : Bool) (t : PType) (soft : F) (b : Body F) :
    b.clean hp = true ↔ ∀ a ∈ h5Names hp, isNull ((⟨t, soft, hp, b⟩ : Row F).cell a) = false := by
  have e1 : ∀ r : Row F, r.cell "m" = .num r.body.m := fun _ => rfl
  have e2 : ∀ r : Row F, r.cell "x" = .num r.body.x := fun _ => rfl
  have e3 : ∀ r : Row F, r.cell "y" = .num r.body.y := fun _ => rfl
  have e4 : ∀ r : Row F, r.cell "z" = .num r.body.z := fun _ => rfl
  have e5 : ∀ r : Row F, r.cell "vx" = .num r.body.vx := fun _ => rfl
  have e6 : ∀ r : Row F, r.cell "vy" = .num r.body.vy := fun _ => rfl
  have e7 : ∀ r : Row F, r.cell "vz" = .num r.body.vz := fun _ => rfl
  have e8 : ∀ r : Row F, r.cell "potential" = if r.hasPot then .num r.body.pot else .num Num.nan :=
    fun _ => rfl
  unfold Body.clean h5Names kinNames
  cases hp <;>
    simp [e1, e2, e3, e4, e5, e6, e7, e8, isNull, and_assoc]

theorem mem_typeFrame_col {hp : Bool} {t : PType} {soft : F} {l : List (Body F)} {off : Nat}
    {kv : String × List (Cell F)} (h : kv ∈ (typeFrame hp t soft l off).cols) :
    (kv.1 = "id" ∧ ∀ c ∈ kv.2, isNull c = false) ∨
      (kv.1 ∈ h5Names hp ∧ kv.2 = l.map fun b => (⟨t, soft, hp, b⟩ : Row F).cell kv.1) := by
  unfold typeFrame numFrame at h
  rcases List.mem_cons.1 h with h | h
  · left
    rw [h]
    refine ⟨rfl, ?_⟩
    intro c hc
    simp only [List.mem_map] at hc
    obtain ⟨p, -, rfl⟩ := hc
    rfl
  · right
    obtain ⟨a, ha, rfl⟩ := List.mem_map.1 h
    refine ⟨ha, ?_⟩
    simp only
    rw [map_zipIdx_fst (fun r : Row F => r.cell a), List.map_map]
    rfl

/-- without NaN the frame is stored as it is -/
theorem storedTable_clean {hp : Bool} {t : PType} {soft : F} {l : List (Body F)} {off : Nat}
    (h : ∀ b ∈ l, b.clean hp = true) :
    storedTable (typeFrame hp t soft l off) = typeFrame hp t soft l off := by
  have key : ∀ cols : List (String × List (Cell F)), (∀ kv ∈ cols, kv.2.any isNull = false) →
      cols.flatMap storedColumn = cols := by
    intro cols hc
    induction cols with
    | nil => rfl
    | cons kv cols ih =>
      rw [List.flatMap_cons, ih fun kv' h' => hc kv' (List.mem_cons_of_mem _ h')]
      unfold storedColumn
      rw [hc kv (List.mem_cons_self ..)]
      rfl
  unfold storedTable
  rw [key]
  intro kv hkv
  rw [List.any_eq_false]
  intro c hc
  rcases mem_typeFrame_col hkv with ⟨-, h2⟩ | ⟨h1, h2⟩
  · simpa using h2 c hc
  · rw [h2] at hc
    obtain ⟨b, hb, rfl⟩ := List.mem_map.1 hc
    have := (clean_iff hp t soft b).1 (h b hb) _ h1
    simpa using this

theorem typeFrame_keys (hp : Bool) (t : PType) (soft : F) (l : List (Body F)) (off : Nat) :
    Dict.keys (typeFrame hp t soft l off).cols = "id" :: h5Names hp := by
  unfold typeFrame numFrame Dict.keys
  rw [List.map_cons, List.map_map]
  congr 1
  exact List.map_id _

theorem typeFrame_get {hp : Bool} {t : PType} {soft : F} {l : List (Body F)} {off : Nat} {a : String}
    (ha : a ∈ h5Names hp) : Dict.get? (typeFrame hp t soft l off).cols a
      = some (l.map fun b => (⟨t, soft, hp, b⟩ : Row F).cell a) := by
  have hid : a ≠ "id" := by
    rintro rfl
    revert ha
    cases hp <;> decide
  unfold typeFrame numFrame
  rw [Dict.get?, if_neg (Ne.symm hid), Dict.get?_map, if_pos ha]
  rw [map_zipIdx_fst (fun r : Row F => r.cell a), List.map_map]
  rfl

theorem holds_typeFrame (hp : Bool) (t : PType) (soft : F) (l : List (Body F)) (off : Nat) :
    Holds (typeFrame hp t soft l off) l hp where
  nodup := by rw [typeFrame_keys]; cases hp <;> decide +kernel
  good := by rw [typeFrame_keys]; cases hp <;> decide +kernel
  args := by
    intro so
    have kin : ∀ a ∈ kinNames, DFfloats (typeFrame hp t soft l off) a
        = some (l.map fun b => ((⟨t, soft, hp, b⟩ : Row F).cell a).toNum) := by
      intro a ha
      unfold DFfloats
      rw [typeFrame_get (List.mem_append_left _ ha), Option.map_some, List.map_map]
      rfl
    have pot : DFfloats (typeFrame hp t soft l off) "potential"
        = if hp then some (l.map (·.pot)) else none := by
      unfold DFfloats
      cases hp with
      | true =>
        rw [typeFrame_get (by decide), Option.map_some, List.map_map]
        rfl
      | false =>
        rw [Dict.not_mem_keys.1 (by rw [typeFrame_keys]; decide)]
        rfl
    unfold tableArgs BSet.args
    rw [kin "m" (by decide), kin "x" (by decide), kin "y" (by decide), kin "z" (by decide),
      kin "vx" (by decide), kin "vy" (by decide), kin "vz" (by decide), pot]
    rfl

/-- the particle with all values zero -/
def Body.zero : Body F := ⟨Num.zero, Num.zero, Num.zero, Num.zero, Num.zero, Num.zero, Num.zero, Num.zero⟩

/-- a freshly created dataset holds particles of zeros -/
theorem holds_zeroTable (hp : Bool) (t : PType) (soft : F) (l : List (Body F)) (off : Nat) :
    Holds (zeroTable (typeFrame hp t soft l off)) (l.map fun _ => Body.zero) hp := by
  have hk : Dict.keys (zeroTable (typeFrame hp t soft l off)).cols = "id" :: h5Names hp := by
    rw [← typeFrame_keys hp t soft l off]
    unfold zeroTable Dict.keys
    rw [List.map_map]
    rfl
  have hget : ∀ (cols : Dict String (List (Cell F))) (a : String),
      Dict.get? (cols.map fun kv => (kv.1, kv.2.map zeroCell)) a
        = (Dict.get? cols a).map fun v => v.map zeroCell := by
    intro cols a
    induction cols with
    | nil => rfl
    | cons kv cols ih =>
      simp only [List.map_cons, Dict.get?, ih]
      split <;> rfl
  refine ⟨by rw [hk]; cases hp <;> decide +kernel, by rw [hk]; cases hp <;> decide +kernel, ?_⟩
  intro so
  have kin : ∀ a ∈ kinNames, DFfloats (zeroTable (typeFrame hp t soft l off)) a
      = some (l.map fun b => (zeroCell ((⟨t, soft, hp, b⟩ : Row F).cell a)).toNum) := by
    intro a ha
    unfold DFfloats zeroTable
    rw [hget, typeFrame_get (List.mem_append_left _ ha), Option.map_some, Option.map_some, List.map_map,
      List.map_map]
    rfl
  have pot : DFfloats (zeroTable (typeFrame hp t soft l off)) "potential"
      = if hp then some ((l.map fun _ => (Body.zero : Body F)).map (·.pot)) else none := by
    unfold DFfloats zeroTable
    rw [hget]
    cases hp with
    | true =>
      rw [typeFrame_get (by decide), Option.map_some, Option.map_some, List.map_map, List.map_map,
        if_pos rfl, List.map_map]
      rfl
    | false =>
      rw [Dict.not_mem_keys.1 (by rw [typeFrame_keys]; decide)]
      rfl
  unfold tableArgs BSet.args
  rw [kin "m" (by decide), kin "x" (by decide), kin "y" (by decide), kin "z" (by decide),
    kin "vx" (by decide), kin "vy" (by decide), kin "vz" (by decide), pot]
  simp only [List.map_map, Option.getD_some]
  rfl

/-! ## NaN -/

theorem storedTable_keys_mem {df : DF F} {k : String} (h : k ∈ Dict.keys (storedTable df).cols) :
    ∃ n ∈ Dict.keys df.cols, k = n ∨ k = n ++ ".mask" := by
  unfold storedTable Dict.keys at h
  simp only [List.mem_map, List.mem_flatMap] at h
  obtain ⟨kv, ⟨kv0, h0, h1⟩, rfl⟩ := h
  refine ⟨kv0.1, List.mem_map.2 ⟨_, h0, rfl⟩, ?_⟩
  unfold storedColumn at h1
  split at h1
  · simp only [List.mem_cons, List.not_mem_nil, or_false] at h1
    rcases h1 with rfl | rfl
    · exact Or.inl rfl
    · exact Or.inr rfl
  · simp only [List.mem_cons, List.not_mem_nil, or_false] at h1
    rw [h1]; exact Or.inl rfl

theorem storedTable_nodup {df : DF F} (h : (Dict.keys df.cols).Nodup)
    (hm : ∀ a ∈ Dict.keys df.cols, ∀ b ∈ Dict.keys df.cols, a ≠ b ++ ".mask") :
    (Dict.keys (storedTable df).cols).Nodup := by
  unfold storedTable
  simp only
  revert h hm
  generalize df.cols = cols
  induction cols with
  | nil => intro _ _; exact List.nodup_nil
  | cons kv cols ih =>
    intro h hm
    have hk : Dict.keys (kv :: cols) = kv.1 :: Dict.keys cols := rfl
    rw [hk, List.nodup_cons] at h
    rw [hk] at hm
    have ih' := ih h.2 fun a ha b hb => hm a (List.mem_cons_of_mem _ ha) b (List.mem_cons_of_mem _ hb)
    have hmem : ∀ k ∈ Dict.keys (cols.flatMap storedColumn),
        ∃ n ∈ Dict.keys cols, k = n ∨ k = n ++ ".mask" :=
      fun k hk' => storedTable_keys_mem (df := ⟨cols, 0⟩) hk'
    have h1 : kv.1 ∉ Dict.keys (cols.flatMap storedColumn) := by
      intro hc
      obtain ⟨n, hn, e | e⟩ := hmem _ hc
      · rw [← e] at hn; exact h.1 hn
      · exact hm kv.1 (List.mem_cons_self ..) n (List.mem_cons_of_mem _ hn) e
    have h2 : kv.1 ++ ".mask" ∉ Dict.keys (cols.flatMap storedColumn) := by
      intro hc
      obtain ⟨n, hn, e | e⟩ := hmem _ hc
      · exact hm n (List.mem_cons_of_mem _ hn) kv.1 (List.mem_cons_self ..) e.symm
      · rw [str_append_inj_left] at e
        rw [← e] at hn; exact h.1 hn
    rw [List.flatMap_cons]
    unfold storedColumn
    split
    · show (kv.1 :: (kv.1 ++ ".mask") :: Dict.keys (cols.flatMap storedColumn)).Nodup
      rw [List.nodup_cons, List.nodup_cons]
      refine ⟨?_, h2, ih'⟩
      intro hc
      rcases List.mem_cons.1 hc with e | e
      · exact hm kv.1 (List.mem_cons_self ..) kv.1 (List.mem_cons_self ..) e
      · exact h1 e
    · show (kv.1 :: Dict.keys (cols.flatMap storedColumn)).Nodup
      rw [List.nodup_cons]
      exact ⟨h1, ih'⟩

theorem storedTable_typeFrame_nodup (hp : Bool) (t : PType) (soft : F) (l : List (Body F)) (off : Nat) :
    (Dict.keys (storedTable (typeFrame hp t soft l off)).cols).Nodup := by
  apply storedTable_nodup
  · rw [typeFrame_keys]; cases hp <;> decide +kernel
  · rw [typeFrame_keys]; cases hp <;> decide +kernel

/-- a NaN gives the table a column that `mkgalaxy` does not know -/
theorem storedTable_bad {hp : Bool} {t : PType} {soft : F} {l : List (Body F)} {off : Nat}
    (h : ∃ b ∈ l, b.clean hp = false) :
    ¬ GoodColumns (Dict.keys (storedTable (typeFrame hp t soft l off)).cols) := by
  obtain ⟨b, hb, hc⟩ := h
  have : ¬ ∀ a ∈ h5Names hp, isNull ((⟨t, soft, hp, b⟩ : Row F).cell a) = false := by
    rw [← clean_iff, hc]; simp
  push Not at this
  obtain ⟨a, ha, hn⟩ := this
  have hcol : (a, l.map fun b => (⟨t, soft, hp, b⟩ : Row F).cell a) ∈ (typeFrame hp t soft l off).cols :=
    Dict.get?_mem (typeFrame_get ha)
  have hmem : a ++ ".mask" ∈ Dict.keys (storedTable (typeFrame hp t soft l off)).cols := by
    unfold storedTable Dict.keys
    simp only [List.mem_map, List.mem_flatMap]
    refine ⟨(a ++ ".mask", (l.map fun b => (⟨t, soft, hp, b⟩ : Row F).cell a).map fun c =>
      .int (if isNull c then 1 else 0)), ⟨_, hcol, ?_⟩, rfl⟩
    unfold storedColumn
    rw [if_pos]
    · simp
    · rw [List.any_eq_true]
      exact ⟨_, List.mem_map.2 ⟨b, hb, rfl⟩, by simpa using hn⟩
  intro hg
  have := hg.2 _ hmem
  revert this
  unfold h5Names at ha
  have : ∀ a ∈ kinNames ++ ["potential"], ¬ (a ++ ".mask" ∈ kinNames ∨ a ++ ".mask" = "id" ∨
      a ++ ".mask" = "potential") := by decide +kernel
  apply this
  cases hp
  · exact List.mem_append_left _ (by simpa using ha)
  · exact ha

end GChop
