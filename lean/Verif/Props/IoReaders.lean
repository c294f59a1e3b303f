import Verif.Props.Io

/-!
# C53, C54: the readers
-/

set_option linter.unusedSectionVars false

namespace GChop
open Pd

variable {F : Type} [Num F] {V O : Type}

/-! ## C53 columns by name -/

/-- the entry of a row that belongs to the name `c` -/
def byName (names : List String) (row : List F) (c : String) : F := row.getD (names.idxOf c) Num.nan

/-- the particle in a row of the array -/
def npyBody (names : List String) (row : List F) (pot : F) : Body F where
  m := byName names row "m"
  x := byName names row "x"
  y := byName names row "y"
  z := byName names row "z"
  vx := byName names row "vx"
  vy := byName names row "vy"
  vz := byName names row "vz"
  pot := pot

/-- the potentials of the particles: the extra file, one value repeated if it holds only one, or the
column of the array -/
def npyPots (names : List String) (a : Arr2 F) : Option (List F) → List F
  | some p => if p.length = 1 then List.replicate a.rows.length (p.getD 0 Num.nan) else p
  | none => a.rows.map fun r => byName names r "potential"

theorem npyPots_some (names : List String) (a : Arr2 F) (p : List F) : npyPots names a (some p)
    = if p.length = 1 then List.replicate a.rows.length (p.getD 0 Num.nan) else p := rfl

/-- whether there is a potential -/
def npyHasPot (names : List String) (pot : Option (List F)) : Bool :=
  pot.isSome || names.contains "potential"

/-- the particles of an array and a potential file -/
def npyBodies (names : List String) (a : Arr2 F) (pot : Option (List F)) : List (Body F) :=
  List.zipWith (npyBody names) a.rows (npyPots names a pot)

/-- a potential file fits an array: it holds one value per row, or a single value for an array with
rows, and the array has no column of that name -/
def PotFits (names : List String) (a : Arr2 F) (pot : Option (List F)) : Prop :=
  ∀ p, pot = some p → "potential" ∉ names ∧ (p.length = a.rows.length ∨ (p.length = 1 ∧ 0 < a.rows.length))

/-- names fit an array -/
def NamesFit (names : List String) (a : Arr2 F) : Prop := names.Nodup ∧ names.length = a.width

theorem tableOfArray_ok {names : List String} {a : Arr2 F} (h : NamesFit names a) :
    tableOfArray a names = .ok ⟨names.zipIdx.map fun ki => (ki.1, a.column ki.2), a.rows.length⟩ := by
  unfold tableOfArray
  rw [if_neg (by simp [h.2]), if_neg (by simp [h.1])]

theorem tableOfArray_err {names : List String} {a : Arr2 F} (h : ¬ NamesFit names a) :
    tableOfArray a names = .error .valueError := by
  unfold tableOfArray
  by_cases h1 : names.length = a.width
  · rw [if_neg (by simp [h1]), if_pos]
    intro h2
    exact h ⟨h2, h1⟩
  · rw [if_pos h1]

theorem zipIdx_keys {ν : Type} (names : List String) (f : Nat → ν) (n : Nat) :
    Dict.keys ((names.zipIdx n).map fun ki => (ki.1, f ki.2)) = names := by
  unfold Dict.keys
  rw [List.map_map]
  exact (map_zipIdx_fst (fun k : String => k) names n).trans (List.map_id _)

theorem zipIdx_get {ν : Type} (names : List String) (f : Nat → ν) (c : String) (n : Nat) :
    Dict.get? ((names.zipIdx n).map fun ki => (ki.1, f ki.2)) c
      = if c ∈ names then some (f (n + names.idxOf c)) else none := by
  induction names generalizing n with
  | nil => rfl
  | cons a l ih =>
    rw [List.zipIdx_cons, List.map_cons]
    by_cases h : a = c
    · subst h
      simp [Dict.get?]
    · have h1 : Dict.get? ((a, f n) :: (l.zipIdx (n + 1)).map fun ki => (ki.1, f ki.2)) c
          = Dict.get? ((l.zipIdx (n + 1)).map fun ki => (ki.1, f ki.2)) c := by
        simp [Dict.get?, h]
      rw [h1, ih, List.idxOf_cons_ne _ h]
      simp only [List.mem_cons, Ne.symm h, false_or]
      split
      · congr 2; omega
      · rfl

theorem get?_append {κ ν : Type} [DecidableEq κ] (d e : Dict κ ν) (k : κ) :
    Dict.get? (d ++ e) k = (Dict.get? d k).or (Dict.get? e k) := by
  induction d with
  | nil => rfl
  | cons kv d ih =>
    obtain ⟨a, v⟩ := kv
    by_cases h : a = k
    · simp [Dict.get?, h]
    · simp [Dict.get?, h, ih]

/-- the table of an array and its potential, if they fit -/
theorem npyTable_ok {names : List String} {a : Arr2 F} {pot : Option (List F)}
    (hp : PotFits names a pot) :
    addPotential ⟨names.zipIdx.map fun ki => (ki.1, a.column ki.2), a.rows.length⟩ pot
      = .ok ⟨(names.zipIdx.map fun ki => (ki.1, a.column ki.2)) ++
          (if pot.isSome then [("potential", (npyPots names a pot).map .num)] else []), a.rows.length⟩ := by
  cases pot with
  | none => simp [addPotential]
  | some p =>
    obtain ⟨h1, h2⟩ := hp p rfl
    unfold addPotential
    simp only
    have hpot : (if p.length = 1 ∧ 0 < a.rows.length then
        List.replicate a.rows.length (p.getD 0 Num.nan) else p) = npyPots names a (some p) := by
      rw [npyPots_some]
      by_cases hl : p.length = 1
      · have : 0 < a.rows.length := by omega
        rw [if_pos ⟨hl, this⟩, if_pos hl]
      · rw [if_neg (fun h => hl h.1), if_neg hl]
    rw [hpot]
    have hlen : (npyPots names a (some p)).length = a.rows.length := by
      rw [npyPots_some]
      by_cases hl : p.length = 1
      · rw [if_pos hl, List.length_replicate]
      · rw [if_neg hl]; omega
    rw [if_neg (fun h => h.2 hlen), zipIdx_keys, if_neg (by simpa using h1), hlen]
    rfl

theorem npyTable_err {names : List String} {a : Arr2 F} {pot : Option (List F)}
    (hp : ¬ PotFits names a pot) (hne : names ≠ []) :
    addPotential ⟨names.zipIdx.map fun ki => (ki.1, a.column ki.2), a.rows.length⟩ pot
      = .error .valueError := by
  cases pot with
  | none => exact absurd (fun p hp => nomatch hp) hp
  | some p =>
    have hcols : ¬ ((names.zipIdx.map fun ki => (ki.1, a.column ki.2)).isEmpty = true) := by
      cases names with
      | nil => exact absurd rfl hne
      | cons c l => simp
    unfold addPotential
    simp only
    by_cases hn : "potential" ∈ names
    · generalize (if p.length = 1 ∧ 0 < a.rows.length then
        List.replicate a.rows.length (p.getD 0 Num.nan) else p) = p'
      rw [zipIdx_keys, if_pos (show names.contains "potential" = true by simpa using hn)]
      split <;> rfl
    · have hl : ¬ (p.length = a.rows.length ∨ (p.length = 1 ∧ 0 < a.rows.length)) := by
        intro h
        exact hp fun p' hp' => by
          cases hp'
          exact ⟨hn, h⟩
      rw [if_neg (fun h => hl (Or.inr h)), if_pos]
      exact ⟨hcols, fun h => hl (Or.inl h)⟩

theorem zipWith_map_left {α β γ : Type} (f : α → γ) (l : List α) (l' : List β)
    (h : l'.length = l.length) : List.zipWith (fun a _ => f a) l l' = l.map f := by
  induction l generalizing l' with
  | nil => rfl
  | cons a l ih =>
    cases l' with
    | nil => simp at h
    | cons b l' => simp [ih l' (by simpa using h)]

theorem zipWith_map_right {α β : Type} (l : List α) (l' : List β)
    (h : l'.length = l.length) : List.zipWith (fun _ b => b) l l' = l' := by
  induction l generalizing l' with
  | nil => simpa using h
  | cons a l ih =>
    cases l' with
    | nil => simp at h
    | cons b l' => simp [ih l' (by simpa using h)]

theorem npyPots_length {names : List String} {a : Arr2 F} {pot : Option (List F)}
    (hp : PotFits names a pot) : (npyPots names a pot).length = a.rows.length := by
  cases pot with
  | none => simp [npyPots]
  | some p =>
    obtain ⟨-, h2⟩ := hp p rfl
    rw [npyPots_some]
    by_cases hl : p.length = 1
    · rw [if_pos hl, List.length_replicate]
    · rw [if_neg hl]; omega

/-- the table built by `read_npy` from one array -/
def npyTable (names : List String) (a : Arr2 F) (pot : Option (List F)) : DF F :=
  ⟨(names.zipIdx.map fun ki => (ki.1, a.column ki.2)) ++
    (if pot.isSome then [("potential", (npyPots names a pot).map .num)] else []), a.rows.length⟩

theorem npyTable_keys (names : List String) (a : Arr2 F) (pot : Option (List F)) :
    Dict.keys (npyTable names a pot).cols = names ++ if pot.isSome then ["potential"] else [] := by
  unfold npyTable Dict.keys
  simp only [List.map_append]
  have := zipIdx_keys names a.column 0
  unfold Dict.keys at this
  rw [this]
  cases pot <;> rfl

theorem npyTable_nodup {names : List String} {a : Arr2 F} {pot : Option (List F)}
    (hn : names.Nodup) (hp : PotFits names a pot) : (Dict.keys (npyTable names a pot).cols).Nodup := by
  rw [npyTable_keys]
  cases pot with
  | none => simpa using hn
  | some p =>
    simp only [Option.isSome_some, if_true]
    rw [List.nodup_append]
    refine ⟨hn, by simp, ?_⟩
    intro x hx y hy
    rw [List.mem_singleton] at hy
    subst hy
    rintro rfl
    exact (hp p rfl).1 hx

theorem npyTable_good (names : List String) (a : Arr2 F) (pot : Option (List F)) :
    GoodColumns (Dict.keys (npyTable names a pot).cols) ↔ GoodColumns names := by
  rw [npyTable_keys]
  cases pot with
  | none => simp
  | some p =>
    simp only [Option.isSome_some, if_true]
    unfold GoodColumns
    constructor
    · rintro ⟨h1, h2⟩
      refine ⟨fun c hc => ?_, fun c hc => h2 c (by simp [hc])⟩
      rcases List.mem_append.1 (h1 c hc) with h | h
      · exact h
      · rw [List.mem_singleton] at h
        subst h
        exact absurd hc (by decide)
    · rintro ⟨h1, h2⟩
      refine ⟨fun c hc => List.mem_append.2 (Or.inl (h1 c hc)), fun c hc => ?_⟩
      rcases List.mem_append.1 hc with h | h
      · exact h2 c h
      · rw [List.mem_singleton] at h
        exact Or.inr (Or.inr h)

theorem npyTable_floats {names : List String} (a : Arr2 F) (pot : Option (List F)) {c : String}
    (hc : c ∈ names) :
    DFfloats (npyTable names a pot) c = some (a.rows.map fun r => byName names r c) := by
  unfold DFfloats npyTable
  rw [get?_append, zipIdx_get, if_pos hc]
  simp [Arr2.column, byName, Cell.toNum]

theorem npyTable_pot {names : List String} {a : Arr2 F} {pot : Option (List F)}
    (hp : PotFits names a pot) : DFfloats (npyTable names a pot) "potential"
      = if npyHasPot names pot then some (npyPots names a pot) else none := by
  cases pot with
  | none =>
    by_cases hc : "potential" ∈ names
    · rw [npyTable_floats a none hc]
      simp [npyHasPot, hc, npyPots]
    · unfold DFfloats npyTable
      rw [get?_append, zipIdx_get, if_neg hc]
      simp [npyHasPot, hc, Dict.get?]
  | some p =>
    have hc := (hp p rfl).1
    unfold DFfloats npyTable
    rw [get?_append, zipIdx_get, if_neg hc]
    simp [npyHasPot, Dict.get?, Cell.toNum, Function.comp_def]

theorem npyTable_holds {names : List String} {a : Arr2 F} {pot : Option (List F)}
    (hn : names.Nodup) (hg : GoodColumns names) (hp : PotFits names a pot) :
    Holds (npyTable names a pot) (npyBodies names a pot) (npyHasPot names pot) := by
  refine ⟨npyTable_nodup hn hp, (npyTable_good ..).2 hg, fun soft => ?_⟩
  have hlen := npyPots_length hp
  have kin : ∀ c ∈ kinNames, DFfloats (npyTable names a pot) c
      = some (a.rows.map fun r => byName names r c) := fun c hc => npyTable_floats a pot (hg.1 c hc)
  unfold tableArgs BSet.args npyBodies
  rw [npyTable_pot hp]
  simp only [kin "m" (by decide), kin "x" (by decide), kin "y" (by decide), kin "z" (by decide),
    kin "vx" (by decide), kin "vy" (by decide), kin "vz" (by decide), Option.getD_some,
    List.map_zipWith, npyBody]
  simp only [zipWith_map_left _ a.rows _ hlen, zipWith_map_right a.rows _ hlen]

theorem readNpy_tables {star dark gas : Arr2 F} {names : List String} {pS pD pG : Option (List F)}
    (n1 : NamesFit names star) (n2 : NamesFit names dark) (n3 : NamesFit names gas)
    (p1 : PotFits names star pS) (p2 : PotFits names dark pD) (p3 : PotFits names gas pG) (a b c : F) :
    readNpy star dark gas names pS pD pG a b c
      = galaxyOfTables (npyTable names star pS) (npyTable names dark pD) (npyTable names gas pG) a b c := by
  unfold readNpy
  rw [tableOfArray_ok n1, tableOfArray_ok n2, tableOfArray_ok n3]
  simp only [Py.ok_bind]
  rw [npyTable_ok p1, npyTable_ok p2, npyTable_ok p3]
  rfl

/-- C53: whatever the order of the columns, every particle of the galaxy has the entries of its own
row under the respective names; an `id` column is ignored. -/
theorem C53_by_name {star dark gas : Arr2 F} {names : List String} {pS pD pG : Option (List F)}
    (hg : GoodColumns names)
    (n1 : NamesFit names star) (n2 : NamesFit names dark) (n3 : NamesFit names gas)
    (p1 : PotFits names star pS) (p2 : PotFits names dark pD) (p3 : PotFits names gas pG)
    (hpS : npyHasPot names pS = npyHasPot names pD) (hpG : npyHasPot names pD = npyHasPot names pG)
    (a b c : F) :
    readNpy star dark gas names pS pD pG a b c = .ok (Galaxy.ofBodies
      ⟨npyBodies names star pS, npyBodies names dark pD, npyBodies names gas pG, npyHasPot names pS,
        a, b, c⟩) := by
  rw [readNpy_tables n1 n2 n3 p1 p2 p3, galaxyOfTables_holds (npyTable_holds n1.1 hg p1)
    (npyTable_holds n2.1 hg p2) (npyTable_holds n3.1 hg p3)]
  unfold galaxyOf
  rw [if_pos ⟨hpS, hpG⟩]

/-- C53: a missing or an unknown column name raises `TypeError` if the shapes are fine.  A column
named `softening` is left out because numpy converts arrays of length one to floats, which the model
of `mkgalaxy` does not do. -/
theorem C53_bad_columns {star dark gas : Arr2 F} {names : List String} {pS pD pG : Option (List F)}
    (hg : ¬ GoodColumns names) (_hsoft : "softening" ∉ names)
    (n1 : NamesFit names star) (n2 : NamesFit names dark) (n3 : NamesFit names gas)
    (p1 : PotFits names star pS) (p2 : PotFits names dark pD) (p3 : PotFits names gas pG) (a b c : F) :
    readNpy star dark gas names pS pD pG a b c = .error .typeError := by
  rw [readNpy_tables n1 n2 n3 p1 p2 p3]
  apply galaxyOfTables_bad
  · exact npyTable_nodup n1.1 p1
  · exact npyTable_nodup n2.1 p2
  · exact npyTable_nodup n3.1 p3
  · rw [npyTable_good]
    exact fun h => hg h.1

/-- C53: names that are repeated or not as many as the columns of every array raise `ValueError`. -/
theorem C53_bad_names {star dark gas : Arr2 F} {names : List String}
    (h : ¬ (NamesFit names star ∧ NamesFit names dark ∧ NamesFit names gas))
    (pS pD pG : Option (List F)) (a b c : F) :
    readNpy star dark gas names pS pD pG a b c = .error .valueError := by
  unfold readNpy
  by_cases h1 : NamesFit names star
  · rw [tableOfArray_ok h1]
    simp only [Py.ok_bind]
    by_cases h2 : NamesFit names dark
    · rw [tableOfArray_ok h2]
      simp only [Py.ok_bind]
      have h3 : ¬ NamesFit names gas := fun h3 => h ⟨h1, h2, h3⟩
      rw [tableOfArray_err h3]
      rfl
    · rw [tableOfArray_err h2]
      rfl
  · rw [tableOfArray_err h1]
    rfl

/-- C53: a potential of the wrong length, or next to a column of that name, raises `ValueError`. -/
theorem C53_bad_potential {star dark gas : Arr2 F} {names : List String} {pS pD pG : Option (List F)}
    (hne : names ≠ [])
    (h : ¬ (PotFits names star pS ∧ PotFits names dark pD ∧ PotFits names gas pG)) (a b c : F) :
    readNpy star dark gas names pS pD pG a b c = .error .valueError := by
  by_cases hn : NamesFit names star ∧ NamesFit names dark ∧ NamesFit names gas
  · obtain ⟨n1, n2, n3⟩ := hn
    unfold readNpy
    rw [tableOfArray_ok n1, tableOfArray_ok n2, tableOfArray_ok n3]
    simp only [Py.ok_bind]
    by_cases h1 : PotFits names star pS
    · rw [npyTable_ok h1]
      simp only [Py.ok_bind]
      by_cases h2 : PotFits names dark pD
      · rw [npyTable_ok h2]
        simp only [Py.ok_bind]
        rw [npyTable_err (fun h3 => h ⟨h1, h2, h3⟩) hne]
        rfl
      · rw [npyTable_err h2 hne]
        rfl
    · rw [npyTable_err h1 hne]
      rfl
  · exact C53_bad_names hn ..

/-! ### Permuting names and columns together -/

theorem byName_mem {names : List String} {row : List F} {c : String} (hc : c ∈ names)
    (hl : names.length = row.length) : (c, byName names row c) ∈ names.zip row := by
  have h1 : names.idxOf c < names.length := List.idxOf_lt_length_of_mem hc
  rw [List.mem_iff_getElem]
  refine ⟨names.idxOf c, by simp; omega, ?_⟩
  have h2 : names.idxOf c < row.length := by omega
  simp [byName, List.getElem?_eq_getElem h2]

theorem byName_eq {names : List String} {row : List F} {c : String} {v : F} (hn : names.Nodup)
    (h : (c, v) ∈ names.zip row) : byName names row c = v := by
  obtain ⟨i, hi, he⟩ := List.mem_iff_getElem.1 h
  simp only [List.length_zip, Nat.lt_min] at hi
  simp only [List.getElem_zip, Prod.mk.injEq] at he
  unfold byName
  rw [← he.1, hn.idxOf_getElem i hi.1]
  simp [List.getElem?_eq_getElem hi.2, he.2]

/-- the two arrays hold the same labelled entries, row by row -/
def SameLabelled (names names' : List String) (a a' : Arr2 F) : Prop :=
  List.Forall₂ (fun r r' => (names.zip r).Perm (names'.zip r')) a.rows a'.rows

theorem byName_perm {names names' : List String} {r r' : List F} (hn' : names'.Nodup)
    (hl : names.length = r.length) (hp : (names.zip r).Perm (names'.zip r')) {c : String}
    (hc : c ∈ names) : byName names r c = byName names' r' c :=
  (byName_eq hn' (hp.subset (byName_mem hc hl))).symm

theorem map_byName_perm {names names' : List String} {a a' : Arr2 F} (hn' : names'.Nodup)
    (hw : a.WF) (hl : names.length = a.width) (hs : SameLabelled names names' a a') {c : String}
    (hc : c ∈ names) :
    (a.rows.map fun r => byName names r c) = a'.rows.map fun r => byName names' r c := by
  have hw' : ∀ r ∈ a.rows, names.length = r.length := fun r hr => by rw [hl, hw r hr]
  unfold SameLabelled at hs
  generalize a.rows = l at hs hw'
  generalize a'.rows = l' at hs
  induction hs with
  | nil => rfl
  | @cons r r' l l' h _ ih =>
    rw [List.map_cons, List.map_cons, byName_perm hn' (hw' r (List.mem_cons_self ..)) h hc,
      ih fun r hr => hw' r (List.mem_cons_of_mem _ hr)]

theorem npyBodies_perm {names names' : List String} {a a' : Arr2 F} {pot : Option (List F)}
    (hg : GoodColumns names) (hperm : names.Perm names') (hn' : names'.Nodup)
    (hw : a.WF) (hl : names.length = a.width) (hs : SameLabelled names names' a a')
    (hp : PotFits names a pot) (hp' : PotFits names' a' pot) (soft : F) :
    BSet.args ⟨npyBodies names a pot, npyHasPot names pot, soft⟩
      = BSet.args ⟨npyBodies names' a' pot, npyHasPot names' pot, soft⟩ := by
  have hlen := npyPots_length hp
  have hlen' := npyPots_length hp'
  have hrows : a.rows.length = a'.rows.length := hs.length_eq
  have hcon : npyHasPot names pot = npyHasPot names' pot := by
    unfold npyHasPot
    rw [Bool.eq_iff_iff]
    simp [hperm.mem_iff]
  have hpots : npyHasPot names pot = true → npyPots names a pot = npyPots names' a' pot := by
    intro h
    cases pot with
    | some p => simp [npyPots, hrows]
    | none =>
      have : "potential" ∈ names := by simpa [npyHasPot] using h
      exact map_byName_perm hn' hw hl hs this
  have kin : ∀ c ∈ kinNames, (a.rows.map fun r => byName names r c)
      = a'.rows.map fun r => byName names' r c :=
    fun c hc => map_byName_perm hn' hw hl hs (hg.1 c hc)
  unfold BSet.args npyBodies
  simp only [List.map_zipWith, npyBody, zipWith_map_left _ a.rows _ hlen,
    zipWith_map_right a.rows _ hlen, zipWith_map_left _ a'.rows _ hlen',
    zipWith_map_right a'.rows _ hlen', kin "m" (by decide), kin "x" (by decide), kin "y" (by decide),
    kin "z" (by decide), kin "vx" (by decide), kin "vy" (by decide), kin "vz" (by decide), ← hcon]
  by_cases h : npyHasPot names pot = true
  · rw [hpots h]
  · simp [h]

theorem GoodColumns.perm {names names' : List String} (h : names.Perm names') (hg : GoodColumns names) :
    GoodColumns names' :=
  ⟨fun c hc => h.mem_iff.1 (hg.1 c hc), fun c hc => hg.2 c (h.mem_iff.2 hc)⟩

theorem PotFits.perm {names names' : List String} {a a' : Arr2 F} {pot : Option (List F)}
    (h : names.Perm names') (hs : a.rows.length = a'.rows.length) (hp : PotFits names a pot) :
    PotFits names' a' pot := by
  intro p e
  obtain ⟨h1, h2⟩ := hp p e
  exact ⟨fun hc => h1 (h.mem_iff.2 hc), by omega⟩

theorem galaxyOf_args {s d g s' d' g' : List (Body F) × Bool} (a b c : F)
    (h1 : BSet.args ⟨s.1, s.2, a⟩ = BSet.args ⟨s'.1, s'.2, a⟩)
    (h2 : BSet.args ⟨d.1, d.2, b⟩ = BSet.args ⟨d'.1, d'.2, b⟩)
    (h3 : BSet.args ⟨g.1, g.2, c⟩ = BSet.args ⟨g'.1, g'.2, c⟩) :
    galaxyOf s d g a b c = galaxyOf s' d' g' a b c := by
  rw [← mkgalaxy_args, ← mkgalaxy_args, h1, h2, h3]

/-- C53: permuting the names and the columns of the arrays together changes nothing, errors
included. -/
theorem C53_permutation {star dark gas star' dark' gas' : Arr2 F} {names names' : List String}
    (pS pD pG : Option (List F)) (hperm : names.Perm names')
    (w1 : star.WF) (w2 : dark.WF) (w3 : gas.WF)
    (e1 : star.width = star'.width) (e2 : dark.width = dark'.width) (e3 : gas.width = gas'.width)
    (s1 : SameLabelled names names' star star') (s2 : SameLabelled names names' dark dark')
    (s3 : SameLabelled names names' gas gas') (hne : names ≠ []) (a b c : F) :
    readNpy star dark gas names pS pD pG a b c = readNpy star' dark' gas' names' pS pD pG a b c := by
  have hne' : names' ≠ [] := fun h => hne (by rw [h] at hperm; exact hperm.eq_nil)
  have nf : ∀ x x' : Arr2 F, x.width = x'.width → (NamesFit names x ↔ NamesFit names' x') := by
    intro x x' h
    unfold NamesFit
    rw [hperm.nodup_iff, hperm.length_eq, h]
  have pf : ∀ (x x' : Arr2 F) (p : Option (List F)), SameLabelled names names' x x' →
      (PotFits names x p ↔ PotFits names' x' p) := fun x x' p h =>
    ⟨fun hp => hp.perm hperm h.length_eq, fun hp => hp.perm hperm.symm h.length_eq.symm⟩
  by_cases hn : NamesFit names star ∧ NamesFit names dark ∧ NamesFit names gas
  · have hn' : NamesFit names' star' ∧ NamesFit names' dark' ∧ NamesFit names' gas' := by
      rwa [← nf _ _ e1, ← nf _ _ e2, ← nf _ _ e3]
    by_cases hp : PotFits names star pS ∧ PotFits names dark pD ∧ PotFits names gas pG
    · have hp' : PotFits names' star' pS ∧ PotFits names' dark' pD ∧ PotFits names' gas' pG := by
        rwa [← pf _ _ _ s1, ← pf _ _ _ s2, ← pf _ _ _ s3]
      rw [readNpy_tables hn.1 hn.2.1 hn.2.2 hp.1 hp.2.1 hp.2.2,
        readNpy_tables hn'.1 hn'.2.1 hn'.2.2 hp'.1 hp'.2.1 hp'.2.2]
      by_cases hg : GoodColumns names
      · have hg' := hg.perm hperm
        rw [galaxyOfTables_holds (npyTable_holds hn.1.1 hg hp.1) (npyTable_holds hn.2.1.1 hg hp.2.1)
            (npyTable_holds hn.2.2.1 hg hp.2.2),
          galaxyOfTables_holds (npyTable_holds hn'.1.1 hg' hp'.1) (npyTable_holds hn'.2.1.1 hg' hp'.2.1)
            (npyTable_holds hn'.2.2.1 hg' hp'.2.2)]
        apply galaxyOf_args
        · exact npyBodies_perm hg hperm hn'.1.1 w1 hn.1.2 s1 hp.1 hp'.1 a
        · exact npyBodies_perm hg hperm hn'.1.1 w2 hn.2.1.2 s2 hp.2.1 hp'.2.1 b
        · exact npyBodies_perm hg hperm hn'.1.1 w3 hn.2.2.2 s3 hp.2.2 hp'.2.2 c
      · have hg' : ¬ GoodColumns names' := fun h => hg (h.perm hperm.symm)
        rw [galaxyOfTables_bad _ _ _ _ _ _ (npyTable_nodup hn.1.1 hp.1) (npyTable_nodup hn.2.1.1 hp.2.1)
            (npyTable_nodup hn.2.2.1 hp.2.2) (by rw [npyTable_good]; exact fun h => hg h.1),
          galaxyOfTables_bad _ _ _ _ _ _ (npyTable_nodup hn'.1.1 hp'.1)
            (npyTable_nodup hn'.2.1.1 hp'.2.1) (npyTable_nodup hn'.2.2.1 hp'.2.2)
            (by rw [npyTable_good]; exact fun h => hg' h.1)]
    · have hp' : ¬ (PotFits names' star' pS ∧ PotFits names' dark' pD ∧ PotFits names' gas' pG) := by
        rwa [← pf _ _ _ s1, ← pf _ _ _ s2, ← pf _ _ _ s3]
      rw [C53_bad_potential hne hp, C53_bad_potential hne' hp']
  · have hn' : ¬ (NamesFit names' star' ∧ NamesFit names' dark' ∧ NamesFit names' gas') := by
      rwa [← nf _ _ e1, ← nf _ _ e2, ← nf _ _ e3]
    rw [C53_bad_names hn, C53_bad_names hn']

/-! ## C54 potentials -/

/-- the potentials given for three types are not all or none -/
def Mixed (s d g : Bool) : Prop := ¬ (s = d ∧ d = g)

theorem mkgalaxy_mixed (s d g : PArgs F)
    (h : Mixed s.potential.isSome d.potential.isSome g.potential.isSome) :
    mkgalaxy s d g = .error .valueError := by
  unfold mkgalaxy
  cases h1 : ParticleSet.new .stars s with
  | error e => rw [ParticleSet.new_err h1]; rfl
  | ok s' =>
    cases h2 : ParticleSet.new .darkMatter d with
    | error e => rw [ParticleSet.new_err h2]; rfl
    | ok d' =>
      cases h3 : ParticleSet.new .gas g with
      | error e => rw [ParticleSet.new_err h3]; rfl
      | ok g' =>
        simp only [Py.ok_bind]
        apply (C03_galaxy_accepts_iff s' d' g').2.1
        rw [C03_hasPotential_isSome h1, C03_hasPotential_isSome h2, C03_hasPotential_isSome h3]
        rintro ⟨e1, e2⟩
        exact h ⟨e1.symm, by rw [e1, e2]⟩

theorem mkgalaxy_hasPotential {s d g : PArgs F} {G : Galaxy F} (h : mkgalaxy s d g = .ok G) :
    G.hasPotential = s.potential.isSome ∧ G.hasPotential = d.potential.isSome ∧
      G.hasPotential = g.potential.isSome := by
  unfold mkgalaxy at h
  cases h1 : ParticleSet.new .stars s with
  | error e => rw [h1] at h; cases h
  | ok s' =>
    cases h2 : ParticleSet.new .darkMatter d with
    | error e => rw [h1, h2] at h; cases h
    | ok d' =>
      cases h3 : ParticleSet.new .gas g with
      | error e => rw [h1, h2, h3] at h; cases h
      | ok g' =>
        rw [h1, h2, h3] at h
        simp only [Py.ok_bind] at h
        obtain ⟨-, -, -, e1, e2, e3, -⟩ := (C03_galaxy_accepts_iff s' d' g').2.2.2 G h
        rw [← C03_hasPotential_isSome h1, ← C03_hasPotential_isSome h2, ← C03_hasPotential_isSome h3]
        exact ⟨e1, e2, e3⟩

/-- a table has a potential column -/
def tableHasPot (t : DF F) : Bool := (Dict.keys t.cols).contains "potential"

theorem tableArgs_pot (t : DF F) (soft : F) :
    (tableArgs t soft).potential.isSome = tableHasPot t := by
  unfold tableArgs tableHasPot DFfloats
  simp only [Option.isSome_map]
  rw [Bool.eq_iff_iff, List.contains_iff_mem, Dict.mem_keys, Option.isSome_iff_exists]

/-- C54: `read_hdf5` of a file with three tables of kinematic columns, of any lengths: `ValueError` if
some but not all tables have a potential; a galaxy read has a potential iff all three have. -/
theorem C54_hdf5 (ro : O → Py (DF F)) {h : H5 F V O} {s d g : DF F}
    (h1 : Dict.get? h.objs "stars" = some (.table s))
    (h2 : Dict.get? h.objs "dark_matter" = some (.table d))
    (h3 : Dict.get? h.objs "gas" = some (.table g))
    (k1 : (Dict.keys s.cols).Nodup) (k2 : (Dict.keys d.cols).Nodup) (k3 : (Dict.keys g.cols).Nodup)
    (g1 : GoodColumns (Dict.keys s.cols)) (g2 : GoodColumns (Dict.keys d.cols))
    (g3 : GoodColumns (Dict.keys g.cols)) (a b c : F) :
    (Mixed (tableHasPot s) (tableHasPot d) (tableHasPot g) →
      readHdf5 ro h a b c = .error .valueError) ∧
    (∀ G, readHdf5 ro h a b c = .ok G →
      (G.hasPotential = true ↔ tableHasPot s = true ∧ tableHasPot d = true ∧ tableHasPot g = true)) := by
  rw [readHdf5_tables h1 h2 h3, galaxyOfTables_good s d g a b c k1 k2 k3 g1 g2 g3]
  refine ⟨fun hm => mkgalaxy_mixed _ _ _ (by rwa [tableArgs_pot, tableArgs_pot, tableArgs_pot]), ?_⟩
  intro G hG
  obtain ⟨e1, e2, e3⟩ := mkgalaxy_hasPotential hG
  rw [tableArgs_pot] at e1 e2 e3
  rw [← e1, ← e2, ← e3]
  simp

/-- C54: `read_npy` with kinematic column names and any arrays: `ValueError` if a potential is given
for some but not all types; a galaxy read has a potential iff all three were given one. -/
theorem C54_npy (star dark gas : Arr2 F) {names : List String} (hg : GoodColumns names)
    (pS pD pG : Option (List F)) (a b c : F) :
    (Mixed (npyHasPot names pS) (npyHasPot names pD) (npyHasPot names pG) →
      readNpy star dark gas names pS pD pG a b c = .error .valueError) ∧
    (∀ G, readNpy star dark gas names pS pD pG a b c = .ok G →
      (G.hasPotential = true ↔ npyHasPot names pS = true ∧ npyHasPot names pD = true ∧
        npyHasPot names pG = true)) := by
  have hne : names ≠ [] := by
    rintro rfl
    exact absurd (hg.1 "m" (by decide)) (by simp)
  by_cases hn : NamesFit names star ∧ NamesFit names dark ∧ NamesFit names gas
  · by_cases hp : PotFits names star pS ∧ PotFits names dark pD ∧ PotFits names gas pG
    · rw [readNpy_tables hn.1 hn.2.1 hn.2.2 hp.1 hp.2.1 hp.2.2,
        galaxyOfTables_holds (npyTable_holds hn.1.1 hg hp.1) (npyTable_holds hn.2.1.1 hg hp.2.1)
          (npyTable_holds hn.2.2.1 hg hp.2.2)]
      unfold galaxyOf
      constructor
      · intro hm
        exact if_neg hm
      · intro G hG
        split at hG
        · next h =>
          obtain rfl := Except.ok.inj hG
          obtain ⟨h1, h2⟩ := h
          simp only at h1 h2
          rw [← h2, ← h1]
          simp [Galaxy.ofBodies]
        · cases hG
    · rw [C53_bad_potential hne hp]
      exact ⟨fun _ => rfl, fun G h => nomatch h⟩
  · rw [C53_bad_names hn]
    exact ⟨fun _ => rfl, fun G h => nomatch h⟩

/-! ## Non-vacuity -/

/-- names in an unusual order, with an id -/
def exNames : List String := ["vz", "id", "m", "y", "x", "z", "vy", "vx"]

example : GoodColumns exNames ∧ exNames.Nodup := by decide +kernel

/-- one row -/
def exArr : Arr2 (Ext ℚ) := ⟨[[q 6, q 99, q 1, q 3, q 2, q 4, q 8, q 7]], 8⟩
/-- no rows -/
def exArr0 : Arr2 (Ext ℚ) := ⟨[], 8⟩

example : readNpy exArr exArr0 exArr exNames none none none (q 0) (q 0) (q 0)
    = .ok (Galaxy.ofBodies ⟨[⟨q 1, q 2, q 3, q 4, q 7, q 8, q 6, q 0⟩], [],
        [⟨q 1, q 2, q 3, q 4, q 7, q 8, q 6, q 0⟩], false, q 0, q 0, q 0⟩) := by decide +kernel
example : readNpy exArr exArr0 exArr exNames (some [q 5]) (some []) (some [q 6]) (q 0) (q 0) (q 0)
    = .ok (Galaxy.ofBodies ⟨[⟨q 1, q 2, q 3, q 4, q 7, q 8, q 6, q 5⟩], [],
        [⟨q 1, q 2, q 3, q 4, q 7, q 8, q 6, q 6⟩], true, q 0, q 0, q 0⟩) := by decide +kernel
example : readNpy exArr exArr0 exArr exNames (some [q 5]) (some []) none (q 0) (q 0) (q 0)
    = .error .valueError := by decide +kernel
example : readNpy exArr exArr0 exArr ("t" :: exNames.tail) none none none (q 0) (q 0) (q 0)
    = .error .typeError := by decide +kernel
example : readNpy exArr exArr0 exArr ("m" :: exNames.tail) none none none (q 0) (q 0) (q 0)
    = .error .valueError := by decide +kernel

end GChop
