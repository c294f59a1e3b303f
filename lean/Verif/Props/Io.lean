import Verif.Lemmas.IoTables
import Verif.Props.Data

/-!
# C49–C52: HDF5 files
-/

set_option linter.unusedSectionVars false

namespace GChop
open Pd

variable {F : Type} [Num F] {V O : Type}

/-! ## The effect of a write -/

theorem runOps_append (a b : List (H5Op F V)) (h : H5 F V O) :
    runOps (a ++ b) h = runOps b (runOps a h) := by
  unfold runOps; rw [List.foldl_append]

theorem andThen_ok {p r : H5Proc F V O} {h : H5 F V O} {ops : List (H5Op F V)} {u : Unit}
    (hp : p h = (ops, .ok u)) :
    H5Proc.andThen p r h = (ops ++ (r (runOps ops h)).1, (r (runOps ops h)).2) := by
  unfold H5Proc.andThen; rw [hp]

theorem andThen_error {p r : H5Proc F V O} {h : H5 F V O} {ops : List (H5Op F V)} {e : PyErr}
    (hp : p h = (ops, .error e)) : H5Proc.andThen p r h = (ops, .error e) := by
  unfold H5Proc.andThen; rw [hp]

/-- the changes that replace or create one table -/
def tableOps (present : Bool) (name : String) (t : DF F) : List (H5Op F V) :=
  (if present then [.delete name] else []) ++ [.create name t, .write name t]

theorem runOps_tableOps_get (present : Bool) (name : String) (t : DF F) (h : H5 F V O) (n : String) :
    Dict.get? (runOps (tableOps present name t) h).objs n
      = if name = n then some (.table t) else Dict.get? h.objs n := by
  cases present <;>
    simp only [tableOps, runOps, List.nil_append, List.cons_append, List.foldl_cons, List.foldl_nil,
      H5Op.apply, Dict.get?_set_eq, Dict.get?_erase, if_true, Bool.false_eq_true, if_false] <;>
    by_cases hn : name = n <;> simp [hn]

theorem runOps_tableOps_attrs (present : Bool) (name : String) (t : DF F) (h : H5 F V O) :
    (runOps (tableOps present name t) h).attrs = h.attrs := by
  cases present <;> rfl

theorem writeTable_absent (o : WriteOpts) (name : String) (t : DF F) (h : H5 F V O)
    (hn : Dict.get? h.objs name = none) :
    writeTable o name t h = (tableOps false name t, .ok ()) := by
  unfold writeTable; rw [hn]; rfl

theorem writeTable_replace (o : WriteOpts) (name : String) (t : DF F) (h : H5 F V O)
    (h1 : o.append.getD true = true) (h2 : o.overwrite.getD true = true) :
    writeTable o name t h = (tableOps (Dict.get? h.objs name).isSome name t, .ok ()) := by
  unfold writeTable
  rw [h1, h2]
  cases Dict.get? h.objs name <;> rfl

theorem writeTable_refuse (o : WriteOpts) (name : String) (t : DF F) (h : H5 F V O)
    (hn : (Dict.get? h.objs name).isSome = true)
    (h1 : o.append.getD true = false ∨ o.overwrite.getD true = false) :
    writeTable o name t h = ([], .error .osError) := by
  unfold writeTable
  rw [hn, if_pos rfl, if_neg]
  rcases h1 with h | h <;> simp [h]

/-- the changes of `attrs.update`: the storable entries before the first one that is not -/
theorem writeAttrs_eq (storable : V → Bool) (d : Dict String V) (h : H5 F V O) :
    writeAttrs storable d h = ((d.takeWhile fun kv => storable kv.2).map fun kv => .attr kv.1 kv.2,
      if d.all (fun kv => storable kv.2) then .ok () else .error .typeError) := by
  induction d with
  | nil => rfl
  | cons kv d ih =>
    obtain ⟨k, v⟩ := kv
    unfold writeAttrs
    by_cases hs : storable v = true
    · rw [if_pos hs, ih, List.takeWhile_cons_of_pos (p := fun kv : String × V => storable kv.2) hs,
        List.all_cons, hs, Bool.true_and]
      rfl
    · have hf : storable v = false := by simpa using hs
      rw [if_neg hs, List.takeWhile_cons_of_neg (p := fun kv : String × V => storable kv.2) hs,
        List.all_cons, hf, Bool.false_and]
      rfl

theorem runOps_attrs (d : Dict String V) (h : H5 F V O) :
    runOps (d.map fun kv => .attr kv.1 kv.2) h = { h with attrs := Dict.update h.attrs d } := by
  unfold Dict.update
  induction d generalizing h with
  | nil => rfl
  | cons kv d ih =>
    have := ih (H5Op.apply h (.attr kv.1 kv.2))
    unfold runOps at this ⊢
    rw [List.map_cons, List.foldl_cons, this]
    rfl

/-- the names of the three tables -/
def tableNames : List String := ["stars", "dark_matter", "gas"]

/-- the three tables written by default -/
theorem writeGalaxy_replace (o : WriteOpts) (st : V → Bool) (s d g : DF F) (md : Dict String V)
    (h : H5 F V O) (h1 : o.append.getD true = true) (h2 : o.overwrite.getD true = true) :
    writeGalaxy o st s d g md h =
      (tableOps (Dict.get? h.objs "stars").isSome "stars" s ++
        (tableOps (Dict.get? h.objs "dark_matter").isSome "dark_matter" d ++
        (tableOps (Dict.get? h.objs "gas").isSome "gas" g ++ (writeAttrs st md h).1)),
       (writeAttrs st md h).2) := by
  unfold writeGalaxy
  rw [andThen_ok (writeTable_replace o "stars" s h h1 h2),
    andThen_ok (writeTable_replace o "dark_matter" d _ h1 h2),
    andThen_ok (writeTable_replace o "gas" g _ h1 h2)]
  simp only [runOps_tableOps_get, writeAttrs_eq]
  simp

theorem writeGalaxy_get (o : WriteOpts) (st : V → Bool) (s d g : DF F) (md : Dict String V)
    (h : H5 F V O) (h1 : o.append.getD true = true) (h2 : o.overwrite.getD true = true) (n : String) :
    Dict.get? (runOps (writeGalaxy o st s d g md h).1 h).objs n
      = if n = "stars" then some (.table s) else if n = "dark_matter" then some (.table d)
        else if n = "gas" then some (.table g) else Dict.get? h.objs n := by
  rw [writeGalaxy_replace o st s d g md h h1 h2]
  simp only [runOps_append, writeAttrs_eq]
  rw [runOps_attrs]
  simp only [runOps_tableOps_get]
  by_cases a : n = "stars"
  · subst a; simp
  by_cases b : n = "dark_matter"
  · subst b; simp
  by_cases c : n = "gas"
  · subst c; simp
  simp [a, b, c, Ne.symm a, Ne.symm b, Ne.symm c]

theorem writeGalaxy_attrs (o : WriteOpts) (st : V → Bool) (s d g : DF F) (md : Dict String V)
    (h : H5 F V O) (h1 : o.append.getD true = true) (h2 : o.overwrite.getD true = true) :
    (runOps (writeGalaxy o st s d g md h).1 h).attrs
      = Dict.update h.attrs (md.takeWhile fun kv => st kv.2) := by
  rw [writeGalaxy_replace o st s d g md h h1 h2]
  simp only [runOps_append, writeAttrs_eq]
  rw [runOps_attrs]
  simp only [runOps_tableOps_attrs]

/-! ## Reading -/

theorem readHdf5_tables {ro : O → Py (DF F)} {h : H5 F V O} {s d g : DF F}
    (hs : Dict.get? h.objs "stars" = some (.table s))
    (hd : Dict.get? h.objs "dark_matter" = some (.table d))
    (hg : Dict.get? h.objs "gas" = some (.table g)) (a b c : F) :
    readHdf5 ro h a b c = galaxyOfTables s d g a b c := by
  unfold readHdf5 readTable Dict.getItem
  rw [hs, hd, hg]
  rfl

/-- no stored value of the galaxy is NaN -/
def BGalaxy.clean (b : BGalaxy F) : Bool :=
  b.stars.all (Body.clean b.hasPot) && b.dm.all (Body.clean b.hasPot) && b.gas.all (Body.clean b.hasPot)

theorem BGalaxy.clean_iff (b : BGalaxy F) : b.clean = true ↔
    (∀ p ∈ b.stars, p.clean b.hasPot = true) ∧ (∀ p ∈ b.dm, p.clean b.hasPot = true) ∧
      (∀ p ∈ b.gas, p.clean b.hasPot = true) := by
  simp [BGalaxy.clean, and_assoc]

/-- the default options -/
def WriteOpts.Replaces (o : WriteOpts) : Prop :=
  o.append.getD true = true ∧ o.overwrite.getD true = true

/-- every metadata value can be stored -/
def AllStorable (env : H5Env V) (md : Option (Dict String V)) : Prop :=
  (h5Metadata env.defaults env.now md).all (fun kv => env.storable kv.2) = true

theorem toHdf5_eq (env : H5Env V) (o : WriteOpts) (md : Option (Dict String V)) (b : BGalaxy F)
    (h : H5 F V O) : toHdf5 env o md (Galaxy.ofBodies b) h = writeGalaxy o env.storable
      (storedTable (typeFrame b.hasPot .stars b.softS b.stars 0))
      (storedTable (typeFrame b.hasPot .darkMatter b.softDm b.dm b.stars.length))
      (storedTable (typeFrame b.hasPot .gas b.softG b.gas (b.stars.length + b.dm.length)))
      (h5Metadata env.defaults env.now md) h := by
  unfold toHdf5; rw [h5Tables_ofBodies]

theorem readHdf5_after (ro : O → Py (DF F)) (env : H5Env V) (o : WriteOpts)
    (md : Option (Dict String V)) (b : BGalaxy F) (h : H5 F V O) (ho : o.Replaces) (a c d : F) :
    readHdf5 ro (afterHdf5 env o md (Galaxy.ofBodies b) h) a c d = galaxyOfTables
      (storedTable (typeFrame b.hasPot .stars b.softS b.stars 0))
      (storedTable (typeFrame b.hasPot .darkMatter b.softDm b.dm b.stars.length))
      (storedTable (typeFrame b.hasPot .gas b.softG b.gas (b.stars.length + b.dm.length))) a c d := by
  unfold afterHdf5
  rw [toHdf5_eq]
  apply readHdf5_tables
  all_goals rw [writeGalaxy_get _ _ _ _ _ _ _ ho.1 ho.2]; simp

/-- C49: writing a galaxy without NaN to any file and reading the file gives the galaxy with the
softenings of the reader; the call succeeds if the metadata can be stored. -/
theorem C49_roundtrip (ro : O → Py (DF F)) (env : H5Env V) (o : WriteOpts)
    (md : Option (Dict String V)) (b : BGalaxy F) (h : H5 F V O) (ho : o.Replaces)
    (hc : b.clean = true) (sS sDm sG : F) :
    readHdf5 ro (afterHdf5 env o md (Galaxy.ofBodies b) h) sS sDm sG
      = .ok (Galaxy.ofBodies { b with softS := sS, softDm := sDm, softG := sG }) ∧
    (AllStorable env md → (toHdf5 env o md (Galaxy.ofBodies b) h).2 = .ok ()) := by
  obtain ⟨c1, c2, c3⟩ := b.clean_iff.1 hc
  constructor
  · rw [readHdf5_after ro env o md b h ho, storedTable_clean c1, storedTable_clean c2,
      storedTable_clean c3, galaxyOfTables_holds (holds_typeFrame ..) (holds_typeFrame ..)
        (holds_typeFrame ..)]
    simp [galaxyOf]
  · intro hs
    rw [toHdf5_eq, writeGalaxy_replace _ _ _ _ _ _ _ ho.1 ho.2, writeAttrs_eq]
    exact if_pos hs

/-- C49: with the softenings of the galaxy itself the result is the galaxy. -/
theorem C49_identity (ro : O → Py (DF F)) (env : H5Env V) (o : WriteOpts)
    (md : Option (Dict String V)) (g : Galaxy F) (h : H5 F V O) (ho : o.Replaces) (hg : g.Valid)
    (hc : ∀ b : BGalaxy F, g = Galaxy.ofBodies b → b.clean = true) :
    readHdf5 ro (afterHdf5 env o md g h) g.stars.softening g.darkMatter.softening g.gas.softening
      = .ok g := by
  obtain ⟨b, rfl⟩ := Galaxy.valid_iff.1 hg
  exact (C49_roundtrip ro env o md b h ho (hc b rfl) _ _ _).1

/-- C49 (limits): a galaxy with a NaN among the stored values cannot be read back. -/
theorem C49_nan_unreadable (ro : O → Py (DF F)) (env : H5Env V) (o : WriteOpts)
    (md : Option (Dict String V)) (b : BGalaxy F) (h : H5 F V O) (ho : o.Replaces)
    (hc : b.clean = false) (sS sDm sG : F) :
    readHdf5 ro (afterHdf5 env o md (Galaxy.ofBodies b) h) sS sDm sG = .error .typeError := by
  rw [readHdf5_after ro env o md b h ho]
  apply galaxyOfTables_bad
  · exact storedTable_typeFrame_nodup ..
  · exact storedTable_typeFrame_nodup ..
  · exact storedTable_typeFrame_nodup ..
  · rintro ⟨g1, g2, g3⟩
    have key : ∀ (t : PType) (so : F) (l : List (Body F)) (off : Nat),
        GoodColumns (Dict.keys (storedTable (typeFrame b.hasPot t so l off)).cols) →
        ∀ p ∈ l, p.clean b.hasPot = true := by
      intro t so l off hg p hp
      by_contra hn
      exact storedTable_bad ⟨p, hp, by simpa using hn⟩ hg
    have := b.clean_iff.2 ⟨key _ _ _ _ g1, key _ _ _ _ g2, key _ _ _ _ g3⟩
    rw [this] at hc
    cases hc

/-! ## C50 histories -/

/-- one call of `to_hdf5` -/
structure WriteCall (F V : Type) where
  env : H5Env V
  md : Option (Dict String V)
  galaxy : BGalaxy F

/-- the file after a sequence of calls with default options -/
def afterCalls (calls : List (WriteCall F V)) (h : H5 F V O) : H5 F V O :=
  calls.foldl (fun h c => afterHdf5 c.env {} c.md (Galaxy.ofBodies c.galaxy) h) h

/-- C50: after any sequence of writes the file reads as the last galaxy, and every object with
another name is as it was. -/
theorem C50_last_write_wins (ro : O → Py (DF F)) (calls : List (WriteCall F V)) (last : WriteCall F V)
    (h : H5 F V O) (hc : last.galaxy.clean = true) (sS sDm sG : F) :
    readHdf5 ro (afterCalls (calls ++ [last]) h) sS sDm sG
      = .ok (Galaxy.ofBodies { last.galaxy with softS := sS, softDm := sDm, softG := sG }) := by
  unfold afterCalls
  rw [List.foldl_append, List.foldl_cons, List.foldl_nil]
  exact (C49_roundtrip ro _ _ _ _ _ ⟨rfl, rfl⟩ hc _ _ _).1

theorem C50_others_survive (calls : List (WriteCall F V)) (h : H5 F V O) (n : String)
    (hn : n ∉ tableNames) : Dict.get? (afterCalls calls h).objs n = Dict.get? h.objs n := by
  unfold afterCalls
  induction calls generalizing h with
  | nil => rfl
  | cons c calls ih =>
    rw [List.foldl_cons, ih]
    unfold afterHdf5
    rw [toHdf5_eq, writeGalaxy_get _ _ _ _ _ _ _ rfl rfl]
    simp only [tableNames, List.mem_cons, List.not_mem_nil, or_false, not_or] at hn
    rw [if_neg hn.1, if_neg hn.2.1, if_neg hn.2.2]

/-- C50: with `append` or `overwrite` disabled a write onto a file that has one of the tables raises
`OSError`; what the file had is kept. -/
theorem C50_refuses (env : H5Env V) (o : WriteOpts) (md : Option (Dict String V)) (b : BGalaxy F)
    (h : H5 F V O) (ho : o.append = some false ∨ o.overwrite = some false)
    (hex : ∃ n ∈ tableNames, (Dict.get? h.objs n).isSome = true) :
    (toHdf5 env o md (Galaxy.ofBodies b) h).2 = .error .osError ∧
    (∀ n x, Dict.get? h.objs n = some x →
      Dict.get? (afterHdf5 env o md (Galaxy.ofBodies b) h).objs n = some x) ∧
    (afterHdf5 env o md (Galaxy.ofBodies b) h).attrs = h.attrs := by
  have ho' : o.append.getD true = false ∨ o.overwrite.getD true = false := by
    rcases ho with h | h <;> simp [h]
  unfold afterHdf5
  rw [toHdf5_eq]
  unfold writeGalaxy
  by_cases h1 : (Dict.get? h.objs "stars").isSome = true
  · rw [andThen_error (writeTable_refuse o "stars" _ h h1 ho')]
    exact ⟨rfl, fun n x hx => hx, rfl⟩
  · have h1' : Dict.get? h.objs "stars" = none := by simpa using h1
    rw [andThen_ok (writeTable_absent o "stars" _ h h1')]
    by_cases h2 : (Dict.get? h.objs "dark_matter").isSome = true
    · rw [andThen_error (writeTable_refuse o "dark_matter" _ _ (by
        rw [runOps_tableOps_get, if_neg (by decide)]; exact h2) ho')]
      refine ⟨rfl, ?_, ?_⟩
      · intro n x hx
        rw [List.append_nil, runOps_tableOps_get, if_neg, hx]
        rintro rfl
        rw [h1'] at hx; cases hx
      · rw [List.append_nil, runOps_tableOps_attrs]
    · have h2' : Dict.get? h.objs "dark_matter" = none := by simpa using h2
      rw [andThen_ok (writeTable_absent o "dark_matter" _ _ (by
        rw [runOps_tableOps_get, if_neg (by decide)]; exact h2'))]
      have h3 : (Dict.get? h.objs "gas").isSome = true := by
        obtain ⟨n, hn, hx⟩ := hex
        simp only [tableNames, List.mem_cons, List.not_mem_nil, or_false] at hn
        rcases hn with rfl | rfl | rfl
        · exact absurd hx h1
        · exact absurd hx h2
        · exact hx
      rw [andThen_error (writeTable_refuse o "gas" _ _ (by
        rw [runOps_tableOps_get, if_neg (by decide), runOps_tableOps_get, if_neg (by decide)]
        exact h3) ho')]
      refine ⟨rfl, ?_, ?_⟩
      · intro n x hx
        rw [List.append_nil, runOps_append, runOps_tableOps_get, if_neg, runOps_tableOps_get, if_neg, hx]
        · rintro rfl
          rw [h1'] at hx; cases hx
        · rintro rfl
          rw [h2'] at hx; cases hx
      · rw [List.append_nil, runOps_append, runOps_tableOps_attrs, runOps_tableOps_attrs]

/-- C50: without any of the tables in the file the options do not matter. -/
theorem C50_fresh (env : H5Env V) (o : WriteOpts) (md : Option (Dict String V)) (b : BGalaxy F)
    (h : H5 F V O) (hex : ∀ n ∈ tableNames, Dict.get? h.objs n = none) :
    toHdf5 env o md (Galaxy.ofBodies b) h = toHdf5 env {} md (Galaxy.ofBodies b) h := by
  have h1 := hex "stars" (by decide)
  have h2 := hex "dark_matter" (by decide)
  have h3 := hex "gas" (by decide)
  have key : ∀ (o : WriteOpts) (s d g : DF F) (m : Dict String V), writeGalaxy o env.storable s d g m h
      = (tableOps false "stars" s ++ (tableOps false "dark_matter" d ++
          (tableOps false "gas" g ++ (writeAttrs env.storable m h).1)), (writeAttrs env.storable m h).2) := by
    intro o s d g m
    unfold writeGalaxy
    rw [andThen_ok (writeTable_absent o "stars" _ h h1),
      andThen_ok (writeTable_absent o "dark_matter" _ _ (by
        rw [runOps_tableOps_get, if_neg (by decide)]; exact h2)),
      andThen_ok (writeTable_absent o "gas" _ _ (by
        rw [runOps_tableOps_get, if_neg (by decide), runOps_tableOps_get, if_neg (by decide)]; exact h3))]
    simp only [writeAttrs_eq]
  rw [toHdf5_eq, toHdf5_eq, key, key]

/-! ## C51 metadata -/

/-- the attribute `k` of a file with old attributes `old` after writing with metadata `md` -/
def attrAfter (env : H5Env V) (md : Dict String V) (old : Option V) (k : String) : Option V :=
  match Dict.get? md k with
  | some v => some v
  | none =>
    if k = "utc_timestamp" then some env.now
    else if k ∈ defaultMetaKeys then some (env.defaults k)
    else old

theorem h5Metadata_get (env : H5Env V) (md : Dict String V) (hmd : (Dict.keys md).Nodup) (k : String) :
    Dict.get? (h5Metadata env.defaults env.now (some md)) k = attrAfter env md none k := by
  unfold h5Metadata attrAfter
  simp only [Option.getD_some]
  rw [Dict.get?_update _ _ hmd, Dict.get?_set_eq, Dict.get?_map]
  cases Dict.get? md k with
  | some v => rfl
  | none =>
    simp only [Option.none_or]
    by_cases hk : k = "utc_timestamp"
    · simp [hk]
    · simp [hk, Ne.symm hk]

theorem update_nodup {κ ν : Type} [DecidableEq κ] (d e : Dict κ ν) (h : (Dict.keys d).Nodup) :
    (Dict.keys (Dict.update d e)).Nodup := by
  unfold Dict.update
  induction e generalizing d with
  | nil => exact h
  | cons kv e ih => exact ih _ (Dict.nodup_set h _ _)

theorem h5Metadata_nodup (env : H5Env V) (md : Option (Dict String V)) :
    (Dict.keys (h5Metadata env.defaults env.now md)).Nodup := by
  unfold h5Metadata
  apply update_nodup
  apply Dict.nodup_set
  unfold Dict.keys
  rw [List.map_map]
  have : defaultMetaKeys.map ((fun x : String × V => x.1) ∘ fun k => (k, env.defaults k))
      = defaultMetaKeys := List.map_id _
  rw [this]
  decide +kernel

/-- C51: the given metadata win over the defaults, the timestamp and what the file had; the defaults
and the timestamp are there; attributes with other names are kept. -/
theorem C51_metadata (env : H5Env V) (o : WriteOpts) (md : Dict String V) (b : BGalaxy F)
    (h : H5 F V O) (ho : o.Replaces) (hmd : (Dict.keys md).Nodup) (hs : AllStorable env (some md))
    (k : String) :
    Dict.get? (afterHdf5 env o (some md) (Galaxy.ofBodies b) h).attrs k
      = attrAfter env md (Dict.get? h.attrs k) k := by
  unfold afterHdf5
  rw [toHdf5_eq, writeGalaxy_attrs _ _ _ _ _ _ _ ho.1 ho.2]
  unfold AllStorable at hs
  rw [List.all_eq_true] at hs
  have htw : ∀ l : Dict String V, (∀ kv ∈ l, env.storable kv.2 = true) →
      l.takeWhile (fun kv => env.storable kv.2) = l := by
    intro l hl
    induction l with
    | nil => rfl
    | cons kv l ih =>
      rw [List.takeWhile_cons_of_pos (p := fun kv : String × V => env.storable kv.2)
          (hl kv (List.mem_cons_self ..)),
        ih fun kv' h' => hl kv' (List.mem_cons_of_mem _ h')]
  rw [htw _ hs,
    Dict.get?_update _ _ (h5Metadata_nodup env _), h5Metadata_get env md hmd]
  unfold attrAfter
  cases Dict.get? md k with
  | some v => rfl
  | none =>
    simp only
    by_cases h1 : k = "utc_timestamp"
    · simp [h1]
    · by_cases h2 : k ∈ defaultMetaKeys
      · simp [h1, h2]
      · simp [h1, h2]

/-- C51: without metadata the same as with the empty dictionary. -/
theorem C51_none (env : H5Env V) (o : WriteOpts) (g : Galaxy F) (h : H5 F V O) :
    afterHdf5 env o none g h = afterHdf5 env o (some []) g h := rfl

/-- C51 (limits): metadata that h5py cannot store raise `TypeError` when the tables are already
replaced. -/
theorem C51_unstorable (ro : O → Py (DF F)) (env : H5Env V) (o : WriteOpts)
    (md : Option (Dict String V)) (b : BGalaxy F) (h : H5 F V O) (ho : o.Replaces)
    (hs : ¬ AllStorable env md) (hc : b.clean = true) (sS sDm sG : F) :
    (toHdf5 env o md (Galaxy.ofBodies b) h).2 = .error .typeError ∧
    readHdf5 ro (afterHdf5 env o md (Galaxy.ofBodies b) h) sS sDm sG
      = .ok (Galaxy.ofBodies { b with softS := sS, softDm := sDm, softG := sG }) := by
  refine ⟨?_, (C49_roundtrip ro env o md b h ho hc _ _ _).1⟩
  rw [toHdf5_eq, writeGalaxy_replace _ _ _ _ _ _ _ ho.1 ho.2, writeAttrs_eq]
  exact if_neg hs

/-! ## C52 crashes -/

/-- What a crash can leave under the name of a table: the old content, nothing, a table of zeros of
the new shape, or the new table. -/
inductive Phase where
  | old
  | gone
  | blank
  | new
  deriving DecidableEq

/-- the content of a name in a phase -/
def Phase.content (old : Option (H5Obj F O)) (t : DF F) : Phase → Option (H5Obj F O)
  | .old => old
  | .gone => none
  | .blank => some (.table (zeroTable t))
  | .new => some (.table t)

/-- the phases of the three tables in the course of a write -/
def crashPhases : List (Phase × Phase × Phase) :=
  [(.old, .old, .old), (.gone, .old, .old), (.blank, .old, .old), (.new, .old, .old),
   (.new, .gone, .old), (.new, .blank, .old), (.new, .new, .old),
   (.new, .new, .gone), (.new, .new, .blank), (.new, .new, .new)]

/-- the three tables of a file are in the phases `p` -/
def InPhases (h h' : H5 F V O) (s d g : DF F) (p : Phase × Phase × Phase) : Prop :=
  Dict.get? h'.objs "stars" = p.1.content (Dict.get? h.objs "stars") s ∧
  Dict.get? h'.objs "dark_matter" = p.2.1.content (Dict.get? h.objs "dark_matter") d ∧
  Dict.get? h'.objs "gas" = p.2.2.content (Dict.get? h.objs "gas") g

theorem prefix_append_cases {α : Type} {l a b : List α} (h : l <+: a ++ b) :
    l <+: a ∨ ∃ l', l = a ++ l' ∧ l' <+: b := by
  induction a generalizing l with
  | nil => exact Or.inr ⟨l, rfl, h⟩
  | cons x a ih =>
    cases l with
    | nil => exact Or.inl (List.nil_prefix)
    | cons y l =>
      rw [List.cons_append, List.cons_prefix_cons] at h
      obtain ⟨rfl, h⟩ := h
      rcases ih h with h' | ⟨l', hl', h'⟩
      · exact Or.inl (List.cons_prefix_cons.2 ⟨rfl, h'⟩)
      · exact Or.inr ⟨l', by rw [hl', List.cons_append], h'⟩

theorem prefix_cons_cases {α : Type} {l : List α} {x : α} {b : List α} (h : l <+: x :: b) :
    l = [] ∨ ∃ l', l = x :: l' ∧ l' <+: b := by
  cases l with
  | nil => exact Or.inl rfl
  | cons y l =>
    rw [List.cons_prefix_cons] at h
    obtain ⟨rfl, h⟩ := h
    exact Or.inr ⟨l, rfl, h⟩

theorem prefix_nil {α : Type} {l : List α} (h : l <+: []) : l = [] := by
  obtain ⟨t, ht⟩ := h
  exact (List.append_eq_nil_iff.1 ht).1

/-- a prefix of the changes to one table: one of the four phases, the other names untouched -/
theorem tableOps_prefix (h : H5 F V O) (name : String) (t : DF F) (l : List (H5Op F V))
    (hl : l <+: tableOps (Dict.get? h.objs name).isSome name t) :
    (∀ n, n ≠ name → Dict.get? (runOps l h).objs n = Dict.get? h.objs n) ∧
    ∃ p : Phase, Dict.get? (runOps l h).objs name = p.content (Dict.get? h.objs name) t := by
  have c2 : ∀ (h : H5 F V O) (l : List (H5Op F V)), l <+: [.create name t, .write name t] →
      (∀ n, n ≠ name → Dict.get? (runOps l h).objs n = Dict.get? h.objs n) ∧
      (Dict.get? (runOps l h).objs name = Dict.get? h.objs name ∨
        Dict.get? (runOps l h).objs name = some (.table (zeroTable t)) ∨
        Dict.get? (runOps l h).objs name = some (.table t)) := by
    intro h l hl
    rcases prefix_cons_cases hl with rfl | ⟨l1, rfl, h1⟩
    · exact ⟨fun n _ => rfl, Or.inl rfl⟩
    rcases prefix_cons_cases h1 with rfl | ⟨l2, rfl, h2⟩
    · refine ⟨fun n hn => ?_, Or.inr (Or.inl ?_)⟩
      · simp [runOps, H5Op.apply, Dict.get?_set_eq, Ne.symm hn]
      · simp [runOps, H5Op.apply, Dict.get?_set_eq]
    · rw [prefix_nil h2]
      refine ⟨fun n hn => ?_, Or.inr (Or.inr ?_)⟩
      · simp [runOps, H5Op.apply, Dict.get?_set_eq, Ne.symm hn]
      · simp [runOps, H5Op.apply, Dict.get?_set_eq]
  cases hpres : (Dict.get? h.objs name).isSome with
  | false =>
    rw [hpres] at hl
    obtain ⟨e1, e2⟩ := c2 h l hl
    refine ⟨e1, ?_⟩
    rcases e2 with e | e | e
    · exact ⟨.old, e⟩
    · exact ⟨.blank, e⟩
    · exact ⟨.new, e⟩
  | true =>
    rw [hpres] at hl
    rcases prefix_cons_cases hl with rfl | ⟨l1, rfl, h1⟩
    · exact ⟨fun n _ => rfl, .old, rfl⟩
    · have hr : runOps (.delete name :: l1) h = runOps l1 (H5Op.apply h (.delete name)) := rfl
      obtain ⟨e1, e2⟩ := c2 (H5Op.apply h (.delete name)) l1 h1
      rw [hr]
      refine ⟨fun n hn => ?_, ?_⟩
      · rw [e1 n hn]
        simp [H5Op.apply, Dict.get?_erase, Ne.symm hn]
      · rcases e2 with e | e | e
        · refine ⟨.gone, ?_⟩
          rw [e]
          simp [H5Op.apply, Dict.get?_erase, Phase.content]
        · exact ⟨.blank, e⟩
        · exact ⟨.new, e⟩

theorem attrOps_objs (l : List (H5Op F V)) (d : Dict String V)
    (hl : l <+: d.map fun kv => .attr kv.1 kv.2) (h : H5 F V O) : (runOps l h).objs = h.objs := by
  induction d generalizing l h with
  | nil => rw [prefix_nil hl]; rfl
  | cons kv d ih =>
    rw [List.map_cons] at hl
    rcases prefix_cons_cases hl with rfl | ⟨l1, rfl, h1⟩
    · rfl
    · have hr : runOps (.attr kv.1 kv.2 :: l1) h = runOps l1 (H5Op.apply h (.attr kv.1 kv.2)) := rfl
      rw [hr, ih l1 h1]
      rfl

/-- every phase a table can be in while the others are in phases before and after -/
theorem writeGalaxy_prefix (o : WriteOpts) (st : V → Bool) (s d g : DF F) (md : Dict String V)
    (h : H5 F V O) (ho : o.Replaces) (l : List (H5Op F V))
    (hl : l <+: (writeGalaxy o st s d g md h).1) :
    (∃ p ∈ crashPhases, InPhases h (runOps l h) s d g p) ∧
    ∀ n ∉ tableNames, Dict.get? (runOps l h).objs n = Dict.get? h.objs n := by
  rw [writeGalaxy_replace o st s d g md h ho.1 ho.2, writeAttrs_eq] at hl
  have mem1 : ∀ p : Phase, (p, Phase.old, Phase.old) ∈ crashPhases := by intro p; cases p <;> decide
  have mem2 : ∀ p : Phase, (Phase.new, p, Phase.old) ∈ crashPhases := by intro p; cases p <;> decide
  have mem3 : ∀ p : Phase, (Phase.new, Phase.new, p) ∈ crashPhases := by intro p; cases p <;> decide
  have ntab : ∀ n, n ∉ tableNames → n ≠ "stars" ∧ n ≠ "dark_matter" ∧ n ≠ "gas" := by
    intro n hn
    simpa [tableNames] using hn
  rcases prefix_append_cases hl with h1 | ⟨l1, rfl, h1⟩
  · obtain ⟨e, p, hp⟩ := tableOps_prefix h "stars" s l h1
    exact ⟨⟨_, mem1 p, hp, e _ (by decide), e _ (by decide)⟩, fun n hn => e n (ntab n hn).1⟩
  · rw [runOps_append]
    set h' := runOps (tableOps (Dict.get? h.objs "stars").isSome "stars" s) h with hh'
    have g1 : ∀ n, Dict.get? h'.objs n = if "stars" = n then some (.table s) else Dict.get? h.objs n :=
      fun n => runOps_tableOps_get _ _ _ _ _
    have gs : Dict.get? h'.objs "stars" = some (.table s) := by rw [g1, if_pos rfl]
    have gd : Dict.get? h'.objs "dark_matter" = Dict.get? h.objs "dark_matter" := by
      rw [g1, if_neg (by decide)]
    have gg : Dict.get? h'.objs "gas" = Dict.get? h.objs "gas" := by rw [g1, if_neg (by decide)]
    rw [← gd, ← gg] at h1
    rcases prefix_append_cases h1 with h2 | ⟨l2, rfl, h2⟩
    · obtain ⟨e, p, hp⟩ := tableOps_prefix h' "dark_matter" d l1 h2
      refine ⟨⟨_, mem2 p, ?_, ?_, ?_⟩, fun n hn => ?_⟩
      · rw [e _ (by decide), gs]; rfl
      · rw [hp, gd]
      · rw [e _ (by decide), gg]; rfl
      · rw [e n (ntab n hn).2.1, g1, if_neg (Ne.symm (ntab n hn).1)]
    · rw [runOps_append]
      set h'' := runOps (tableOps (Dict.get? h'.objs "dark_matter").isSome "dark_matter" d) h' with hh''
      have g2 : ∀ n, Dict.get? h''.objs n
          = if "dark_matter" = n then some (.table d) else Dict.get? h'.objs n :=
        fun n => runOps_tableOps_get _ _ _ _ _
      have gs2 : Dict.get? h''.objs "stars" = some (.table s) := by rw [g2, if_neg (by decide), gs]
      have gd2 : Dict.get? h''.objs "dark_matter" = some (.table d) := by rw [g2, if_pos rfl]
      have gg2 : Dict.get? h''.objs "gas" = Dict.get? h'.objs "gas" := by rw [g2, if_neg (by decide)]
      rw [← gg2] at h2
      rcases prefix_append_cases h2 with h3 | ⟨l3, rfl, h3⟩
      · obtain ⟨e, p, hp⟩ := tableOps_prefix h'' "gas" g l2 h3
        refine ⟨⟨_, mem3 p, ?_, ?_, ?_⟩, fun n hn => ?_⟩
        · rw [e _ (by decide), gs2]; rfl
        · rw [e _ (by decide), gd2]; rfl
        · rw [hp, gg2, gg]
        · rw [e n (ntab n hn).2.2, g2, if_neg (Ne.symm (ntab n hn).2.1), g1,
            if_neg (Ne.symm (ntab n hn).1)]
      · rw [runOps_append]
        have hobj := attrOps_objs l3 _ h3
          (runOps (tableOps (Dict.get? h''.objs "gas").isSome "gas" g) h'')
        refine ⟨⟨_, mem3 .new, ?_, ?_, ?_⟩, fun n hn => ?_⟩
        · rw [hobj, runOps_tableOps_get, if_neg (by decide), gs2]; rfl
        · rw [hobj, runOps_tableOps_get, if_neg (by decide), gd2]; rfl
        · rw [hobj, runOps_tableOps_get, if_pos rfl]; rfl
        · rw [hobj, runOps_tableOps_get, if_neg (Ne.symm (ntab n hn).2.2), g2,
            if_neg (Ne.symm (ntab n hn).2.1), g1, if_neg (Ne.symm (ntab n hn).1)]

/-- the files a crash during `to_hdf5` can leave -/
def CrashFile (env : H5Env V) (o : WriteOpts) (md : Option (Dict String V)) (g : Galaxy F)
    (h h' : H5 F V O) : Prop :=
  ∃ l, l <+: (toHdf5 env o md g h).1 ∧ h' = runOps l h

/-- the particles found under a name in a phase, if there is a table -/
def Phase.bodies (old new : List (Body F) × Bool) : Phase → Option (List (Body F) × Bool)
  | .old => some old
  | .gone => none
  | .blank => some (new.1.map fun _ => Body.zero, new.2)
  | .new => some new

/-- what a reader gets in the phases `p` of the write of `b` over `a` -/
def crashRead (a b : BGalaxy F) (sS sDm sG : F) (p : Phase × Phase × Phase) : Py (Galaxy F) :=
  match p.1.bodies (a.stars, a.hasPot) (b.stars, b.hasPot), p.2.1.bodies (a.dm, a.hasPot) (b.dm, b.hasPot),
    p.2.2.bodies (a.gas, a.hasPot) (b.gas, b.hasPot) with
  | some s, some d, some g => galaxyOf s d g sS sDm sG
  | _, _, _ => .error .keyError

/-- a file whose three tables hold the galaxy -/
def HoldsGalaxy (h : H5 F V O) (a : BGalaxy F) : Prop :=
  ∃ s d g, Dict.get? h.objs "stars" = some (.table s) ∧ Dict.get? h.objs "dark_matter" = some (.table d) ∧
    Dict.get? h.objs "gas" = some (.table g) ∧ Holds s a.stars a.hasPot ∧ Holds d a.dm a.hasPot ∧
    Holds g a.gas a.hasPot

theorem HoldsGalaxy.read {h : H5 F V O} {a : BGalaxy F} (hh : HoldsGalaxy h a) (ro : O → Py (DF F))
    (sS sDm sG : F) : readHdf5 ro h sS sDm sG
      = .ok (Galaxy.ofBodies { a with softS := sS, softDm := sDm, softG := sG }) := by
  obtain ⟨s, d, g, h1, h2, h3, k1, k2, k3⟩ := hh
  rw [readHdf5_tables h1 h2 h3, galaxyOfTables_holds k1 k2 k3]
  simp [galaxyOf]

theorem HoldsGalaxy.after (env : H5Env V) (o : WriteOpts) (md : Option (Dict String V))
    (a : BGalaxy F) (h : H5 F V O) (ho : o.Replaces) (hc : a.clean = true) :
    HoldsGalaxy (afterHdf5 env o md (Galaxy.ofBodies a) h) a := by
  obtain ⟨c1, c2, c3⟩ := a.clean_iff.1 hc
  unfold afterHdf5
  rw [toHdf5_eq, storedTable_clean c1, storedTable_clean c2, storedTable_clean c3]
  refine ⟨typeFrame a.hasPot .stars a.softS a.stars 0,
    typeFrame a.hasPot .darkMatter a.softDm a.dm a.stars.length,
    typeFrame a.hasPot .gas a.softG a.gas (a.stars.length + a.dm.length),
    ?_, ?_, ?_, holds_typeFrame .., holds_typeFrame .., holds_typeFrame ..⟩
  all_goals rw [writeGalaxy_get _ _ _ _ _ _ _ ho.1 ho.2]; simp

theorem Phase.holds {old : DF F} {al bl : List (Body F)} {ap bp : Bool} {t : PType} {so : F} {off : Nat}
    (ha : Holds old al ap) (p : Phase) :
    match p.bodies (al, ap) (bl, bp) with
    | some r => ∃ x, p.content (O := O) (some (.table old)) (typeFrame bp t so bl off) = some (.table x) ∧
        Holds x r.1 r.2
    | none => p.content (O := O) (some (.table old)) (typeFrame bp t so bl off) = none := by
  cases p with
  | old => exact ⟨_, rfl, ha⟩
  | gone => rfl
  | blank => exact ⟨_, rfl, holds_zeroTable ..⟩
  | new => exact ⟨_, rfl, holds_typeFrame ..⟩

/-- reading a file whose tables are in the phases `p` -/
theorem read_inPhases {a b : BGalaxy F} {h h' : H5 F V O} (hh : HoldsGalaxy h a)
    (ro : O → Py (DF F)) {p : Phase × Phase × Phase} (hp : InPhases h h'
      (typeFrame b.hasPot .stars b.softS b.stars 0)
      (typeFrame b.hasPot .darkMatter b.softDm b.dm b.stars.length)
      (typeFrame b.hasPot .gas b.softG b.gas (b.stars.length + b.dm.length)) p) (sS sDm sG : F) :
    readHdf5 ro h' sS sDm sG = crashRead a b sS sDm sG p := by
  obtain ⟨s, d, g, h1, h2, h3, k1, k2, k3⟩ := hh
  obtain ⟨p1, p2, p3⟩ := p
  obtain ⟨e1, e2, e3⟩ := hp
  simp only at e1 e2 e3
  rw [h1] at e1
  rw [h2] at e2
  rw [h3] at e3
  have r1 := Phase.holds (O := O) (bl := b.stars) (bp := b.hasPot) (t := .stars) (so := b.softS) (off := 0) k1 p1
  have r2 := Phase.holds (O := O) (bl := b.dm) (bp := b.hasPot) (t := .darkMatter) (so := b.softDm)
    (off := b.stars.length) k2 p2
  have r3 := Phase.holds (O := O) (bl := b.gas) (bp := b.hasPot) (t := .gas) (so := b.softG)
    (off := b.stars.length + b.dm.length) k3 p3
  unfold crashRead
  simp only
  cases q1 : p1.bodies (a.stars, a.hasPot) (b.stars, b.hasPot) with
  | none =>
    rw [q1] at r1
    simp only at r1
    rw [r1] at e1
    simp [readHdf5, readTable, Dict.getItem, e1]
  | some s' =>
    rw [q1] at r1
    obtain ⟨x1, y1, z1⟩ := r1
    rw [y1] at e1
    cases q2 : p2.bodies (a.dm, a.hasPot) (b.dm, b.hasPot) with
    | none =>
      rw [q2] at r2
      simp only at r2
      rw [r2] at e2
      simp [readHdf5, readTable, Dict.getItem, e1, e2]
    | some d' =>
      rw [q2] at r2
      obtain ⟨x2, y2, z2⟩ := r2
      rw [y2] at e2
      cases q3 : p3.bodies (a.gas, a.hasPot) (b.gas, b.hasPot) with
      | none =>
        rw [q3] at r3
        simp only at r3
        rw [r3] at e3
        simp [readHdf5, readTable, Dict.getItem, e1, e2, e3]
      | some g' =>
        rw [q3] at r3
        obtain ⟨x3, y3, z3⟩ := r3
        rw [y3] at e3
        rw [readHdf5_tables e1 e2 e3, galaxyOfTables_holds z1 z2 z3]

/-- C52 (what holds): every crash while `b` is written over `a` leaves a file that reads as one of
ten results: `a` before the first deletion, `b` after the last table, and in between an error or a
mixture of the particles of both, of zeros and of nothing. -/
theorem C52_crash_reads (ro : O → Py (DF F)) (env : H5Env V) (o : WriteOpts)
    (md : Option (Dict String V)) (a b : BGalaxy F) (h h' : H5 F V O) (ho : o.Replaces)
    (hh : HoldsGalaxy h a) (hc : b.clean = true)
    (hcr : CrashFile env o md (Galaxy.ofBodies b) h h') (sS sDm sG : F) :
    ∃ p ∈ crashPhases, readHdf5 ro h' sS sDm sG = crashRead a b sS sDm sG p := by
  obtain ⟨c1, c2, c3⟩ := b.clean_iff.1 hc
  obtain ⟨l, hl, rfl⟩ := hcr
  rw [toHdf5_eq, storedTable_clean c1, storedTable_clean c2, storedTable_clean c3] at hl
  obtain ⟨⟨p, hp, hin⟩, -⟩ := writeGalaxy_prefix _ _ _ _ _ _ _ ho l hl
  exact ⟨p, hp, read_inPhases hh ro hin _ _ _⟩

/-- C52: objects with other names survive every crash. -/
theorem C52_others_survive (env : H5Env V) (o : WriteOpts) (md : Option (Dict String V))
    (b : BGalaxy F) (h h' : H5 F V O) (ho : o.Replaces)
    (hcr : CrashFile env o md (Galaxy.ofBodies b) h h') (n : String) (hn : n ∉ tableNames) :
    Dict.get? h'.objs n = Dict.get? h.objs n := by
  obtain ⟨l, hl, rfl⟩ := hcr
  rw [toHdf5_eq] at hl
  exact (writeGalaxy_prefix _ _ _ _ _ _ _ ho l hl).2 n hn

/-- the first `k` changes to the three tables put them in the `k`-th phases -/
theorem tableOps_take (s d g : DF F) (h : H5 F V O) (k : Nat) (hk : k < 10) :
    InPhases h (runOps ((tableOps true "stars" s ++ (tableOps true "dark_matter" d ++
      tableOps true "gas" g)).take k) h) s d g (crashPhases.getD k (.old, .old, .old)) := by
  have : k = 0 ∨ k = 1 ∨ k = 2 ∨ k = 3 ∨ k = 4 ∨ k = 5 ∨ k = 6 ∨ k = 7 ∨ k = 8 ∨ k = 9 := by omega
  rcases this with rfl|rfl|rfl|rfl|rfl|rfl|rfl|rfl|rfl|rfl <;>
    refine ⟨?_, ?_, ?_⟩ <;>
    simp [tableOps, runOps, H5Op.apply, Dict.get?_set_eq, Dict.get?_erase, crashPhases, Phase.content]

theorem toHdf5_ops_present (env : H5Env V) (o : WriteOpts) (md : Option (Dict String V))
    (a b : BGalaxy F) (h : H5 F V O) (ho : o.Replaces) (hh : HoldsGalaxy h a) (hc : b.clean = true) :
    (toHdf5 env o md (Galaxy.ofBodies b) h).1 =
      (tableOps true "stars" (typeFrame b.hasPot .stars b.softS b.stars 0) ++
        (tableOps true "dark_matter" (typeFrame b.hasPot .darkMatter b.softDm b.dm b.stars.length) ++
        tableOps true "gas" (typeFrame b.hasPot .gas b.softG b.gas (b.stars.length + b.dm.length)))) ++
      (writeAttrs env.storable (h5Metadata env.defaults env.now md) h).1 := by
  obtain ⟨c1, c2, c3⟩ := b.clean_iff.1 hc
  obtain ⟨s, d, g, h1, h2, h3, -⟩ := hh
  rw [toHdf5_eq, storedTable_clean c1, storedTable_clean c2, storedTable_clean c3,
    writeGalaxy_replace _ _ _ _ _ _ _ ho.1 ho.2, h1, h2, h3]
  simp

/-- C52: each of the ten results is reached by some crash. -/
theorem C52_crash_reached (ro : O → Py (DF F)) (env : H5Env V) (o : WriteOpts)
    (md : Option (Dict String V)) (a b : BGalaxy F) (h : H5 F V O) (ho : o.Replaces)
    (hh : HoldsGalaxy h a) (hc : b.clean = true) (sS sDm sG : F) :
    ∀ p ∈ crashPhases, ∃ h', CrashFile env o md (Galaxy.ofBodies b) h h' ∧
      readHdf5 ro h' sS sDm sG = crashRead a b sS sDm sG p := by
  intro p hp
  obtain ⟨k, hk, rfl⟩ := List.mem_iff_getElem.1 hp
  have hk' : k < 10 := hk
  refine ⟨_, ⟨(tableOps true "stars" (typeFrame b.hasPot .stars b.softS b.stars 0) ++
    (tableOps true "dark_matter" (typeFrame b.hasPot .darkMatter b.softDm b.dm b.stars.length) ++
    tableOps true "gas" (typeFrame b.hasPot .gas b.softG b.gas
      (b.stars.length + b.dm.length)))).take k, ?_, rfl⟩, ?_⟩
  rotate_left
  · rw [show crashPhases[k] = crashPhases.getD k (.old, .old, .old) by
      rw [List.getD_eq_getElem?_getD, List.getElem?_eq_getElem hk]; rfl]
    exact read_inPhases hh ro (tableOps_take _ _ _ h k hk') _ _ _
  · rw [toHdf5_ops_present env o md a b h ho hh hc]
    exact (List.take_prefix _ _).trans (List.prefix_append _ _)

/-- C52 (negation): a crash can leave a file that reads, without error, as a galaxy with the new
stars and the old dark matter and gas. -/
theorem C52_counterexample_mixture (ro : O → Py (DF F)) (env : H5Env V) (o : WriteOpts)
    (md : Option (Dict String V)) (a b : BGalaxy F) (h : H5 F V O) (ho : o.Replaces)
    (hh : HoldsGalaxy h a) (hc : b.clean = true) (hpot : a.hasPot = b.hasPot) (sS sDm sG : F) :
    ∃ h', CrashFile env o md (Galaxy.ofBodies b) h h' ∧
      readHdf5 ro h' sS sDm sG
        = .ok (Galaxy.ofBodies ⟨b.stars, a.dm, a.gas, b.hasPot, sS, sDm, sG⟩) := by
  obtain ⟨h', hcr, hr⟩ := C52_crash_reached ro env o md a b h ho hh hc sS sDm sG
    (.new, .old, .old) (by decide)
  refine ⟨h', hcr, ?_⟩
  rw [hr]
  simp [crashRead, Phase.bodies, galaxyOf, hpot]

/-- C52 (negation): a crash can leave a file that reads, without error, as a galaxy whose stars are
all zero. -/
theorem C52_counterexample_zeros (ro : O → Py (DF F)) (env : H5Env V) (o : WriteOpts)
    (md : Option (Dict String V)) (a b : BGalaxy F) (h : H5 F V O) (ho : o.Replaces)
    (hh : HoldsGalaxy h a) (hc : b.clean = true) (hpot : a.hasPot = b.hasPot) (sS sDm sG : F) :
    ∃ h', CrashFile env o md (Galaxy.ofBodies b) h h' ∧
      readHdf5 ro h' sS sDm sG
        = .ok (Galaxy.ofBodies ⟨b.stars.map fun _ => Body.zero, a.dm, a.gas, b.hasPot, sS, sDm, sG⟩) := by
  obtain ⟨h', hcr, hr⟩ := C52_crash_reached ro env o md a b h ho hh hc sS sDm sG
    (.blank, .old, .old) (by decide)
  refine ⟨h', hcr, ?_⟩
  rw [hr]
  simp [crashRead, Phase.bodies, galaxyOf, hpot]

/-- C52, the part that holds: before the first change the file reads as the old galaxy, and from the
ninth change on (the three tables replaced) as the new one.  Missing: the crash points in between, see
`C52_crash_reads`. -/
theorem C52_atomic_partial (ro : O → Py (DF F)) (env : H5Env V) (o : WriteOpts)
    (md : Option (Dict String V)) (a b : BGalaxy F) (h : H5 F V O) (ho : o.Replaces)
    (hh : HoldsGalaxy h a) (hc : b.clean = true) (l : List (H5Op F V))
    (hl : l <+: (toHdf5 env o md (Galaxy.ofBodies b) h).1) (sS sDm sG : F) :
    (l.length = 0 → readHdf5 ro (runOps l h) sS sDm sG
      = .ok (Galaxy.ofBodies { a with softS := sS, softDm := sDm, softG := sG })) ∧
    (9 ≤ l.length → readHdf5 ro (runOps l h) sS sDm sG
      = .ok (Galaxy.ofBodies { b with softS := sS, softDm := sDm, softG := sG })) := by
  constructor
  · intro h0
    rw [List.length_eq_zero_iff.1 h0]
    exact hh.read ro _ _ _
  · intro h9
    rw [toHdf5_ops_present env o md a b h ho hh hc, writeAttrs_eq] at hl
    rcases prefix_append_cases hl with h1 | ⟨l', rfl, h1⟩
    · have hlen := h1.length_le
      have he : l = (tableOps true "stars" (typeFrame b.hasPot .stars b.softS b.stars 0) ++
        (tableOps true "dark_matter" (typeFrame b.hasPot .darkMatter b.softDm b.dm b.stars.length) ++
        tableOps true "gas" (typeFrame b.hasPot .gas b.softG b.gas (b.stars.length + b.dm.length)))) :=
        h1.eq_of_length (by
          simp only [tableOps, if_true, List.length_append, List.length_cons, List.length_nil] at hlen ⊢
          omega)
      have := tableOps_take (V := V) (typeFrame b.hasPot .stars b.softS b.stars 0)
        (typeFrame b.hasPot .darkMatter b.softDm b.dm b.stars.length)
        (typeFrame b.hasPot .gas b.softG b.gas (b.stars.length + b.dm.length)) h 9 (by omega)
      rw [List.take_of_length_le (by simp [tableOps]), ← he] at this
      rw [read_inPhases hh ro this]
      simp [crashRead, crashPhases, Phase.bodies, galaxyOf]
    · have := tableOps_take (V := V) (typeFrame b.hasPot .stars b.softS b.stars 0)
        (typeFrame b.hasPot .darkMatter b.softDm b.dm b.stars.length)
        (typeFrame b.hasPot .gas b.softG b.gas (b.stars.length + b.dm.length)) h 9 (by omega)
      rw [List.take_of_length_le (by simp [tableOps])] at this
      rw [runOps_append]
      have hobj := attrOps_objs l' _ h1 (runOps (tableOps true "stars"
        (typeFrame b.hasPot .stars b.softS b.stars 0) ++
        (tableOps true "dark_matter" (typeFrame b.hasPot .darkMatter b.softDm b.dm b.stars.length) ++
        tableOps true "gas" (typeFrame b.hasPot .gas b.softG b.gas (b.stars.length + b.dm.length)))) h)
      rw [read_inPhases (b := b) hh ro (p := crashPhases.getD 9 (.old, .old, .old))]
      · simp [crashRead, crashPhases, Phase.bodies, galaxyOf]
      · unfold InPhases
        rw [hobj]
        exact this

/-! ## Non-vacuity -/

/-- a galaxy with potential -/
def exIoA : BGalaxy (Ext ℚ) :=
  { stars := [⟨q 1, q 1, q 2, q 3, q 0, q 1, q 0, q (-1)⟩, ⟨q 2, q 4, q 5, q 6, q 1, q 1, q 0, q (-2)⟩]
    dm := []
    gas := [⟨q 3, q 7, q 8, q 9, q 1, q 0, q 0, q (-3)⟩]
    hasPot := true, softS := q 1, softDm := q 2, softG := q 3 }

/-- another one -/
def exIoB : BGalaxy (Ext ℚ) :=
  { stars := [⟨q 11, q 1, q 2, q 3, q 0, q 1, q 0, q (-1)⟩]
    dm := [⟨q 12, q 4, q 5, q 6, q 1, q 1, q 0, q (-2)⟩]
    gas := []
    hasPot := true, softS := q 1, softDm := q 2, softG := q 3 }

/-- metadata are numbers; 13 cannot be stored -/
def exH5Env : H5Env Nat := ⟨fun _ => 0, 1, fun v => v != 13⟩
/-- a file with another dataset and two attributes -/
def exH5 : H5 (Ext ℚ) Nat Unit := ⟨[("extra", .other ())], [("url", 5), ("mine", 6)]⟩
/-- the file after writing `exIoA` -/
def exH5A : H5 (Ext ℚ) Nat Unit :=
  afterHdf5 exH5Env {} (some [("author_email", 7)]) (Galaxy.ofBodies exIoA) exH5

example : exIoA.clean = true ∧ exIoB.clean = true := by decide +kernel
example : HoldsGalaxy exH5A exIoA := HoldsGalaxy.after _ _ _ _ _ ⟨rfl, rfl⟩ (by decide +kernel)
example : readHdf5 (fun _ => .error .osError) exH5A (q 4) (q 5) (q 6)
    = .ok (Galaxy.ofBodies { exIoA with softS := q 4, softDm := q 5, softG := q 6 }) := by
  decide +kernel
example : exH5A.attrs.get? "author_email" = some 7 ∧ exH5A.attrs.get? "url" = some 0 ∧
    exH5A.attrs.get? "utc_timestamp" = some 1 ∧ exH5A.attrs.get? "mine" = some 6 ∧
    exH5A.objs.get? "extra" = some (.other ()) := by decide +kernel
example : (toHdf5 exH5Env { overwrite := some false } none (Galaxy.ofBodies exIoB) exH5A).2
    = .error .osError := by decide +kernel
example : (toHdf5 exH5Env {} (some [("a", 13)]) (Galaxy.ofBodies exIoB) exH5A).2
    = .error .typeError := by decide +kernel
/-- a NaN mass is masked and the file cannot be read -/
example : readHdf5 (fun _ => .error .osError) (afterHdf5 exH5Env {} none (Galaxy.ofBodies
      { exIoA with gas := [⟨.nan, q 7, q 8, q 9, q 1, q 0, q 0, q (-3)⟩] }) exH5) (q 4) (q 5) (q 6)
    = .error .typeError := by decide +kernel
/-- the first three changes of writing `exIoB` over `exIoA`: a galaxy that is neither of the two -/
example : readHdf5 (fun _ => .error .osError)
      (runOps ((toHdf5 exH5Env {} none (Galaxy.ofBodies exIoB) exH5A).1.take 3) exH5A) (q 1) (q 2) (q 3)
    = .ok (Galaxy.ofBodies { exIoA with stars := exIoB.stars }) ∧
    (Galaxy.ofBodies { exIoA with stars := exIoB.stars } ≠ Galaxy.ofBodies exIoA) ∧
    (Galaxy.ofBodies { exIoA with stars := exIoB.stars } ≠ Galaxy.ofBodies exIoB) := by
  decide +kernel

end GChop
