import Verif.Potential
import Verif.Lemmas.Center

/-!
# `potential` on lists of particles
-/

set_option linter.unusedSectionVars false

namespace GChop
open Pd

variable {F S : Type} [Num F] [Num S]

/-- give particle number `i` (stars, then dark matter, then gas) the potential `p i` -/
def BGalaxy.withPot (b : BGalaxy F) (p : Nat → F) : BGalaxy F :=
  { b with
    hasPot := true
    stars := b.stars.mapIdx fun i a => { a with pot := p i }
    dm := b.dm.mapIdx fun i a => { a with pot := p (b.stars.length + i) }
    gas := b.gas.mapIdx fun i a => { a with pot := p (b.stars.length + b.dm.length + i) } }

/-- the softening of every particle -/
def BGalaxy.softs (b : BGalaxy F) : List F :=
  b.stars.map (fun _ => b.softS) ++ b.dm.map (fun _ => b.softDm) ++ b.gas.map (fun _ => b.softG)

theorem frameAll_ok (b : BGalaxy F) :
    (Galaxy.ofBodies b).toDataframe none none = .ok (tableOf (b.rows none) attrNames) := by
  rw [Galaxy.toDataframe_attrs_none]
  rw [Galaxy.toDataframe_ok b none _ someSelected_none (by decide) (by
    rintro ⟨_, h⟩
    have := h "x" (by simp [attrNames])
    cases hb : b.hasPot <;> simp [hb, scalarAttr] at this)]
  rw [distinct_of_nodup (by decide)]

theorem map_pot_mapIdx (l : List (Body F)) (p : Nat → F) :
    (l.mapIdx fun i a => { a with pot := p i }).map (·.pot) = (List.range l.length).map p := by
  apply List.ext_getElem?
  intro i
  by_cases h : i < l.length
  · simp [h]
  · simp [h]

theorem map_field_mapIdx {α : Type} (l : List (Body F)) (p : Nat → F) (f : Body F → α)
    (hf : ∀ a q, f { a with pot := q } = f a) :
    (l.mapIdx fun i a => { a with pot := p i }).map f = l.map f := by
  apply List.ext_getElem?
  intro i
  simp only [List.getElem?_map, List.getElem?_mapIdx]
  cases l[i]? <;> simp [hf]

theorem args_withPot (l : List (Body F)) (p : Nat → F) (s : F) :
    (⟨l.mapIdx fun i a => { a with pot := p i }, true, s⟩ : BSet F).args
      = { m := l.map (·.m), x := l.map (·.x), y := l.map (·.y), z := l.map (·.z),
          vx := l.map (·.vx), vy := l.map (·.vy), vz := l.map (·.vz),
          potential := some ((List.range l.length).map p), softening := s } := by
  simp only [BSet.args, map_pot_mapIdx, if_true]
  rw [map_field_mapIdx l p (·.m) (fun _ _ => rfl), map_field_mapIdx l p (·.x) (fun _ _ => rfl),
    map_field_mapIdx l p (·.y) (fun _ _ => rfl), map_field_mapIdx l p (·.z) (fun _ _ => rfl),
    map_field_mapIdx l p (·.vx) (fun _ _ => rfl), map_field_mapIdx l p (·.vy) (fun _ _ => rfl),
    map_field_mapIdx l p (·.vz) (fun _ _ => rfl)]

/-- rebuilding a galaxy after replacing the potentials -/
theorem mkgalaxyKw_potential (b : BGalaxy F) (p : Nat → F) :
    mkgalaxyKw (Dict.update (galaxyAsKwargs (Galaxy.ofBodies b)) [
      ("potential_s", .arr ((List.range b.stars.length).map p)),
      ("potential_dm", .arr ((List.range b.dm.length).map fun i => p (b.stars.length + i))),
      ("potential_g", .arr ((List.range b.gas.length).map fun i =>
        p (b.stars.length + b.dm.length + i)))])
    = .ok (Galaxy.ofBodies (b.withPot p)) := by
  rw [← mkgalaxy_ofBodies]
  rcases b with ⟨ls, ld, lg, hp, ss, sd, sg⟩
  simp only [BGalaxy.withPot, BGalaxy.sSet, BGalaxy.dmSet, BGalaxy.gSet]
  rw [args_withPot ls p ss, args_withPot ld (fun i => p (ls.length + i)) sd,
    args_withPot lg (fun i => p (ls.length + ld.length + i)) sg]
  cases hp <;>
  simp [mkgalaxyKw, galaxyAsKwargs, psetAsKwargs, Dict.update, Dict.set, Dict.keys, requiredParams,
    optionalParams, pargsOf, arrArg, optArrArg, numArg, KVal.ofOption, Dict.get?, Galaxy.ofBodies,
    ParticleSet.ofBodies, BGalaxy.sSet, BGalaxy.dmSet, BGalaxy.gSet]

theorem take_range_map {α : Type} (p : Nat → α) (a n : Nat) (h : a ≤ n) :
    ((List.range n).map p).take a = (List.range a).map p := by
  rw [← List.map_take, List.take_range, Nat.min_eq_left h]

theorem drop_range_map {α : Type} (p : Nat → α) (a n : Nat) :
    ((List.range n).map p).drop a = (List.range (n - a)).map fun i => p (a + i) := by
  apply List.ext_getElem?
  intro i
  rw [List.getElem?_drop, List.getElem?_map, List.getElem?_map]
  by_cases h : a + i < n
  · rw [List.getElem?_range h, List.getElem?_range (by omega)]; rfl
  · rw [List.getElem?_eq_none (by simp; omega), List.getElem?_eq_none (by simp; omega)]; rfl

/-- one element of the result of a backend, as stored in the galaxy -/
def backendPot (env : PotEnv F S) (backend : String) (l : List (Body F)) (softs : List F)
    (i : Nat) : F :=
  let x := l.map fun a => env.down a.x
  let y := l.map fun a => env.down a.y
  let z := l.map fun a => env.down a.z
  let m := l.map fun a => env.down a.m
  let soft := env.down (Pd.seriesMax softs)
  env.up (Num.neg
    ((if backend == "fortran" then fortranInner x y z m (Num.sq soft) i l.length
      else Num.sum ((List.range l.length).map fun j =>
        if !(numpyDist x y z soft i j ==. Num.ofRat 0) then
          m.getD j Num.nan /. numpyDist x y z soft i j else env.junk i j)) *. env.G))

/-- the backend can be used -/
def backendOk (env : PotEnv F S) (backend : String) : Prop :=
  (backend = "fortran" ∧ env.fortranBuilt = true) ∨ backend = "numpy"

theorem potential_has (env : PotEnv F S) (g : Galaxy F) (backend : String)
    (h : g.hasPotential = true) : potential env g backend = .error .valueError := by
  simp [potential, h]

theorem potential_ofBodies (env : PotEnv F S) (b : BGalaxy F) (backend : String)
    (hp : b.hasPot = false) (hb : backendOk env backend) :
    potential env (Galaxy.ofBodies b) backend
      = .ok (Galaxy.ofBodies (b.withPot (backendPot env backend b.all b.softs))) := by
  have hpg : (Galaxy.ofBodies b).hasPotential = false := hp
  unfold potential
  simp only [hpg, Bool.false_eq_true, if_false, frameAll_ok, Py.ok_bind]
  rw [tableOf_numCol _ _ "x" (by simp [attrNames]), tableOf_numCol _ _ "y" (by simp [attrNames]),
    tableOf_numCol _ _ "z" (by simp [attrNames]), tableOf_numCol _ _ "m" (by simp [attrNames]),
    tableOf_numCol _ _ "softening" (by simp [attrNames])]
  simp only [Py.ok_bind, cell_x, cell_y, cell_z, cell_m, cell_softening, toNum_num]
  rw [rows_none_map_body b (·.x), rows_none_map_body b (·.y), rows_none_map_body b (·.z),
    rows_none_map_body b (·.m)]
  have hs : (b.rows none).map (fun r => r.soft) = b.softs := by
    rw [rows_none_map]; rfl
  rw [hs]
  simp only [List.map_map, Function.comp_def]
  have hrun : runBackend env backend (b.all.map fun a => env.down a.x)
      (b.all.map fun a => env.down a.y) (b.all.map fun a => env.down a.z)
      (b.all.map fun a => env.down a.m) (env.down (seriesMax b.softs))
      = .ok ((List.range b.all.length).map fun i =>
        (if backend == "fortran" then fortranInner (b.all.map fun a => env.down a.x)
            (b.all.map fun a => env.down a.y) (b.all.map fun a => env.down a.z)
            (b.all.map fun a => env.down a.m) (Num.sq (env.down (Pd.seriesMax b.softs))) i
            b.all.length
          else Num.sum ((List.range b.all.length).map fun j =>
            if !(numpyDist (b.all.map fun a => env.down a.x)
              (b.all.map fun a => env.down a.y) (b.all.map fun a => env.down a.z)
              (env.down (Pd.seriesMax b.softs)) i j ==. Num.ofRat 0) then
              (b.all.map fun a => env.down a.m).getD j Num.nan /.
                numpyDist (b.all.map fun a => env.down a.x)
                  (b.all.map fun a => env.down a.y) (b.all.map fun a => env.down a.z)
                  (env.down (Pd.seriesMax b.softs)) i j else env.junk i j)) *. env.G) := by
    rcases hb with ⟨rfl, hf⟩ | rfl
    · simp [runBackend, fortranPotential, hf, fortranPe, Function.comp_def]
    · simp [runBackend, numpyPotential]
  rw [hrun]
  simp only [Py.ok_bind]
  have hlen : b.all.length = b.stars.length + b.dm.length + b.gas.length := by
    simp [BGalaxy.all, Nat.add_assoc]
  have h1 : (Galaxy.ofBodies b).stars.m.length = b.stars.length := by
    simp [Galaxy.ofBodies, ParticleSet.ofBodies, BGalaxy.sSet]
  have h2 : (Galaxy.ofBodies b).darkMatter.m.length = b.dm.length := by
    simp [Galaxy.ofBodies, ParticleSet.ofBodies, BGalaxy.dmSet]
  rw [h1, h2, take_range_map _ _ _ (by omega), drop_range_map, drop_range_map,
    take_range_map _ _ _ (by omega)]
  have e1 : b.stars.length + b.dm.length - b.stars.length = b.dm.length := by omega
  have e2 : b.all.length - (b.stars.length + b.dm.length) = b.gas.length := by omega
  rw [e1, e2]
  simp only [List.map_map]
  exact mkgalaxyKw_potential b (backendPot env backend b.all b.softs)

theorem potential_noFortran (env : PotEnv F S) (b : BGalaxy F) (hp : b.hasPot = false)
    (hf : env.fortranBuilt = false) :
    potential env (Galaxy.ofBodies b) "fortran" = .error .attributeError := by
  have hpg : (Galaxy.ofBodies b).hasPotential = false := hp
  unfold potential
  simp only [hpg, Bool.false_eq_true, if_false, frameAll_ok, Py.ok_bind]
  rw [tableOf_numCol _ _ "x" (by simp [attrNames]), tableOf_numCol _ _ "y" (by simp [attrNames]),
    tableOf_numCol _ _ "z" (by simp [attrNames]), tableOf_numCol _ _ "m" (by simp [attrNames]),
    tableOf_numCol _ _ "softening" (by simp [attrNames])]
  simp [runBackend, fortranPotential, hf]

theorem potential_keyError (env : PotEnv F S) (b : BGalaxy F) (backend : String)
    (hp : b.hasPot = false) (h1 : backend ≠ "fortran") (h2 : backend ≠ "numpy") :
    potential env (Galaxy.ofBodies b) backend = .error .keyError := by
  have hpg : (Galaxy.ofBodies b).hasPotential = false := hp
  unfold potential
  simp only [hpg, Bool.false_eq_true, if_false, frameAll_ok, Py.ok_bind]
  rw [tableOf_numCol _ _ "x" (by simp [attrNames]), tableOf_numCol _ _ "y" (by simp [attrNames]),
    tableOf_numCol _ _ "z" (by simp [attrNames]), tableOf_numCol _ _ "m" (by simp [attrNames]),
    tableOf_numCol _ _ "softening" (by simp [attrNames])]
  simp [runBackend, h1, h2]

theorem withPot_all_length (b : BGalaxy F) (p : Nat → F) :
    (b.withPot p).all.length = b.all.length := by
  simp [BGalaxy.withPot, BGalaxy.all]

theorem withPot_all (b : BGalaxy F) (p : Nat → F) :
    (b.withPot p).all = b.all.mapIdx fun i a => { a with pot := p i } := by
  simp only [BGalaxy.withPot, BGalaxy.all]
  rw [List.mapIdx_append, List.mapIdx_append]
  simp [Nat.add_comm]

end GChop
