import Verif.Center
import Verif.Lemmas.Frame
import Verif.Lemmas.Order

/-!
# `center` and `is_centered` on lists of particles
-/

set_option linter.unusedSectionVars false

namespace GChop
open Pd

variable {F : Type} [Num F]

/-! ### columns of the full table -/

theorem rows_none_map {α : Type} (b : BGalaxy F) (f : Row F → α) :
    (b.rows none).map f =
      b.stars.map (fun x => f ⟨.stars, b.softS, b.hasPot, x⟩) ++
      b.dm.map (fun x => f ⟨.darkMatter, b.softDm, b.hasPot, x⟩) ++
      b.gas.map (fun x => f ⟨.gas, b.softG, b.hasPot, x⟩) := by
  simp [BGalaxy.rows, BGalaxy.selected, BSet.rows, BGalaxy.sSet, BGalaxy.dmSet, BGalaxy.gSet,
    Function.comp_def]

theorem rows_none_map_body {α : Type} (b : BGalaxy F) (f : Body F → α) :
    (b.rows none).map (fun r => f r.body) = b.all.map f := by
  rw [rows_none_map]; simp [BGalaxy.all]

theorem rows_none_hasPot (b : BGalaxy F) : ∀ r ∈ b.rows none, r.hasPot = b.hasPot := by
  intro r hr
  simp only [BGalaxy.rows, BGalaxy.selected, if_true, BSet.rows, List.mem_append, List.mem_map] at hr
  rcases hr with (⟨_, _, rfl⟩ | ⟨_, _, rfl⟩) | ⟨_, _, rfl⟩ <;> rfl

theorem rows_none_length (b : BGalaxy F) : (b.rows none).length = b.all.length := by
  have := congrArg List.length (rows_none_map_body b id)
  simpa using this

theorem rows_none_getElem? (b : BGalaxy F) (i : Nat) :
    ((b.rows none)[i]?).map (·.body) = b.all[i]? := by
  have := congrArg (·[i]?) (rows_none_map_body b id)
  simpa using this

theorem tableOf_numCol (rs : List (Row F)) (S : List String) (a : String) (h : a ∈ S) :
    (tableOf rs S).numCol a = .ok (rs.map fun r => (r.cell a).toNum) := by
  unfold DF.numCol
  rw [tableOf_col rs S a h]
  simp [Function.comp_def]

@[simp] theorem cell_ptypev (r : Row F) : r.cell "ptypev" = .int r.t.value := by
  simp [Row.cell, attrTable]
@[simp] theorem cell_m (r : Row F) : r.cell "m" = .num r.body.m := by
  simp [Row.cell, attrTable]
@[simp] theorem cell_x (r : Row F) : r.cell "x" = .num r.body.x := by
  simp [Row.cell, attrTable]
@[simp] theorem cell_y (r : Row F) : r.cell "y" = .num r.body.y := by
  simp [Row.cell, attrTable]
@[simp] theorem cell_z (r : Row F) : r.cell "z" = .num r.body.z := by
  simp [Row.cell, attrTable]
@[simp] theorem cell_vx (r : Row F) : r.cell "vx" = .num r.body.vx := by
  simp [Row.cell, attrTable]
@[simp] theorem cell_vy (r : Row F) : r.cell "vy" = .num r.body.vy := by
  simp [Row.cell, attrTable]
@[simp] theorem cell_vz (r : Row F) : r.cell "vz" = .num r.body.vz := by
  simp [Row.cell, attrTable]
@[simp] theorem cell_softening (r : Row F) : r.cell "softening" = .num r.soft := by
  simp [Row.cell, attrTable]
@[simp] theorem cell_potential (r : Row F) :
    r.cell "potential" = if r.hasPot then .num r.body.pot else .num Num.nan := by
  simp [Row.cell, attrTable]
@[simp] theorem cell_total (r : Row F) :
    r.cell "total_energy" = if r.hasPot then .num r.body.energy else .num Num.nan := by
  simp [Row.cell, attrTable]
@[simp] theorem cell_Jx (r : Row F) : r.cell "Jx" = .num r.body.jx := by
  simp [Row.cell, attrTable]
@[simp] theorem cell_Jy (r : Row F) : r.cell "Jy" = .num r.body.jy := by
  simp [Row.cell, attrTable]
@[simp] theorem cell_Jz (r : Row F) : r.cell "Jz" = .num r.body.jz := by
  simp [Row.cell, attrTable]
@[simp] theorem toNum_num (x : F) : (Cell.num x).toNum = x := rfl

theorem rows_potential (b : BGalaxy F) (hp : b.hasPot = true) :
    (b.rows none).map (fun r => (r.cell "potential").toNum) = b.all.map (·.pot) := by
  rw [← rows_none_map_body]
  apply List.map_congr_left
  intro r hr
  simp [rows_none_hasPot b r hr, hp]

/-! ### the particle chosen by `argmin` -/

/-- the position that `iloc[argmin]` refers to -/
def lowIdx (pots : List F) : Nat :=
  if pots.all Num.isNaN then pots.length - 1
  else match Np.argmin (pots.map fun a => if Num.isNaN a then Num.pinf else a) with
    | .ok i => i
    | .error _ => 0

theorem seriesArgmin_nil : seriesArgmin ([] : List F) = .error .valueError := rfl

theorem seriesArgmin_lowIdx {pots : List F} (h : pots ≠ []) :
    ∃ k : Int, seriesArgmin pots = .ok k ∧
      (if k < 0 then k + (pots.length : Int) else k) = (lowIdx pots : Int) ∧
      lowIdx pots < pots.length := by
  have hlen : 0 < pots.length := List.length_pos_of_ne_nil h
  cases hm : Np.argmin (pots.map fun a => if Num.isNaN a then Num.pinf else a) with
  | error e =>
    cases pots with
    | nil => exact absurd rfl h
    | cons a l => cases hm
  | ok i =>
    have hi := argmin_lt hm
    rw [List.length_map] at hi
    refine ⟨if pots.all Num.isNaN then -1 else (i : Int), ?_, ?_, ?_⟩
    · simp [seriesArgmin, hm]
    · unfold lowIdx
      by_cases ha : pots.all Num.isNaN = true
      · simp only [ha, if_true]
        have : (-1 : Int) < 0 := by decide
        simp only [this, if_true]
        omega
      · simp only [ha, Bool.false_eq_true, if_false, hm]
        have : ¬ ((i : Int) < 0) := by omega
        simp [this]
    · unfold lowIdx
      by_cases ha : pots.all Num.isNaN = true
      · simp only [ha, if_true]; omega
      · simp only [ha, Bool.false_eq_true, if_false, hm]; exact hi

/-- the value chosen is a first minimum of the non-NaN values -/
theorem lowIdx_spec [NumOrd F] {pots : List F} {p0 : F} (h0 : p0 ∈ pots)
    (hlt : (p0 <. Num.pinf) = true) :
    ∃ p, pots[lowIdx pots]? = some p ∧ Num.isNaN p = false ∧
      ∀ j y, pots[j]? = some y → Num.isNaN y = false →
        (p <=. y) = true ∧ (j < lowIdx pots → (p <. y) = true) := by
  have hn0 := (not_nan_of_lt hlt).1
  have hpinf := (not_nan_of_lt hlt).2
  have hne : pots ≠ [] := List.ne_nil_of_mem h0
  have ha : ¬ pots.all Num.isNaN = true := by
    intro h
    rw [List.all_eq_true] at h
    rw [h p0 h0] at hn0; cases hn0
  have hkey : ∀ a ∈ pots.map (fun a => if Num.isNaN a then Num.pinf else a),
      Num.isNaN a = false := by
    intro a ha
    rw [List.mem_map] at ha
    obtain ⟨c, _, rfl⟩ := ha
    cases hc : Num.isNaN c with
    | true => simpa using hpinf
    | false => simpa using hc
  obtain ⟨i, x, hi, hx, hall⟩ := argmin_spec hkey (by simpa using hne)
  have hlow : lowIdx pots = i := by
    unfold lowIdx
    simp only [ha, Bool.false_eq_true, if_false, hi]
  rw [hlow]
  rw [List.getElem?_map] at hx
  cases hp : pots[i]? with
  | none => rw [hp] at hx; cases hx
  | some p =>
    rw [hp] at hx
    simp only [Option.map_some, Option.some.injEq] at hx
    have hall' : ∀ j y, pots[j]? = some y → Num.isNaN y = false →
        (x <=. y) = true ∧ (j < i → (x <. y) = true) := by
      intro j y hj hy
      apply hall j y
      rw [List.getElem?_map, hj]
      simp [hy]
    have hnp : Num.isNaN p = false := by
      cases hc : Num.isNaN p with
      | false => rfl
      | true =>
        rw [hc] at hx
        simp only [if_true] at hx
        subst hx
        obtain ⟨j, hj⟩ := List.mem_iff_getElem?.1 h0
        have h1 := (hall' j p0 hj hn0).1
        rw [(lt_iff.1 hlt).2] at h1
        cases h1
    rw [hnp] at hx
    simp only [Bool.false_eq_true, if_false] at hx
    subst hx
    exact ⟨_, rfl, hnp, hall'⟩

/-! ### refinement -/

/-- subtract a vector from the position of a particle -/
def Body.shift (b : Body F) (cx cy cz : F) : Body F :=
  { b with x := b.x -. cx, y := b.y -. cy, z := b.z -. cz }

theorem iloc_tableOf (rs : List (Row F)) (S : List String) (hS : S ≠ []) (k : Int) (i : Nat)
    (r : Row F) (hk : (if k < 0 then k + (rs.length : Int) else k) = (i : Int))
    (hr : rs[i]? = some r) :
    (tableOf rs S).iloc k = .ok (S.map fun a => (a, r.cell a)) := by
  have hi : i < rs.length := by
    by_contra hn
    rw [List.getElem?_eq_none (not_lt.1 hn)] at hr; cases hr
  unfold DF.iloc
  simp only [tableOf, hS, if_false, hk]
  have h1 : (0 : Int) ≤ (i : Int) ∧ (i : Int) < (rs.length : Int) := by omega
  simp only [h1, and_self, if_true]
  congr 1
  rw [List.filterMap_map]
  have : ((fun kv : String × List (Cell F) =>
      Option.map (fun c => (kv.1, c)) kv.2[(i : Int).toNat]?) ∘
      fun a => (a, rs.map fun r => r.cell a)) = fun a => some (a, r.cell a) := by
    funext a
    simp [hr]
  rw [this]
  simp

theorem getItem_map (S : List String) (f : String → Cell F) (a : String) (h : a ∈ S) :
    Dict.getItem (S.map fun a => (a, f a)) a = .ok (f a) := by
  unfold Dict.getItem
  rw [Dict.get?_map]
  simp [h]

theorem ofType_rows (rs : List (Row F)) (f : Row F → F) (t : PType) :
    ofType (rs.map fun r => (Cell.int r.t.value : Cell F)) (rs.map f) t
      = (rs.filter fun r => decide (r.t = t)).map f := by
  unfold ofType
  rw [List.zip_map', List.filter_map, List.map_map]
  congr 1
  apply List.filter_congr
  intro r _
  cases r with
  | mk t' _ _ _ => cases t <;> cases t' <;> simp [isType, PType.value]

theorem filter_rows (b : BGalaxy F) (f : Row F → F) (t : PType) :
    ((b.rows none).filter fun r => decide (r.t = t)).map f =
      match t with
      | .stars => b.stars.map fun x => f ⟨.stars, b.softS, b.hasPot, x⟩
      | .darkMatter => b.dm.map fun x => f ⟨.darkMatter, b.softDm, b.hasPot, x⟩
      | .gas => b.gas.map fun x => f ⟨.gas, b.softG, b.hasPot, x⟩ := by
  cases t <;>
  simp [BGalaxy.rows, BGalaxy.selected, BSet.rows, BGalaxy.sSet, BGalaxy.dmSet, BGalaxy.gSet,
    List.filter_map, Function.comp_def]

/-- rebuilding a galaxy after replacing the positions -/
theorem mkgalaxyKw_positions (b : BGalaxy F) (fx fy fz : Body F → F) :
    mkgalaxyKw (Dict.update (galaxyAsKwargs (Galaxy.ofBodies b)) [
      ("x_s", .arr (b.stars.map fx)), ("y_s", .arr (b.stars.map fy)),
      ("z_s", .arr (b.stars.map fz)),
      ("x_dm", .arr (b.dm.map fx)), ("y_dm", .arr (b.dm.map fy)), ("z_dm", .arr (b.dm.map fz)),
      ("x_g", .arr (b.gas.map fx)), ("y_g", .arr (b.gas.map fy)), ("z_g", .arr (b.gas.map fz))])
    = .ok (Galaxy.ofBodies (b.mapBodies fun a => { a with x := fx a, y := fy a, z := fz a })) := by
  rw [← mkgalaxy_ofBodies]
  rcases b with ⟨ls, ld, lg, hp, ss, sd, sg⟩
  cases hp <;>
  simp [mkgalaxyKw, galaxyAsKwargs, psetAsKwargs, Dict.update, Dict.set, Dict.keys, requiredParams,
    optionalParams, pargsOf, arrArg, optArrArg, numArg, KVal.ofOption, Dict.get?, Galaxy.ofBodies,
    ParticleSet.ofBodies, BGalaxy.sSet, BGalaxy.dmSet, BGalaxy.gSet, BSet.args,
    BGalaxy.mapBodies, Function.comp_def]

theorem someSelected_none : BGalaxy.someSelected none = true := rfl

theorem frame5_ok (b : BGalaxy F) :
    (Galaxy.ofBodies b).toDataframe none (some ["ptypev", "x", "y", "z", "potential"])
      = .ok (tableOf (b.rows none) ["ptypev", "x", "y", "z", "potential"]) := by
  rw [Galaxy.toDataframe_ok b none _ someSelected_none (by decide) (by
    rintro ⟨_, h⟩
    have := h "x" (by simp)
    cases hb : b.hasPot <;> simp [hb, scalarAttr] at this)]
  rw [distinct_of_nodup (by decide)]

theorem frame4_ok (b : BGalaxy F) :
    (Galaxy.ofBodies b).toDataframe none (some ["x", "y", "z", "potential"])
      = .ok (tableOf (b.rows none) ["x", "y", "z", "potential"]) := by
  rw [Galaxy.toDataframe_ok b none _ someSelected_none (by decide) (by
    rintro ⟨_, h⟩
    have := h "x" (by simp)
    cases hb : b.hasPot <;> simp [hb, scalarAttr] at this)]
  rw [distinct_of_nodup (by decide)]

/-- the particle chosen in a non-empty galaxy -/
theorem exists_low (b : BGalaxy F) (hne : b.all ≠ []) :
    ∃ k r, seriesArgmin (b.all.map (·.pot)) = .ok k ∧
      (if k < 0 then k + ((b.rows none).length : Int) else k)
        = (lowIdx (b.all.map (·.pot)) : Int) ∧
      (b.rows none)[lowIdx (b.all.map (·.pot))]? = some r ∧
      b.all[lowIdx (b.all.map (·.pot))]? = some r.body := by
  obtain ⟨k, h1, h2, h3⟩ := seriesArgmin_lowIdx (pots := b.all.map (·.pot)) (by simpa using hne)
  rw [List.length_map] at h2 h3
  have hlt : lowIdx (b.all.map (·.pot)) < (b.rows none).length := by rw [rows_none_length]; exact h3
  refine ⟨k, (b.rows none)[lowIdx (b.all.map (·.pot))], h1, ?_, List.getElem?_eq_getElem hlt, ?_⟩
  · rw [rows_none_length]; exact h2
  · rw [← rows_none_getElem?, List.getElem?_eq_getElem hlt]; rfl

theorem center_ofBodies (b : BGalaxy F) (hp : b.hasPot = true) (c : Body F)
    (hc : b.all[lowIdx (b.all.map (·.pot))]? = some c) :
    center (Galaxy.ofBodies b) = .ok (Galaxy.ofBodies (b.mapBodies (·.shift c.x c.y c.z))) := by
  have hne : b.all ≠ [] := by
    intro h; rw [h] at hc; cases hc
  obtain ⟨k, r, h1, h2, h3, h4⟩ := exists_low b hne
  have hrc : r.body = c := by rw [h4] at hc; exact Option.some.inj hc
  have hpg : (Galaxy.ofBodies b).hasPotential = true := hp
  unfold center
  simp only [hpg, Bool.not_true, Bool.false_eq_true, if_false, frame5_ok, Py.ok_bind]
  rw [tableOf_numCol _ _ "potential" (by simp), rows_potential b hp]
  simp only [Py.ok_bind, h1]
  rw [iloc_tableOf _ _ (by simp) k _ r h2 h3]
  simp only [Py.ok_bind, subColumn]
  rw [tableOf_numCol _ _ "x" (by simp), tableOf_numCol _ _ "y" (by simp),
    tableOf_numCol _ _ "z" (by simp), getItem_map _ _ "x" (by simp), getItem_map _ _ "y" (by simp),
    getItem_map _ _ "z" (by simp), tableOf_col _ _ "ptypev" (by simp)]
  simp only [Py.ok_bind, Py.pure_eq, cell_x, cell_y, cell_z, cell_ptypev, toNum_num, List.map_map,
    Function.comp_def, ofType_rows, filter_rows, hrc]
  exact mkgalaxyKw_positions b (fun a => a.x -. c.x) (fun a => a.y -. c.y) (fun a => a.z -. c.z)

theorem center_empty (b : BGalaxy F) (hp : b.hasPot = true) (hne : b.all = []) :
    center (Galaxy.ofBodies b) = .error .valueError := by
  have hpg : (Galaxy.ofBodies b).hasPotential = true := hp
  unfold center
  simp only [hpg, Bool.not_true, Bool.false_eq_true, if_false, frame5_ok, Py.ok_bind]
  rw [tableOf_numCol _ _ "potential" (by simp), rows_potential b hp, hne]
  rfl

theorem isCentered_ofBodies (b : BGalaxy F) (hp : b.hasPot = true) (rtol atol : F) (c : Body F)
    (hc : b.all[lowIdx (b.all.map (·.pot))]? = some c) :
    isCentered (Galaxy.ofBodies b) rtol atol
      = .ok ([c.x, c.y, c.z].all fun a => Np.isclose rtol atol a (Num.ofRat 0)) := by
  have hne : b.all ≠ [] := by
    intro h; rw [h] at hc; cases hc
  obtain ⟨k, r, h1, h2, h3, h4⟩ := exists_low b hne
  have hrc : r.body = c := by rw [h4] at hc; exact Option.some.inj hc
  have hpg : (Galaxy.ofBodies b).hasPotential = true := hp
  unfold isCentered
  simp only [hpg, Bool.not_true, Bool.false_eq_true, if_false, frame4_ok, Py.ok_bind]
  rw [tableOf_numCol _ _ "potential" (by simp), rows_potential b hp]
  simp only [Py.ok_bind, h1]
  rw [iloc_tableOf _ _ (by simp) k _ r h2 h3]
  simp only [Py.ok_bind]
  rw [getItem_map _ _ "x" (by simp), getItem_map _ _ "y" (by simp),
    getItem_map _ _ "z" (by simp)]
  simp [hrc]

theorem isCentered_empty (b : BGalaxy F) (hp : b.hasPot = true) (rtol atol : F)
    (hne : b.all = []) : isCentered (Galaxy.ofBodies b) rtol atol = .error .valueError := by
  have hpg : (Galaxy.ofBodies b).hasPotential = true := hp
  unfold isCentered
  simp only [hpg, Bool.not_true, Bool.false_eq_true, if_false, frame4_ok, Py.ok_bind]
  rw [tableOf_numCol _ _ "potential" (by simp), rows_potential b hp, hne]
  rfl

theorem mapBodies_all (b : BGalaxy F) (f : Body F → Body F) :
    (b.mapBodies f).all = b.all.map f := by
  simp [BGalaxy.mapBodies, BGalaxy.all]

end GChop
