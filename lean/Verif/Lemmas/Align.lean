import Verif.Align
import Verif.Lemmas.Center

/-!
# `star_align` and `is_star_aligned` on lists of particles
-/

set_option linter.unusedSectionVars false

namespace GChop
open Pd

variable {F : Type} [Num F]

/-- the particle is inside the cut radius -/
def Body.inside (rCut : Option F) (b : Body F) : Bool :=
  match rCut with
  | none => true
  | some c => Num.sqrt ((Num.sq b.x +. Num.sq b.y) +. Num.sq b.z) <. c

/-- mass-weighted total of a quantity over the stars inside the cut -/
def totalInside (rCut : Option F) (l : List (Body F)) (f : Body F → F) : F :=
  Num.sum ((l.filter (Body.inside rCut)).map f)

/-- rotate one particle -/
def Body.rot (A : Mat3 F) (b : Body F) : Body F :=
  { b with
    x := dot3 A.e1x A.e1y A.e1z b.x b.y b.z
    y := dot3 A.e2x A.e2y A.e2z b.x b.y b.z
    z := dot3 A.e3x A.e3y A.e3z b.x b.y b.z
    vx := dot3 A.e1x A.e1y A.e1z b.vx b.vy b.vz
    vy := dot3 A.e2x A.e2y A.e2z b.vx b.vy b.vz
    vz := dot3 A.e3x A.e3y A.e3z b.vx b.vy b.vz }

/-- the matrix `star_align` computes -/
def alignMatrix (rCut : Option F) (stars : List (Body F)) : Mat3 F :=
  rotFromJ (totalInside rCut stars fun b => b.m *. b.jx)
    (totalInside rCut stars fun b => b.m *. b.jy) (totalInside rCut stars fun b => b.m *. b.jz)

theorem zip3With_map {α β γ δ ε : Type} (f : α → β → γ → δ) (a : ε → α) (b : ε → β) (c : ε → γ)
    (l : List ε) :
    zip3With f (l.map a) (l.map b) (l.map c) = l.map fun e => f (a e) (b e) (c e) := by
  induction l with
  | nil => rfl
  | cons e l ih => simp [zip3With, ih]

theorem makeMask_map (l : List (Body F)) (rCut : Option F) :
    makeMask (l.map (·.x)) (l.map (·.y)) (l.map (·.z)) rCut = l.map (Body.inside rCut) := by
  unfold makeMask
  rw [zip3With_map]
  cases rCut with
  | none =>
    induction l with
    | nil => rfl
    | cons a l ih => simpa [List.replicate_succ, Body.inside] using ih
  | some c => simp [Body.inside, radius, Function.comp_def]

theorem select_map {α β : Type} (p : α → Bool) (f : α → β) (l : List α) :
    (((l.map p).zip (l.map f)).filter (·.1)).map (·.2) = (l.filter p).map f := by
  induction l with
  | nil => rfl
  | cons a l ih => cases h : p a <;> simp [h, ih]

theorem maskedTotal_map (l : List (Body F)) (p : Body F → Bool) (f g : Body F → F) :
    maskedTotal (l.map p) (l.map f) (l.map g) = Num.sum ((l.filter p).map fun b => f b *. g b) := by
  unfold maskedTotal
  rw [List.zipWith_map, List.zipWith_self, select_map]

theorem maskedTotal'_map (l : List (Body F)) (p : Body F → Bool) (f g : Body F → F) :
    maskedTotal' (l.map p) (l.map f) (l.map g)
      = Num.sum ((l.filter p).map fun b => g b *. f b) := by
  simp only [maskedTotal']
  rw [select_map, select_map, List.zipWith_map, List.zipWith_self]

theorem rows_map_body {α : Type} (t : PType) (s : BSet F) (f : Body F → α) :
    (s.rows t).map (fun r => f r.body) = s.bodies.map f := by
  simp [BSet.rows, Function.comp_def]

/-- the frames of one particle set the alignment functions ask for -/
theorem pset_frame (t : PType) (s : BSet F) (S : List String) (hx : "x" ∈ S)
    (hS : S.Nodup) (hall : ∀ a ∈ S, a ∈ attrNames) :
    ParticleSet.toDataframe (.ofBodies t s) (some S) = .ok (tableOf (s.rows t) S) := by
  rw [(ParticleSet.toDataframe_ofBodies t s S).2.2 hall (by
    rintro ⟨_, h⟩
    have := h "x" hx
    cases hb : s.hasPot <;> simp [hb, scalarAttr] at this)]
  rw [distinct_of_nodup hS]

theorem rotateFrame_table (A : Mat3 F) (t : PType) (s : BSet F) (S : List String)
    (h : ∀ a ∈ ["x", "y", "z", "vx", "vy", "vz"], a ∈ S) :
    rotateFrame A (tableOf (s.rows t) S)
      = .ok ((s.bodies.map fun b => (b.rot A).x, s.bodies.map fun b => (b.rot A).y,
          s.bodies.map fun b => (b.rot A).z),
        (s.bodies.map fun b => (b.rot A).vx, s.bodies.map fun b => (b.rot A).vy,
          s.bodies.map fun b => (b.rot A).vz)) := by
  unfold rotateFrame
  rw [tableOf_numCol _ _ "x" (h _ (by simp)), tableOf_numCol _ _ "y" (h _ (by simp)),
    tableOf_numCol _ _ "z" (h _ (by simp)), tableOf_numCol _ _ "vx" (h _ (by simp)),
    tableOf_numCol _ _ "vy" (h _ (by simp)), tableOf_numCol _ _ "vz" (h _ (by simp))]
  simp only [Py.ok_bind, Py.pure_eq, cell_x, cell_y, cell_z, cell_vx, cell_vy, cell_vz, toNum_num,
    rotateCols, zip3With_map]
  simp [BSet.rows, Function.comp_def, Body.rot]

/-- rebuilding a galaxy after replacing positions and velocities -/
theorem mkgalaxyKw_phase (b : BGalaxy F) (f : Body F → Body F)
    (hm : ∀ a, (f a).m = a.m) (hp : ∀ a, (f a).pot = a.pot) :
    mkgalaxyKw (Dict.update (galaxyAsKwargs (Galaxy.ofBodies b)) [
      ("x_s", .arr (b.stars.map fun a => (f a).x)), ("y_s", .arr (b.stars.map fun a => (f a).y)),
      ("z_s", .arr (b.stars.map fun a => (f a).z)), ("vx_s", .arr (b.stars.map fun a => (f a).vx)),
      ("vy_s", .arr (b.stars.map fun a => (f a).vy)), ("vz_s", .arr (b.stars.map fun a => (f a).vz)),
      ("x_dm", .arr (b.dm.map fun a => (f a).x)), ("y_dm", .arr (b.dm.map fun a => (f a).y)),
      ("z_dm", .arr (b.dm.map fun a => (f a).z)), ("vx_dm", .arr (b.dm.map fun a => (f a).vx)),
      ("vy_dm", .arr (b.dm.map fun a => (f a).vy)), ("vz_dm", .arr (b.dm.map fun a => (f a).vz)),
      ("x_g", .arr (b.gas.map fun a => (f a).x)), ("y_g", .arr (b.gas.map fun a => (f a).y)),
      ("z_g", .arr (b.gas.map fun a => (f a).z)), ("vx_g", .arr (b.gas.map fun a => (f a).vx)),
      ("vy_g", .arr (b.gas.map fun a => (f a).vy)), ("vz_g", .arr (b.gas.map fun a => (f a).vz))])
    = .ok (Galaxy.ofBodies (b.mapBodies f)) := by
  rw [← mkgalaxy_ofBodies]
  rcases b with ⟨ls, ld, lg, hp, ss, sd, sg⟩
  cases hp <;>
  simp [mkgalaxyKw, galaxyAsKwargs, psetAsKwargs, Dict.update, Dict.set, Dict.keys, requiredParams,
    optionalParams, pargsOf, arrArg, optArrArg, numArg, KVal.ofOption, Dict.get?, Galaxy.ofBodies,
    ParticleSet.ofBodies, BGalaxy.sSet, BGalaxy.dmSet, BGalaxy.gSet, BSet.args,
    BGalaxy.mapBodies, Function.comp_def, *]

theorem starAlign_bad (g : Galaxy F) (rCut : Option F) (h : badCut rCut = true) :
    starAlign g rCut = .error .valueError := by
  simp [starAlign, h]

theorem getRotMatrix_map (l : List (Body F)) (rCut : Option F) :
    getRotMatrix (l.map (·.m)) (l.map (·.x)) (l.map (·.y)) (l.map (·.z)) (l.map Body.jx)
      (l.map Body.jy) (l.map Body.jz) rCut = alignMatrix rCut l := by
  simp only [getRotMatrix, makeMask_map, maskedTotal_map, alignMatrix, totalInside]

theorem ofBodies_sets (b : BGalaxy F) : (Galaxy.ofBodies b).stars = .ofBodies .stars b.sSet ∧
    (Galaxy.ofBodies b).darkMatter = .ofBodies .darkMatter b.dmSet ∧
    (Galaxy.ofBodies b).gas = .ofBodies .gas b.gSet := ⟨rfl, rfl, rfl⟩

theorem sets_bodies (b : BGalaxy F) : b.sSet.bodies = b.stars ∧ b.dmSet.bodies = b.dm ∧
    b.gSet.bodies = b.gas := ⟨rfl, rfl, rfl⟩

/-- `star_align` rotates every particle by one matrix -/
theorem starAlign_ofBodies (b : BGalaxy F) (rCut : Option F) (h : badCut rCut = false) :
    starAlign (Galaxy.ofBodies b) rCut
      = .ok (Galaxy.ofBodies (b.mapBodies (Body.rot (alignMatrix rCut b.stars)))) := by
  unfold starAlign
  simp only [h, Bool.false_eq_true, if_false]
  rw [(ofBodies_sets b).1, (ofBodies_sets b).2.1, (ofBodies_sets b).2.2,
    pset_frame .stars b.sSet _ (by simp) (by decide) (by decide),
    pset_frame .darkMatter b.dmSet _ (by simp) (by decide) (by decide),
    pset_frame .gas b.gSet _ (by simp) (by decide) (by decide), Py.ok_bind, Py.ok_bind, Py.ok_bind]
  rw [tableOf_numCol _ _ "x" (by simp), tableOf_numCol _ _ "y" (by simp),
    tableOf_numCol _ _ "z" (by simp), tableOf_numCol _ _ "m" (by simp),
    tableOf_numCol _ _ "Jx" (by simp), tableOf_numCol _ _ "Jy" (by simp),
    tableOf_numCol _ _ "Jz" (by simp)]
  simp only [Py.ok_bind, cell_x, cell_y, cell_z, cell_m, cell_Jx, cell_Jy, cell_Jz, toNum_num]
  rw [rows_map_body .stars b.sSet (·.x), rows_map_body .stars b.sSet (·.y),
    rows_map_body .stars b.sSet (·.z), rows_map_body .stars b.sSet (·.m),
    rows_map_body .stars b.sSet Body.jx, rows_map_body .stars b.sSet Body.jy,
    rows_map_body .stars b.sSet Body.jz, getRotMatrix_map, (sets_bodies b).1]
  generalize alignMatrix rCut b.stars = A
  rw [rotateFrame_table _ _ _ _ (by simp), rotateFrame_table _ _ _ _ (by simp),
    rotateFrame_table _ _ _ _ (by simp)]
  simp only [Py.ok_bind]
  rw [(sets_bodies b).1, (sets_bodies b).2.1, (sets_bodies b).2.2]
  exact mkgalaxyKw_phase b (Body.rot A) (fun _ => rfl) (fun _ => rfl)

theorem isStarAligned_ofBodies (b : BGalaxy F) (rCut : Option F) (rtol atol : F) :
    isStarAligned (Galaxy.ofBodies b) rCut rtol atol
      = .ok (Np.isclose rtol atol (totalInside rCut b.stars fun a => a.jz *. a.m)
          (Num.sqrt ((Num.sq (totalInside rCut b.stars fun a => a.jx *. a.m) +.
            Num.sq (totalInside rCut b.stars fun a => a.jy *. a.m)) +.
            Num.sq (totalInside rCut b.stars fun a => a.jz *. a.m)))) := by
  unfold isStarAligned
  simp only [Galaxy.ofBodies]
  rw [pset_frame .stars b.sSet _ (by simp) (by decide) (by decide), Py.ok_bind]
  rw [tableOf_numCol _ _ "x" (by simp), tableOf_numCol _ _ "y" (by simp),
    tableOf_numCol _ _ "z" (by simp), tableOf_numCol _ _ "m" (by simp),
    tableOf_numCol _ _ "Jx" (by simp), tableOf_numCol _ _ "Jy" (by simp),
    tableOf_numCol _ _ "Jz" (by simp)]
  simp only [Py.ok_bind, Py.pure_eq, cell_x, cell_y, cell_z, cell_m, cell_Jx, cell_Jy, cell_Jz,
    toNum_num]
  rw [rows_map_body .stars b.sSet (·.x), rows_map_body .stars b.sSet (·.y),
    rows_map_body .stars b.sSet (·.z), rows_map_body .stars b.sSet (·.m),
    rows_map_body .stars b.sSet Body.jx, rows_map_body .stars b.sSet Body.jy,
    rows_map_body .stars b.sSet Body.jz]
  simp only [makeMask_map, maskedTotal'_map]
  rfl

end GChop
