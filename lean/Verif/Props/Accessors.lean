import Verif.Props.Data

/-!
# Galaxy accessors (C62)
-/

namespace GChop

variable {F : Type} [Num F]

/-- the entry of a `(stars, dark matter, gas)` triple that belongs to a type -/
def PType.pick {α : Type} : PType → α × α × α → α
  | .stars, p => p.1
  | .darkMatter, p => p.2.1
  | .gas, p => p.2.2

omit [Num F] in
theorem rows_one (b : BGalaxy F) (t : PType) :
    b.rows (some [t.humanize]) = (t.pick (b.sSet, b.dmSet, b.gSet)).rows t := by
  cases t <;> simp [BGalaxy.rows, BGalaxy.selected, PType.humanize, PType.pick]

/-- C62: for every type, the accessors return, particle by particle, the columns that
`to_dataframe` has for that type.  Without potentials two of them return `None` and the table has
NaN. -/
theorem C62_table (g : Galaxy F) (hg : g.Valid) (t : PType) :
    ∃ df, g.toDataframe (some [t.humanize]) none = .ok df ∧
      df.col "kinetic_energy" = .ok ((t.pick g.kineticEnergy).map .num) ∧
      (∃ jx jy jz, t.pick g.angularMomentum = [jx, jy, jz] ∧ df.col "Jx" = .ok (jx.map .num) ∧
        df.col "Jy" = .ok (jy.map .num) ∧ df.col "Jz" = .ok (jz.map .num)) ∧
      (g.hasPotential = true → ∃ p e ps es, g.potentialEnergy = some p ∧ t.pick p = some ps ∧
        df.col "potential" = .ok (ps.map .num) ∧
        g.totalEnergy = some e ∧ t.pick e = some es ∧ df.col "total_energy" = .ok (es.map .num)) ∧
      (g.hasPotential = false → g.potentialEnergy = none ∧ g.totalEnergy = none ∧
        df.col "potential" = .ok (List.replicate df.nrows (.num Num.nan)) ∧
        df.col "total_energy" = .ok (List.replicate df.nrows (.num Num.nan))) := by
  obtain ⟨b, rfl⟩ := Galaxy.valid_iff.1 hg
  have hsel : BGalaxy.someSelected (some [t.humanize]) = true := by
    cases t <;> decide
  have hns : ¬ allScalar b.hasPot attrNames := by
    rintro ⟨_, h⟩
    have := h "m" (by decide)
    simp [scalarAttr] at this
  have hd : distinct attrNames = attrNames := by decide
  have hdf := Galaxy.toDataframe_ok b (some [t.humanize]) attrNames hsel (fun a ha => ha) hns
  rw [hd, rows_one] at hdf
  have hpot : (t.pick (b.sSet, b.dmSet, b.gSet)).hasPot = b.hasPot := by cases t <;> rfl
  generalize hS : t.pick (b.sSet, b.dmSet, b.gSet) = S at hdf hpot
  refine ⟨_, (Galaxy.toDataframe_attrs_none b _).trans hdf, ?_, ?_, ?_, ?_⟩
  · rw [tableOf_col _ _ _ (by decide)]
    have : t.pick (Galaxy.ofBodies b).kineticEnergy = S.bodies.map Body.kinetic := by
      rw [← hS]; cases t <;> rfl
    rw [this, BSet.rows, List.map_map, List.map_map]
    rfl
  · have : t.pick (Galaxy.ofBodies b).angularMomentum
        = [S.bodies.map Body.jx, S.bodies.map Body.jy, S.bodies.map Body.jz] := by
      rw [← hS]; cases t <;> rfl
    refine ⟨_, _, _, this, ?_⟩
    rw [tableOf_col _ _ _ (by decide), tableOf_col _ _ _ (by decide),
      tableOf_col _ _ _ (by decide), BSet.rows, List.map_map, List.map_map, List.map_map,
      List.map_map, List.map_map, List.map_map]
    exact ⟨rfl, rfl, rfl⟩
  · intro hp
    have hp : b.hasPot = true := hp
    have h1 : ∃ p, (Galaxy.ofBodies b).potentialEnergy = some p ∧
        t.pick p = some (S.bodies.map (·.pot)) := by
      refine ⟨_, if_pos hp, ?_⟩
      rw [← hS]; cases t <;> exact if_pos hp
    have h2 : ∃ p, (Galaxy.ofBodies b).totalEnergy = some p ∧
        t.pick p = some (S.bodies.map Body.energy) := by
      refine ⟨_, if_pos hp, ?_⟩
      rw [← hS]; cases t <;> exact if_pos hp
    obtain ⟨p, h1, h1'⟩ := h1
    obtain ⟨e, h2, h2'⟩ := h2
    refine ⟨p, e, _, _, h1, h1', ?_, h2, h2', ?_⟩
    · rw [tableOf_col _ _ _ (by decide), BSet.rows, List.map_map, List.map_map, hpot, hp]
      rfl
    · rw [tableOf_col _ _ _ (by decide), BSet.rows, List.map_map, List.map_map, hpot, hp]
      rfl
  · intro hp
    have hp : b.hasPot = false := hp
    have hn : (tableOf (S.rows t) attrNames).nrows = S.bodies.length := by
      unfold tableOf
      rw [if_neg (by decide)]
      exact List.length_map _
    refine ⟨if_neg (by rw [show (Galaxy.ofBodies b).hasPotential = false from hp]; simp),
      if_neg (by rw [show (Galaxy.ofBodies b).hasPotential = false from hp]; simp), ?_, ?_⟩
    · rw [hn, tableOf_col _ _ _ (by decide), BSet.rows, List.map_map, hpot, hp, ← List.map_const']
      rfl
    · rw [hn, tableOf_col _ _ _ (by decide), BSet.rows, List.map_map, hpot, hp, ← List.map_const']
      rfl

/-- C62: the accessors in terms of the arguments of the constructors: entry `i` of each array is the
formula applied to entry `i` of the inputs. -/
theorem C62_formulas {s d g : PArgs F} {S D G : ParticleSet F} {gal : Galaxy F}
    (hs : ParticleSet.new .stars s = .ok S) (hd : ParticleSet.new .darkMatter d = .ok D)
    (hg : ParticleSet.new .gas g = .ok G) (h : Galaxy.new S D G = .ok gal) (t : PType) (i : Nat)
    (hi : i < (t.pick (s, d, g)).m.length) :
    ∃ x y z vx vy vz, (t.pick (s, d, g)).x[i]? = some x ∧ (t.pick (s, d, g)).y[i]? = some y ∧
      (t.pick (s, d, g)).z[i]? = some z ∧ (t.pick (s, d, g)).vx[i]? = some vx ∧
      (t.pick (s, d, g)).vy[i]? = some vy ∧ (t.pick (s, d, g)).vz[i]? = some vz ∧
      (t.pick gal.kineticEnergy)[i]?
        = some (Num.ofRat (1/2) *. ((vx *. vx +. vy *. vy) +. vz *. vz)) ∧
      (t.pick gal.angularMomentum).map (·[i]?)
        = [some (y *. vz -. z *. vy), some (z *. vx -. x *. vz), some (x *. vy -. y *. vx)] := by
  have e : gal.stars = S ∧ gal.darkMatter = D ∧ gal.gas = G := by
    unfold Galaxy.new at h
    cases h1 : Galaxy.hasPotentialDefault S D G with
    | error e => rw [h1] at h; cases h
    | ok hp =>
      cases h2 : Galaxy.checkTypes S D G with
      | error e => rw [h1, Py.ok_bind, h2] at h; cases h
      | ok u =>
        rw [h1, Py.ok_bind, h2, Py.ok_bind] at h
        cases h
        exact ⟨rfl, rfl, rfl⟩
  obtain ⟨rfl, rfl, rfl⟩ := e
  cases t
  · obtain ⟨_, _, _, _, hall, _⟩ := C02_derived_kinematics hs
    obtain ⟨x, y, z, vx, vy, vz, h1, h2, h3, h4, h5, h6, h7, h8, h9, h10, _⟩ := hall i hi
    exact ⟨x, y, z, vx, vy, vz, h1, h2, h3, h4, h5, h6, h7, by
      simp [PType.pick, Galaxy.angularMomentum, h8, h9, h10]⟩
  · obtain ⟨_, _, _, _, hall, _⟩ := C02_derived_kinematics hd
    obtain ⟨x, y, z, vx, vy, vz, h1, h2, h3, h4, h5, h6, h7, h8, h9, h10, _⟩ := hall i hi
    exact ⟨x, y, z, vx, vy, vz, h1, h2, h3, h4, h5, h6, h7, by
      simp [PType.pick, Galaxy.angularMomentum, h8, h9, h10]⟩
  · obtain ⟨_, _, _, _, hall, _⟩ := C02_derived_kinematics hg
    obtain ⟨x, y, z, vx, vy, vz, h1, h2, h3, h4, h5, h6, h7, h8, h9, h10, _⟩ := hall i hi
    exact ⟨x, y, z, vx, vy, vz, h1, h2, h3, h4, h5, h6, h7, by
      simp [PType.pick, Galaxy.angularMomentum, h8, h9, h10]⟩

/-- the accessors of the example galaxy, stars first -/
example : (Galaxy.ofBodies exBG).kineticEnergy.1 ≠ [] := by decide +kernel

end GChop
