import Verif.Lemmas.Frame
import Verif.Ext

/-!
# C01–C07: `data.py`
-/

set_option linter.unusedSectionVars false

namespace GChop
open Pd

variable {F : Type} [Num F]

/-- finite rational literal, for the concrete cases below -/
abbrev q (r : ℚ) : Ext ℚ := .fin r

/-! ## C01 equal-length columns -/

/-- every column handed to the constructor, the potential included when given -/
def PArgs.columns (a : PArgs F) : List (List F) :=
  [a.m, a.x, a.y, a.z, a.vx, a.vy, a.vz] ++ a.potential.toList

/-- all columns have one common length -/
def PArgs.EqualLengths (a : PArgs F) : Prop := ∃ n, ∀ c ∈ a.columns, c.length = n

theorem PArgs.equalLengths_iff {a : PArgs F} : a.EqualLengths ↔ a.SameLen := by
  constructor
  · rintro ⟨n, h⟩
    have hm : a.m.length = n := h a.m (by simp [PArgs.columns])
    unfold PArgs.SameLen
    rw [hm]
    refine ⟨?_, ?_, ?_, ?_, ?_, ?_, ?_⟩
    all_goals first
      | exact h _ (by simp [PArgs.columns])
      | exact fun pot hp => h pot (by simp [PArgs.columns, hp])
  · rintro ⟨h1, h2, h3, h4, h5, h6, h7⟩
    refine ⟨a.m.length, ?_⟩
    intro c hc
    simp only [PArgs.columns, List.mem_append, List.mem_cons, List.not_mem_nil, or_false,
      Option.mem_toList] at hc
    rcases hc with (rfl | rfl | rfl | rfl | rfl | rfl | rfl) | hc
    all_goals first | assumption | rfl | exact h7 c hc

/-- C01: the constructor succeeds exactly on columns of one common length, and every other
combination of lengths is a `ValueError` (length-1 columns, which numpy broadcasts, included). -/
theorem C01_particleSet_accepts_iff (t : PType) (a : PArgs F) :
    ((∃ p, ParticleSet.new t a = .ok p) ↔ a.EqualLengths) ∧
    (¬ a.EqualLengths → ParticleSet.new t a = .error .valueError) := by
  have h1 : (∃ p, ParticleSet.new t a = .ok p) ↔ a.EqualLengths := by
    rw [PArgs.equalLengths_iff]
    constructor
    · rintro ⟨p, h⟩; exact ParticleSet.sameLen_of_new h
    · intro h
      rw [h.args_rows]
      exact ⟨_, ParticleSet.new_args t _⟩
  refine ⟨h1, fun hn => ?_⟩
  cases hc : ParticleSet.new t a with
  | ok p => exact absurd (h1.1 ⟨p, hc⟩) hn
  | error e => rw [ParticleSet.new_err hc]

/-- a length-1 column next to longer ones is rejected although numpy can broadcast it -/
example : ParticleSet.new .stars
    (⟨[q 1, q 2], [q 1, q 2], [q 1, q 2], [q 1, q 2], [q 1], [q 1], [q 1], none, q 0⟩ :
      PArgs (Ext ℚ)) = .error .valueError := by decide +kernel
example : (⟨[q 1], [q 1], [q 1], [q 1], [q 1], [q 1], [q 1], some [q 3], q 0⟩ :
      PArgs (Ext ℚ)).EqualLengths := ⟨1, by decide +kernel⟩

/-! ## C02 derived kinematics -/

/-- C02: for every accepted set and every index, the derived arrays hold the textbook formulas of
that particle's own columns. -/
theorem C02_derived_kinematics {t : PType} {a : PArgs F} {p : ParticleSet F}
    (h : ParticleSet.new t a = .ok p) :
    p.kineticEnergy.length = a.m.length ∧ p.Jx.length = a.m.length ∧ p.Jy.length = a.m.length ∧
    p.Jz.length = a.m.length ∧
    (∀ i, i < a.m.length → ∃ x y z vx vy vz,
      a.x[i]? = some x ∧ a.y[i]? = some y ∧ a.z[i]? = some z ∧
      a.vx[i]? = some vx ∧ a.vy[i]? = some vy ∧ a.vz[i]? = some vz ∧
      p.kineticEnergy[i]?
        = some (Num.ofRat (1/2) *. ((vx *. vx +. vy *. vy) +. vz *. vz)) ∧
      p.Jx[i]? = some (y *. vz -. z *. vy) ∧
      p.Jy[i]? = some (z *. vx -. x *. vz) ∧
      p.Jz[i]? = some (x *. vy -. y *. vx) ∧
      (∀ pots, a.potential = some pots → ∃ te ke pe, p.totalEnergy = some te ∧
        p.kineticEnergy[i]? = some ke ∧ pots[i]? = some pe ∧ te.length = a.m.length ∧
        te[i]? = some (ke +. pe))) ∧
    (a.potential = none → p.totalEnergy = none ∧ p.hasPotential = false) ∧
    (a.potential ≠ none → p.hasPotential = true) ∧
    p.m = a.m ∧ p.x = a.x ∧ p.y = a.y ∧ p.z = a.z ∧ p.vx = a.vx ∧ p.vy = a.vy ∧ p.vz = a.vz ∧
    p.potential = a.potential ∧ p.softening = a.softening ∧ p.ptype = t := by
  obtain ⟨⟨l, hp, soft⟩, rfl, rfl⟩ := ParticleSet.new_ok_iff_ofBodies.1 h
  refine ⟨by simp [ParticleSet.ofBodies, BSet.args], by simp [ParticleSet.ofBodies, BSet.args],
    by simp [ParticleSet.ofBodies, BSet.args], by simp [ParticleSet.ofBodies, BSet.args],
    ?_, ?_, ?_, rfl, rfl, rfl, rfl, rfl, rfl, rfl, rfl, rfl, rfl⟩
  · intro i hi
    simp only [BSet.args, List.length_map] at hi
    refine ⟨(l[i]).x, (l[i]).y, (l[i]).z, (l[i]).vx, (l[i]).vy, (l[i]).vz, ?_⟩
    simp only [ParticleSet.ofBodies, BSet.args, List.getElem?_map, List.getElem?_eq_getElem hi,
      Option.map_some, Body.kinetic, Num.sq, Body.jx, Body.jy, Body.jz, List.length_map,
      true_and]
    intro pots hpots
    cases hp with
    | false => simp at hpots
    | true =>
      simp only [if_true, Option.some.injEq] at hpots
      subst hpots
      exact ⟨_, _, _, rfl, rfl, by simp [List.getElem?_eq_getElem hi]; rfl, by simp,
        by simp [List.getElem?_eq_getElem hi, Body.energy, Body.kinetic, Num.sq]⟩
  · intro hn
    cases hp with
    | false => exact ⟨rfl, rfl⟩
    | true => simp [BSet.args] at hn
  · intro hn
    cases hp with
    | false => simp [BSet.args] at hn
    | true => rfl

/-- two particles: the second one has `v = (1,2,2)`, `r = (1,0,0)`, potential -5 -/
example : (match ParticleSet.new .gas
    (⟨[q 1, q 2], [q 0, q 1], [q 0, q 0], [q 0, q 0], [q 0, q 1], [q 0, q 2], [q 0, q 2],
      some [q (-1), q (-5)], q 0⟩ : PArgs (Ext ℚ)) with
    | .ok p => (p.kineticEnergy, p.totalEnergy, p.Jx, p.Jy, p.Jz)
    | .error _ => ([], none, [], [], []))
    = ([q 0, q (9/2)], some [q (-1), q (-1/2)], [q 0, q 0], [q 0, q (-2)], [q 0, q 2]) := by
  decide +kernel

/-! ## C03 galaxy acceptance -/

/-- C03: exact classification of `Galaxy(stars, dark_matter, gas)`. -/
theorem C03_galaxy_accepts_iff (s d g : ParticleSet F) :
    let typesOk := s.ptype = .stars ∧ d.ptype = .darkMatter ∧ g.ptype = .gas
    let uniform := d.hasPotential = s.hasPotential ∧ g.hasPotential = s.hasPotential
    ((∃ G, Galaxy.new s d g = .ok G) ↔ typesOk ∧ uniform) ∧
    (¬ uniform → Galaxy.new s d g = .error .valueError) ∧
    (uniform → ¬ typesOk → Galaxy.new s d g = .error .typeError) ∧
    (∀ G, Galaxy.new s d g = .ok G → G.stars = s ∧ G.darkMatter = d ∧ G.gas = g ∧
      G.hasPotential = s.hasPotential ∧ G.hasPotential = d.hasPotential ∧
      G.hasPotential = g.hasPotential ∧
      G.len = s.m.length + d.m.length + g.m.length) := by
  intro typesOk uniform
  have hu : Galaxy.hasPotentialDefault s d g
      = if uniform then .ok s.hasPotential else .error .valueError := by
    unfold Galaxy.hasPotentialDefault
    by_cases h : uniform
    · have h' := h
      obtain ⟨h1, h2⟩ := h'
      rw [if_pos h]
      simp only [h1, h2]
      cases s.hasPotential <;> rfl
    · rw [if_neg h]
      simp only [uniform, not_and] at h
      cases hs : s.hasPotential <;> cases hd : d.hasPotential <;> cases hg : g.hasPotential <;>
        simp_all
  have ht : Galaxy.checkTypes s d g = if typesOk then .ok () else .error .typeError := by
    unfold Galaxy.checkTypes
    by_cases h1 : s.ptype = .stars <;> by_cases h2 : d.ptype = .darkMatter <;>
      by_cases h3 : g.ptype = .gas <;> simp [h1, h2, h3, typesOk]
  unfold Galaxy.new
  rw [hu, ht]
  by_cases h1 : uniform <;> by_cases h2 : typesOk
  · simp only [h1, h2, if_true, Py.ok_bind, Py.pure_eq, and_self, not_true_eq_false,
      IsEmpty.forall_iff, implies_true, true_and, Except.ok.injEq, exists_eq']
    rintro G rfl
    exact ⟨rfl, rfl, rfl, rfl, h1.1.symm, h1.2.symm, rfl⟩
  · simp [h1, h2]
  · simp [h1, h2]
  · simp [h1, h2]

/-- the class invariant: `has_potential_` of an accepted set says whether it has a potential, so
C03 is about the potentials themselves -/
theorem C03_hasPotential_isSome {t : PType} {a : PArgs F} {p : ParticleSet F}
    (h : ParticleSet.new t a = .ok p) : p.hasPotential = a.potential.isSome := by
  obtain ⟨⟨l, hp, soft⟩, rfl, rfl⟩ := ParticleSet.new_ok_iff_ofBodies.1 h
  cases hp <;> rfl

/-- a one-particle set used in the concrete cases -/
def exSet (t : PType) (pot : Option (List (Ext ℚ))) : ParticleSet (Ext ℚ) :=
  match ParticleSet.new t ⟨[q 1], [q 1], [q 2], [q 3], [q 0], [q 1], [q 0], pot, q 0⟩ with
  | .ok p => p
  | .error _ => ⟨t, [], [], [], [], [], [], [], none, q 0, false, [], none, [], [], []⟩

/-- mixed potential and wrong types together: the potential error comes first -/
example : Galaxy.new (exSet .gas (some [q 1])) (exSet .darkMatter none) (exSet .gas none)
    = .error .valueError := by decide +kernel
example : Galaxy.new (exSet .gas none) (exSet .darkMatter none) (exSet .gas none)
    = .error .typeError := by decide +kernel
example : (match Galaxy.new (exSet .stars (some [q 1])) (exSet .darkMatter (some [q 1]))
    (exSet .gas (some [q 1])) with | .ok G => (G.hasPotential, G.len) | .error _ => (false, 0))
    = (true, 3) := by decide +kernel

/-! ## C04 kwargs round trip -/

theorem galaxyAsKwargs_eq (g : Galaxy F) :
    galaxyAsKwargs g = psetAsKwargs g.stars "s" ++ psetAsKwargs g.darkMatter "dm" ++
      psetAsKwargs g.gas "g" := by
  simp [galaxyAsKwargs, psetAsKwargs, Dict.update, Dict.set]

theorem arrArg_eq {kw : Dict String (KVal F)} {k : String} {l : List F} :
    arrArg kw k = .ok l ↔ Dict.get? kw k = some (.arr l) := by
  unfold arrArg
  constructor
  · intro h; split at h
    · cases h; assumption
    · cases h
  · intro h; simp [h]

/-- the value an optional parameter has when the caller leaves it out -/
def defaultKw (k : String) : KVal F :=
  if k = "softening_s" ∨ k = "softening_dm" ∨ k = "softening_g" then .num (Num.ofRat 0) else .none

theorem pargsOf_eq {kw : Dict String (KVal F)} {suf : String} {a : PArgs F}
    (h : pargsOf kw suf = .ok a) :
    Dict.get? kw ("m_" ++ suf) = some (.arr a.m) ∧ Dict.get? kw ("x_" ++ suf) = some (.arr a.x) ∧
    Dict.get? kw ("y_" ++ suf) = some (.arr a.y) ∧ Dict.get? kw ("z_" ++ suf) = some (.arr a.z) ∧
    Dict.get? kw ("vx_" ++ suf) = some (.arr a.vx) ∧
    Dict.get? kw ("vy_" ++ suf) = some (.arr a.vy) ∧
    Dict.get? kw ("vz_" ++ suf) = some (.arr a.vz) ∧
    (Dict.get? kw ("potential_" ++ suf)).getD .none
      = .ofOption a.potential ∧
    (Dict.get? kw ("softening_" ++ suf)).getD (.num (Num.ofRat 0)) = .num a.softening := by
  unfold pargsOf at h
  simp only [Py.bind_eq_ok] at h
  obtain ⟨m, hm, x, hx, y, hy, z, hz, vx, hvx, vy, hvy, vz, hvz, pot, hpot, so, hso, ha⟩ := h
  cases ha
  rw [arrArg_eq] at hm hx hy hz hvx hvy hvz
  refine ⟨hm, hx, hy, hz, hvx, hvy, hvz, ?_, ?_⟩
  · revert hpot
    unfold optArrArg
    cases Dict.get? kw ("potential_" ++ suf) with
    | none => intro h; cases h; rfl
    | some v => cases v <;> (intro h; cases h; try rfl)
  · revert hso
    unfold numArg
    cases Dict.get? kw ("softening_" ++ suf) with
    | none => intro h; cases h; rfl
    | some v => cases v <;> (intro h; cases h; try rfl)

theorem mkgalaxy_ok {s d g : PArgs F} {G : Galaxy F} (h : mkgalaxy s d g = .ok G) :
    (G.stars.m = s.m ∧ G.stars.x = s.x ∧ G.stars.y = s.y ∧ G.stars.z = s.z ∧ G.stars.vx = s.vx ∧
      G.stars.vy = s.vy ∧ G.stars.vz = s.vz ∧ G.stars.potential = s.potential ∧
      G.stars.softening = s.softening) ∧
    (G.darkMatter.m = d.m ∧ G.darkMatter.x = d.x ∧ G.darkMatter.y = d.y ∧ G.darkMatter.z = d.z ∧
      G.darkMatter.vx = d.vx ∧ G.darkMatter.vy = d.vy ∧ G.darkMatter.vz = d.vz ∧
      G.darkMatter.potential = d.potential ∧ G.darkMatter.softening = d.softening) ∧
    (G.gas.m = g.m ∧ G.gas.x = g.x ∧ G.gas.y = g.y ∧ G.gas.z = g.z ∧ G.gas.vx = g.vx ∧
      G.gas.vy = g.vy ∧ G.gas.vz = g.vz ∧ G.gas.potential = g.potential ∧
      G.gas.softening = g.softening) := by
  unfold mkgalaxy at h
  simp only [Py.bind_eq_ok] at h
  obtain ⟨ps, hs, pd, hd, pg, hg, hG⟩ := h
  obtain ⟨h1, h2, h3, -⟩ := (C03_galaxy_accepts_iff ps pd pg).2.2.2 G hG
  obtain ⟨-, -, -, -, -, -, -, a1, a2, a3, a4, a5, a6, a7, a8, a9, -⟩ := C02_derived_kinematics hs
  obtain ⟨-, -, -, -, -, -, -, b1, b2, b3, b4, b5, b6, b7, b8, b9, -⟩ := C02_derived_kinematics hd
  obtain ⟨-, -, -, -, -, -, -, c1, c2, c3, c4, c5, c6, c7, c8, c9, -⟩ := C02_derived_kinematics hg
  rw [h1, h2, h3]
  exact ⟨⟨a1, a2, a3, a4, a5, a6, a7, a8, a9⟩, ⟨b1, b2, b3, b4, b5, b6, b7, b8, b9⟩,
    ⟨c1, c2, c3, c4, c5, c6, c7, c8, c9⟩⟩

/-- C04, first half: rebuilding a galaxy from its own keyword arguments gives the same galaxy. -/
theorem C04_mkgalaxy_of_kwargs (g : Galaxy F) (hg : g.Valid) :
    mkgalaxyKw (galaxyAsKwargs g) = .ok g := by
  obtain ⟨b, rfl⟩ := Galaxy.valid_iff.1 hg
  rw [← mkgalaxy_ofBodies b]
  rcases b with ⟨ls, ld, lg, hp, ss, sd, sg⟩
  cases hp <;>
  simp [mkgalaxyKw, galaxyAsKwargs_eq, psetAsKwargs, Dict.keys, requiredParams, optionalParams,
    pargsOf, arrArg, optArrArg, numArg, KVal.ofOption, Dict.get?, Galaxy.ofBodies, ParticleSet.ofBodies,
    BGalaxy.sSet, BGalaxy.dmSet, BGalaxy.gSet, BSet.args]

/-- C04, second half: the keyword arguments of a galaxy built from `kw` are those of `kw`, with
the defaults filled in, and nothing else. -/
theorem C04_kwargs_of_mkgalaxy (kw : Dict String (KVal F)) (g : Galaxy F)
    (h : mkgalaxyKw kw = .ok g) (k : String) :
    Dict.get? (galaxyAsKwargs g) k =
      if k ∈ requiredParams then Dict.get? kw k
      else if k ∈ optionalParams then some ((Dict.get? kw k).getD (defaultKw k))
      else none := by
  unfold mkgalaxyKw at h
  split at h
  · cases h
  split at h
  · cases h
  simp only [Py.bind_eq_ok] at h
  obtain ⟨s, hs, d, hd, gg, hgg, hG⟩ := h
  obtain ⟨⟨a1, a2, a3, a4, a5, a6, a7, a8, a9⟩, ⟨b1, b2, b3, b4, b5, b6, b7, b8, b9⟩,
    ⟨c1, c2, c3, c4, c5, c6, c7, c8, c9⟩⟩ := mkgalaxy_ok hG
  obtain ⟨s1, s2, s3, s4, s5, s6, s7, s8, s9⟩ := pargsOf_eq hs
  obtain ⟨d1, d2, d3, d4, d5, d6, d7, d8, d9⟩ := pargsOf_eq hd
  obtain ⟨g1, g2, g3, g4, g5, g6, g7, g8, g9⟩ := pargsOf_eq hgg
  rw [galaxyAsKwargs_eq]
  simp only [psetAsKwargs, a1, a2, a3, a4, a5, a6, a7, a8, a9, b1, b2, b3, b4, b5, b6, b7, b8, b9,
    c1, c2, c3, c4, c5, c6, c7, c8, c9, ← s8, ← s9, ← d8, ← d9, ← g8, ← g9]
  simp only [String.reduceAppend] at *
  by_cases hk : k ∈ requiredParams ++ optionalParams
  · simp only [requiredParams, optionalParams, List.mem_append, List.mem_cons, List.not_mem_nil,
      or_false] at hk
    rcases hk with (h|h|h|h|h|h|h|h|h|h|h|h|h|h|h|h|h|h|h|h|h)|(h|h|h|h|h|h) <;> subst h <;>
      simp [Dict.get?, requiredParams, optionalParams, defaultKw, *]
  · have hr : k ∉ requiredParams := fun h => hk (List.mem_append_left _ h)
    have ho : k ∉ optionalParams := fun h => hk (List.mem_append_right _ h)
    rw [if_neg hr, if_neg ho]
    simp only [requiredParams, optionalParams, List.mem_cons, List.not_mem_nil, or_false,
      not_or] at hr ho
    simp [Dict.get?, eq_comm, hr, ho]

/-- a small accepted keyword dictionary (no dark matter, no gas) -/
def exKw : Dict String (KVal (Ext ℚ)) :=
  [("m_s", .arr [q 1]), ("x_s", .arr [q 2]), ("y_s", .arr [q 3]), ("z_s", .arr [q 4]),
   ("vx_s", .arr [q 5]), ("vy_s", .arr [q 6]), ("vz_s", .arr [q 7]),
   ("m_dm", .arr []), ("x_dm", .arr []), ("y_dm", .arr []), ("z_dm", .arr []),
   ("vx_dm", .arr []), ("vy_dm", .arr []), ("vz_dm", .arr []),
   ("m_g", .arr []), ("x_g", .arr []), ("y_g", .arr []), ("z_g", .arr []),
   ("vx_g", .arr []), ("vy_g", .arr []), ("vz_g", .arr []), ("softening_g", .num (q 9))]

example : (match mkgalaxyKw exKw with | .ok g => g.len | .error _ => 0) = 1 := by decide +kernel
example : (match mkgalaxyKw exKw with
    | .ok g => (galaxyAsKwargs g).get? "softening_g" | .error _ => none) = some (.num (q 9)) := by
  decide +kernel

/-! ## C05, C06 `to_dataframe` -/

/-- the galaxies the package can build are exactly the ones that represent three particle lists -/
theorem C05_valid_galaxies (g : Galaxy F) : g.Valid ↔ ∃ b : BGalaxy F, g = Galaxy.ofBodies b :=
  Galaxy.valid_iff

/-- C05: the table of a galaxy: the requested names (once each, in order of first mention) and one
row per selected particle, stars then dark matter then gas; cell = attribute of that particle. -/
theorem C05_to_dataframe (b : BGalaxy F) (ptypes : Option (List String)) (attrs : List String)
    (hsel : ∃ t, BGalaxy.selected ptypes t = true)
    (hk : ∀ a ∈ attrs, a ∈ attrNames)
    (hs : ∃ a ∈ attrs, scalarAttr b.hasPot a = false) :
    ∃ df, Galaxy.toDataframe (Galaxy.ofBodies b) ptypes (some attrs) = .ok df ∧
      Dict.keys df.cols = distinct attrs ∧
      df.nrows = (b.rows ptypes).length ∧
      ∀ a ∈ attrs, ∃ col, df.col a = .ok col ∧ col.length = (b.rows ptypes).length ∧
        ∀ i (hi : i < (b.rows ptypes).length), col[i]? = some ((b.rows ptypes)[i].cell a) := by
  have hsel' : BGalaxy.someSelected ptypes = true := by
    obtain ⟨t, ht⟩ := hsel
    unfold BGalaxy.someSelected
    rw [List.any_eq_true]
    exact ⟨t, by cases t <;> simp [PType.members], ht⟩
  have hns : ¬ allScalar b.hasPot attrs := by
    rintro ⟨_, h⟩
    obtain ⟨a, ha, hf⟩ := hs
    rw [h a ha] at hf; cases hf
  have hne : distinct attrs ≠ [] := by
    rw [Ne, distinct_eq_nil]
    rintro rfl
    obtain ⟨a, ha, _⟩ := hs
    cases ha
  refine ⟨_, Galaxy.toDataframe_ok b ptypes attrs hsel' hk hns, ?_, ?_, ?_⟩
  · simp [tableOf, hne, Dict.keys, Function.comp_def]
  · simp [tableOf, hne]
  · intro a ha
    refine ⟨_, tableOf_col _ _ a (mem_distinct.2 ha), by simp, ?_⟩
    intro i hi
    simp [List.getElem?_eq_getElem hi]

/-- C05 with `attributes=None`: all sixteen columns. -/
theorem C05_to_dataframe_all (b : BGalaxy F) (ptypes : Option (List String)) :
    Galaxy.toDataframe (Galaxy.ofBodies b) ptypes none
      = Galaxy.toDataframe (Galaxy.ofBodies b) ptypes (some attrNames) :=
  Galaxy.toDataframe_attrs_none b ptypes

/-- C06: exact classification of the outcomes of `Galaxy.to_dataframe(ptypes, attributes)`. -/
theorem C06_to_dataframe_failures (b : BGalaxy F) (ptypes : Option (List String))
    (attrs : List String) :
    let nothing := ∀ t, BGalaxy.selected ptypes t = false
    let unknown := ∃ a ∈ attrs, a ∉ attrNames
    let scalars := attrs ≠ [] ∧ ∀ a ∈ attrs, a = "softening" ∨
      (b.hasPot = false ∧ (a = "potential" ∨ a = "total_energy"))
    (Galaxy.toDataframe (Galaxy.ofBodies b) ptypes (some attrs) = .error .keyError ↔
      ¬ nothing ∧ unknown) ∧
    (Galaxy.toDataframe (Galaxy.ofBodies b) ptypes (some attrs) = .error .valueError ↔
      nothing ∨ scalars) ∧
    ((∃ df, Galaxy.toDataframe (Galaxy.ofBodies b) ptypes (some attrs) = .ok df) ↔
      ¬ nothing ∧ ¬ unknown ∧ ¬ scalars) := by
  intro nothing unknown scalars
  have hno : nothing ↔ BGalaxy.someSelected ptypes = false := by
    unfold BGalaxy.someSelected
    rw [List.any_eq_false]
    constructor
    · intro h t _; simp [h t]
    · intro h t; simpa using h t (by cases t <;> simp [PType.members])
  have hsc : scalars ↔ allScalar b.hasPot attrs := by
    simp only [scalars, allScalar, scalarAttr, Bool.or_eq_true, beq_iff_eq, Bool.and_eq_true,
      Bool.not_eq_true']
  have hexcl : scalars → ¬ unknown := by
    rintro ⟨_, h⟩ ⟨a, ha, hn⟩
    apply hn
    rcases h a ha with rfl | ⟨_, rfl | rfl⟩ <;> decide
  by_cases h1 : nothing
  · have := Galaxy.toDataframe_none_selected b ptypes (some attrs) (hno.1 h1)
    rw [this]
    simp [h1]
  · have h1' : BGalaxy.someSelected ptypes = true := by
      rw [← Bool.not_eq_false]; exact fun h => h1 (hno.2 h)
    by_cases h2 : unknown
    · rw [Galaxy.toDataframe_keyError b ptypes attrs h1' h2]
      have : ¬ scalars := fun h => hexcl h h2
      simp [h1, h2, this]
    · have h2' : ∀ a ∈ attrs, a ∈ attrNames := by
        intro a ha
        by_contra hn
        exact h2 ⟨a, ha, hn⟩
      by_cases h3 : scalars
      · rw [Galaxy.toDataframe_allScalar b ptypes attrs h1' h2' (hsc.1 h3)]
        simp [h1, h2, h3]
      · rw [Galaxy.toDataframe_ok b ptypes attrs h1' h2' (fun h => h3 (hsc.2 h))]
        simp [h1, h2, h3]

/-- a two-star, one-gas galaxy without potential -/
def exBG : BGalaxy (Ext ℚ) :=
  { stars := [⟨q 1, q 1, q 2, q 3, q 0, q 1, q 0, q 0⟩, ⟨q 2, q 4, q 5, q 6, q 1, q 1, q 0, q 0⟩]
    dm := []
    gas := [⟨q 3, q 7, q 8, q 9, q 1, q 0, q 0, q 0⟩]
    hasPot := false, softS := q 1, softDm := q 2, softG := q 3 }

example : (Galaxy.toDataframe (Galaxy.ofBodies exBG) (some ["gas", "stars"])
      (some ["m", "softening", "ptypev", "potential", "m"]))
    = .ok ⟨[("m", [.num (q 1), .num (q 2), .num (q 3)]),
            ("softening", [.num (q 1), .num (q 1), .num (q 3)]),
            ("ptypev", [.int 0, .int 0, .int 2]),
            ("potential", [.num .nan, .num .nan, .num .nan])], 3⟩ := by decide +kernel
example : Galaxy.toDataframe (Galaxy.ofBodies exBG) none (some ["softening", "potential"])
    = .error .valueError := by decide +kernel
example : Galaxy.toDataframe (Galaxy.ofBodies exBG) none (some ["softening", "w"])
    = .error .keyError := by decide +kernel
example : Galaxy.toDataframe (Galaxy.ofBodies exBG) (some []) (some ["w"])
    = .error .valueError := by decide +kernel

/-! ## C07 particle-type coercion -/

theorem PType.mktype_err {upper : String → String} {v : PType.MkArg} {e : PyErr}
    (h : PType.mktype upper v = .error e) : e = .valueError := by
  unfold PType.mktype at h
  have key : ∀ w : PType.MkArg, (match PType.members.find? (PType.matchesArg w) with
      | some p => (Except.ok p : Py PType) | none => .error .valueError) = .error e →
      e = .valueError := by
    intro w hw
    cases hf : PType.members.find? (PType.matchesArg w) <;> rw [hf] at hw <;> cases hw
    rfl
  cases v <;> first | exact key _ h | (cases h; rfl) | cases h

/-- C07: a member is returned unchanged; a string is accepted iff its upper-case form is the name
of the member returned; a number iff it is the value of the member returned; everything else is a
`ValueError`. -/
theorem C07_mktype (upper : String → String) :
    (∀ p, PType.mktype upper (.member p) = .ok p) ∧
    (∀ s p, PType.mktype upper (.str s) = .ok p ↔ upper s = p.name) ∧
    (∀ r p, PType.mktype upper (.num r) = .ok p ↔ r = (p.value : ℚ)) ∧
    (∀ v e, PType.mktype upper v = .error e ↔
      e = .valueError ∧ ∀ p, PType.mktype upper v ≠ .ok p) ∧
    PType.mktype upper .other = .error .valueError := by
  refine ⟨fun p => rfl, fun s p => ?_, fun r p => ?_, fun v e => ?_, rfl⟩
  · simp only [PType.mktype, PType.members]
    cases p <;>
    simp only [PType.matchesArg, PType.name, List.find?_cons, List.find?_nil] <;>
    cases h1 : (upper s == "STARS") <;> cases h2 : (upper s == "DARK_MATTER") <;>
      cases h3 : (upper s == "GAS") <;> simp_all
  · simp only [PType.mktype, PType.members]
    cases p <;>
    simp only [PType.matchesArg, PType.value, List.find?_cons, List.find?_nil] <;>
    cases h1 : (r == ((0 : Int) : ℚ)) <;> cases h2 : (r == ((1 : Int) : ℚ)) <;>
      cases h3 : (r == ((2 : Int) : ℚ)) <;> simp_all
  · constructor
    · intro h
      refine ⟨?_, fun p hp => by rw [h] at hp; cases hp⟩
      exact PType.mktype_err h
    · rintro ⟨rfl, h⟩
      cases hc : PType.mktype upper v with
      | ok p => exact absurd hc (h p)
      | error e => rw [PType.mktype_err hc]

/-- C07: `mktype` inverts `humanize`, for every `upper` that is right on the three lower-case
names. -/
theorem C07_mktype_humanize (upper : String → String)
    (hu : ∀ s ∈ ["stars", "dark_matter", "gas"], upper s = s.toUpper) (p : PType) :
    PType.mktype upper (.str p.humanize) = .ok p := by
  have h : upper p.humanize = p.name := by
    rw [hu p.humanize (by cases p <;> simp [PType.humanize])]
    cases p <;> decide +kernel
  exact ((C07_mktype upper).2.1 _ _).2 h

example : PType.mktype String.toUpper (.str "Dark_Matter") = .ok .darkMatter := by decide +kernel
example : PType.mktype String.toUpper (.str "star") = .error .valueError := by decide +kernel
example : PType.mktype String.toUpper (.num 2) = .ok .gas := by decide +kernel
example : PType.mktype String.toUpper (.num (1/2)) = .error .valueError := by decide +kernel

end GChop
