import Verif.Quantity
import Verif.Lemmas.Dict

/-!
# Quantities and their numbers
-/

set_option linter.unusedSectionVars false

namespace GChop
open Pd

variable {U F : Type} [Num F]

/-- What the theorems use about `astropy.units`: converting to the same unit changes nothing, a unit
is equivalent to itself, and the default units are not dimensionless. -/
structure UnitEnv.OK (env : UnitEnv U F) : Prop where
  conv_self : ∀ u x, env.conv u u x = x
  equiv_self : ∀ u, env.equiv u u = true
  msun : env.dimensionless env.msun = false
  kpc : env.dimensionless env.kpc = false
  kms : env.dimensionless env.kms = false
  kms2 : env.dimensionless env.kms2 = false

theorem toValue_self {env : UnitEnv U F} (h : env.OK) (l : List F) (u : U) :
    (⟨l, u⟩ : Quantity U F).toValue env u = l := by
  have : env.conv u u = id := funext fun x => h.conv_self u x
  simp [Quantity.toValue, this]

theorem numbers_array {env : UnitEnv U F} (h : env.OK) (l : List F) (d : U) :
    (Given.array l : Given U F).numbers env d = l := toValue_self h l d

/-- a quantity that can be stored in an attribute with default unit `d` -/
def Stored (env : UnitEnv U F) (d : U) (q : Quantity U F) : Prop :=
  env.dimensionless q.unit = false ∧ env.equiv q.unit d = true

theorem Stored.attach {env : UnitEnv U F} {d : U} {q : Quantity U F} (h : Stored env d q) :
    (Given.quantity q).attach env d = q := by simp [Given.attach, h.1]

theorem Stored.numbers {env : UnitEnv U F} {d : U} {q : Quantity U F} (h : Stored env d q) :
    (Given.quantity q).numbers env d = q.toValue env d := by rw [Given.numbers, h.attach]

theorem Stored.accepted {env : UnitEnv U F} {d : U} {q : Quantity U F} (h : Stored env d q) :
    (Given.quantity q).accepted env d = true := by rw [Given.accepted, h.attach]; exact h.2

theorem stored_attach {env : UnitEnv U F} {d : U} (hd : env.dimensionless d = false)
    {i : Given U F} (h : i.accepted env d = true) : Stored env d (i.attach env d) := by
  refine ⟨?_, h⟩
  cases i with
  | array l => exact hd
  | quantity q =>
    simp only [Given.attach]
    split
    · exact hd
    · next h => simpa using h

/-- the quantities of a particle set are stored ones -/
structure QSet.Proper (env : UnitEnv U F) (p : QSet U F) : Prop where
  m : Stored env env.msun p.m
  x : Stored env env.kpc p.x
  y : Stored env env.kpc p.y
  z : Stored env env.kpc p.z
  vx : Stored env env.kms p.vx
  vy : Stored env env.kms p.vy
  vz : Stored env env.kms p.vz
  potential : ∀ q, p.potential = some q → Stored env env.kms2 q

/-- the quantities of a galaxy are stored ones -/
structure QGalaxy.Proper (env : UnitEnv U F) (g : QGalaxy U F) : Prop where
  stars : g.stars.Proper env
  darkMatter : g.darkMatter.Proper env
  gas : g.gas.Proper env

theorem arr_qset_new {env : UnitEnv U F} (h : env.OK) (t : PType) (a : QArgs U F)
    (ha : a.accepted env = true) :
    QSet.arr env <$> QSet.new env t a = ParticleSet.new t (a.numbers env) := by
  have hp : (a.numbers env).potential.isSome = a.potential.isSome := by
    simp [QArgs.numbers]
  unfold QSet.new ParticleSet.new
  simp only [ha, Bool.not_true, Bool.false_eq_true, if_false, toValue_self h]
  cases ParticleSet.kineticDefault (a.numbers env) with
  | error e => rfl
  | ok ke =>
    simp only [bind, Except.bind]
    cases ParticleSet.totalDefault (a.numbers env) ke with
    | error e => rfl
    | ok te =>
      simp only
      cases ParticleSet.crossTerm (a.numbers env).y (a.numbers env).vz (a.numbers env).z
        (a.numbers env).vy with
      | error e => rfl
      | ok jx =>
        simp only
        cases ParticleSet.crossTerm (a.numbers env).z (a.numbers env).vx (a.numbers env).x
          (a.numbers env).vz with
        | error e => rfl
        | ok jy =>
          simp only
          cases ParticleSet.crossTerm (a.numbers env).x (a.numbers env).vy (a.numbers env).y
            (a.numbers env).vx with
          | error e => rfl
          | ok jz =>
            simp only
            split
            · rfl
            · simp only [Functor.map, Except.map, pure, Except.pure, hp]
              congr 1
              simp only [QSet.arr, toValue_self h]
              congr 1
              · simp [QArgs.numbers, Given.numbers, Function.comp_def]
              · cases te <;> simp [toValue_self h]

theorem qset_new_rejected {env : UnitEnv U F} (t : PType) (a : QArgs U F)
    (ha : a.accepted env = false) : QSet.new env t a = .error .valueError := by
  simp [QSet.new, ha]

theorem accepted_of_new {env : UnitEnv U F} {t : PType} {a : QArgs U F} {p : QSet U F}
    (hp : QSet.new env t a = .ok p) : a.accepted env = true := by
  by_contra h
  rw [qset_new_rejected t a (by simpa using h)] at hp
  cases hp

theorem qset_new_eq {env : UnitEnv U F} {t : PType} {a : QArgs U F} {p : QSet U F}
    (hp : QSet.new env t a = .ok p) :
    p.ptype = t ∧ p.m = a.m.attach env env.msun ∧ p.x = a.x.attach env env.kpc ∧
      p.y = a.y.attach env env.kpc ∧ p.z = a.z.attach env env.kpc ∧
      p.vx = a.vx.attach env env.kms ∧ p.vy = a.vy.attach env env.kms ∧
      p.vz = a.vz.attach env env.kms ∧ p.potential = a.potential.map (·.attach env env.kms2) ∧
      p.kineticEnergy.unit = env.kms2 ∧ (∀ q, p.totalEnergy = some q → q.unit = env.kms2) ∧
      p.Jx.unit = env.kpckms ∧ p.Jy.unit = env.kpckms ∧ p.Jz.unit = env.kpckms ∧
      p.hasPotential = a.potential.isSome := by
  have ha := accepted_of_new hp
  unfold QSet.new at hp
  simp only [ha, Bool.not_true, Bool.false_eq_true, if_false] at hp
  cases hk : ParticleSet.kineticDefault (a.numbers env) with
  | error e => rw [hk] at hp; cases hp
  | ok ke =>
    rw [hk] at hp
    simp only [bind, Except.bind] at hp
    split at hp
    · cases hp
    split at hp
    · cases hp
    split at hp
    · cases hp
    split at hp
    · cases hp
    split at hp
    · cases hp
    · cases hp
      refine ⟨rfl, rfl, rfl, rfl, rfl, rfl, rfl, rfl, rfl, rfl, ?_, rfl, rfl, rfl, rfl⟩
      intro q hq
      obtain ⟨l, -, rfl⟩ := Option.map_eq_some_iff.1 hq
      rfl

theorem proper_of_new {env : UnitEnv U F} (h : env.OK) {t : PType} {a : QArgs U F} {p : QSet U F}
    (hp : QSet.new env t a = .ok p) : p.Proper env := by
  have ha := accepted_of_new hp
  simp only [QArgs.accepted, Bool.and_eq_true] at ha
  obtain ⟨⟨⟨⟨⟨⟨⟨hm, hx⟩, hy⟩, hz⟩, hvx⟩, hvy⟩, hvz⟩, hpot⟩ := ha
  obtain ⟨-, em, ex, ey, ez, evx, evy, evz, ep, -⟩ := qset_new_eq hp
  refine ⟨em ▸ stored_attach h.msun hm, ex ▸ stored_attach h.kpc hx, ey ▸ stored_attach h.kpc hy,
    ez ▸ stored_attach h.kpc hz, evx ▸ stored_attach h.kms hvx, evy ▸ stored_attach h.kms hvy,
    evz ▸ stored_attach h.kms hvz, fun q hq => ?_⟩
  rw [ep] at hq
  cases hq' : a.potential with
  | none => simp [hq'] at hq
  | some i =>
    simp only [hq', Option.map_some, Option.some.injEq] at hq
    rw [hq'] at hpot
    exact hq ▸ stored_attach h.kms2 (by simpa using hpot)

theorem arr_qgalaxy_new (env : UnitEnv U F) (s d g : QSet U F) :
    QGalaxy.arr env <$> QGalaxy.new s d g = Galaxy.new (s.arr env) (d.arr env) (g.arr env) := by
  unfold QGalaxy.new Galaxy.new Galaxy.hasPotentialDefault Galaxy.checkTypes
  simp only [show (s.arr env).hasPotential = s.hasPotential from rfl,
    show (d.arr env).hasPotential = d.hasPotential from rfl,
    show (g.arr env).hasPotential = g.hasPotential from rfl,
    show (s.arr env).ptype = s.ptype from rfl, show (d.arr env).ptype = d.ptype from rfl,
    show (g.arr env).ptype = g.ptype from rfl]
  by_cases h1 : ([s.hasPotential, g.hasPotential, d.hasPotential].contains true &&
      [s.hasPotential, g.hasPotential, d.hasPotential].contains false) = true
  · rw [if_pos h1, if_pos h1]; rfl
  rw [if_neg h1, if_neg h1]
  by_cases h2 : s.ptype ≠ .stars
  · rw [if_pos h2, if_pos h2]; rfl
  rw [if_neg h2, if_neg h2]
  by_cases h3 : d.ptype ≠ .darkMatter
  · rw [if_pos h3, if_pos h3]; rfl
  rw [if_neg h3, if_neg h3]
  by_cases h4 : g.ptype ≠ .gas
  · rw [if_pos h4, if_pos h4]; rfl
  rw [if_neg h4, if_neg h4]; rfl

/-- the units of the arguments are accepted -/
def UnitsAccepted (env : UnitEnv U F) (s d g : QArgs U F) : Prop :=
  s.accepted env = true ∧ d.accepted env = true ∧ g.accepted env = true

theorem arr_qmkgalaxy {env : UnitEnv U F} (h : env.OK) {s d g : QArgs U F}
    (ha : UnitsAccepted env s d g) :
    QGalaxy.arr env <$> qmkgalaxy env s d g =
      mkgalaxy (s.numbers env) (d.numbers env) (g.numbers env) := by
  have hs := arr_qset_new h .stars s ha.1
  have hd := arr_qset_new h .darkMatter d ha.2.1
  have hg := arr_qset_new h .gas g ha.2.2
  unfold qmkgalaxy mkgalaxy
  rw [← hs, ← hd, ← hg]
  cases QSet.new env .stars s with
  | error e => rfl
  | ok ps =>
    cases QSet.new env .darkMatter d with
    | error e => rfl
    | ok pd =>
      cases QSet.new env .gas g with
      | error e => rfl
      | ok pg => exact arr_qgalaxy_new env ps pd pg

theorem qmkgalaxy_ok {env : UnitEnv U F} {s d g : QArgs U F} {G : QGalaxy U F}
    (hG : qmkgalaxy env s d g = .ok G) :
    QSet.new env .stars s = .ok G.stars ∧ QSet.new env .darkMatter d = .ok G.darkMatter ∧
      QSet.new env .gas g = .ok G.gas ∧ G.hasPotential = G.stars.hasPotential := by
  unfold qmkgalaxy at hG
  cases hs : QSet.new env .stars s with
  | error e => rw [hs] at hG; cases hG
  | ok ps =>
    cases hd : QSet.new env .darkMatter d with
    | error e => rw [hs, hd] at hG; cases hG
    | ok pd =>
      cases hg : QSet.new env .gas g with
      | error e => rw [hs, hd, hg] at hG; cases hG
      | ok pg =>
        rw [hs, hd, hg] at hG
        simp only [bind, Except.bind, QGalaxy.new] at hG
        split at hG
        · cases hG
        split at hG
        · cases hG
        split at hG
        · cases hG
        split at hG
        · cases hG
        · cases hG
          exact ⟨rfl, rfl, rfl, rfl⟩

theorem proper_of_mk {env : UnitEnv U F} (h : env.OK) {s d g : QArgs U F} {G : QGalaxy U F}
    (hG : qmkgalaxy env s d g = .ok G) : G.Proper env := by
  obtain ⟨hs, hd, hg, -⟩ := qmkgalaxy_ok hG
  exact ⟨proper_of_new h hs, proper_of_new h hd, proper_of_new h hg⟩

/-! ## Keyword arguments -/

/-- the default unit of a parameter of `mkgalaxy` -/
def unitOf (env : UnitEnv U F) (k : String) : U :=
  if k = "m_s" ∨ k = "m_dm" ∨ k = "m_g" then env.msun
  else if k = "potential_s" ∨ k = "potential_dm" ∨ k = "potential_g" then env.kms2
  else if k ∈ ["vx_s", "vy_s", "vz_s", "vx_dm", "vy_dm", "vz_dm", "vx_g", "vy_g", "vz_g"] then
    env.kms
  else env.kpc

/-- the numbers of a keyword value -/
def QVal.strip (env : UnitEnv U F) (k : String) : QVal U F → KVal F
  | .given i => .arr (i.numbers env (unitOf env k))
  | .none => .none
  | .num x => .num x

/-- the numbers of keyword arguments -/
def stripKw (env : UnitEnv U F) (kw : Dict String (QVal U F)) : Dict String (KVal F) :=
  kw.map fun e => (e.1, e.2.strip env e.1)

theorem get?_stripKw (env : UnitEnv U F) (kw : Dict String (QVal U F)) (k : String) :
    Dict.get? (stripKw env kw) k = (Dict.get? kw k).map (QVal.strip env k) := by
  induction kw with
  | nil => rfl
  | cons e kw ih =>
    obtain ⟨a, b⟩ := e
    by_cases h : a = k
    · subst h; simp [stripKw, Dict.get?]
    · simp only [stripKw, List.map_cons, Dict.get?, h, if_false] at ih ⊢
      exact ih

theorem stripKw_set (env : UnitEnv U F) (kw : Dict String (QVal U F)) (k : String) (v : QVal U F) :
    stripKw env (Dict.set kw k v) = Dict.set (stripKw env kw) k (v.strip env k) := by
  induction kw with
  | nil => rfl
  | cons e kw ih =>
    obtain ⟨a, b⟩ := e
    by_cases h : a = k
    · subst h; simp [stripKw, Dict.set]
    · simp only [stripKw, List.map_cons, Dict.set, h, if_false] at ih ⊢
      exact congrArg _ ih

theorem stripKw_update (env : UnitEnv U F) (kw e : Dict String (QVal U F)) :
    stripKw env (Dict.update kw e) = Dict.update (stripKw env kw) (stripKw env e) := by
  unfold Dict.update
  induction e generalizing kw with
  | nil => rfl
  | cons a e ih =>
    simp only [List.foldl_cons]
    rw [ih, stripKw_set]
    rfl

theorem keys_stripKw (env : UnitEnv U F) (kw : Dict String (QVal U F)) :
    Dict.keys (stripKw env kw) = Dict.keys kw := by
  simp [Dict.keys, stripKw, Function.comp_def]

theorem arrArg_strip (env : UnitEnv U F) (kw : Dict String (QVal U F)) (k : String) :
    arrArg (stripKw env kw) k = (fun i => i.numbers env (unitOf env k)) <$> qArg kw k := by
  unfold arrArg qArg
  rw [get?_stripKw]
  cases Dict.get? kw k with
  | none => rfl
  | some v => cases v <;> rfl

theorem optArrArg_strip (env : UnitEnv U F) (kw : Dict String (QVal U F)) (k : String) :
    optArrArg (stripKw env kw) k =
      (fun o => Option.map (fun i => i.numbers env (unitOf env k)) o) <$> optQArg kw k := by
  unfold optArrArg optQArg
  rw [get?_stripKw]
  cases Dict.get? kw k with
  | none => rfl
  | some v => cases v <;> rfl

theorem numArg_strip (env : UnitEnv U F) (kw : Dict String (QVal U F)) (k : String) :
    numArg (stripKw env kw) k = qNumArg kw k := by
  unfold numArg qNumArg
  rw [get?_stripKw]
  cases Dict.get? kw k with
  | none => rfl
  | some v => cases v <;> rfl

/-- the default units of the parameters with a given suffix -/
def SuffixUnits (env : UnitEnv U F) (sfx : String) : Prop :=
  unitOf env ("m_" ++ sfx) = env.msun ∧ unitOf env ("x_" ++ sfx) = env.kpc ∧
    unitOf env ("y_" ++ sfx) = env.kpc ∧ unitOf env ("z_" ++ sfx) = env.kpc ∧
    unitOf env ("vx_" ++ sfx) = env.kms ∧ unitOf env ("vy_" ++ sfx) = env.kms ∧
    unitOf env ("vz_" ++ sfx) = env.kms ∧ unitOf env ("potential_" ++ sfx) = env.kms2

theorem suffix_s (env : UnitEnv U F) : SuffixUnits env "s" := by
  refine ⟨?_, ?_, ?_, ?_, ?_, ?_, ?_, ?_⟩ <;> rfl
theorem suffix_dm (env : UnitEnv U F) : SuffixUnits env "dm" := by
  refine ⟨?_, ?_, ?_, ?_, ?_, ?_, ?_, ?_⟩ <;> rfl
theorem suffix_g (env : UnitEnv U F) : SuffixUnits env "g" := by
  refine ⟨?_, ?_, ?_, ?_, ?_, ?_, ?_, ?_⟩ <;> rfl

theorem pargsOf_strip (env : UnitEnv U F) (kw : Dict String (QVal U F)) {sfx : String}
    (hs : SuffixUnits env sfx) :
    pargsOf (stripKw env kw) sfx = QArgs.numbers env <$> qargsOf kw sfx := by
  obtain ⟨h1, h2, h3, h4, h5, h6, h7, h8⟩ := hs
  unfold pargsOf qargsOf
  simp only [arrArg_strip, optArrArg_strip, numArg_strip, h1, h2, h3, h4, h5, h6, h7, h8]
  cases qArg kw ("m_" ++ sfx) with
  | error e => rfl
  | ok m =>
  cases qArg kw ("x_" ++ sfx) with
  | error e => rfl
  | ok x =>
  cases qArg kw ("y_" ++ sfx) with
  | error e => rfl
  | ok y =>
  cases qArg kw ("z_" ++ sfx) with
  | error e => rfl
  | ok z =>
  cases qArg kw ("vx_" ++ sfx) with
  | error e => rfl
  | ok vx =>
  cases qArg kw ("vy_" ++ sfx) with
  | error e => rfl
  | ok vy =>
  cases qArg kw ("vz_" ++ sfx) with
  | error e => rfl
  | ok vz =>
  cases optQArg kw ("potential_" ++ sfx) with
  | error e => rfl
  | ok pot =>
  cases qNumArg kw ("softening_" ++ sfx) with
  | error e => rfl
  | ok soft => rfl

/-- every keyword value is accepted by its parameter -/
def KwAccepted (env : UnitEnv U F) (kw : Dict String (QVal U F)) : Prop :=
  ∀ k i, Dict.get? kw k = some (.given i) → i.accepted env (unitOf env k) = true

theorem qArg_accepted {env : UnitEnv U F} {kw : Dict String (QVal U F)} (h : KwAccepted env kw)
    {k : String} {i : Given U F} (hi : qArg kw k = .ok i) :
    i.accepted env (unitOf env k) = true := by
  unfold qArg at hi
  split at hi
  · next hg => cases hi; exact h _ _ hg
  · cases hi

theorem optQArg_accepted {env : UnitEnv U F} {kw : Dict String (QVal U F)} (h : KwAccepted env kw)
    {k : String} {o : Option (Given U F)} (ho : optQArg kw k = .ok o) :
    o.all (·.accepted env (unitOf env k)) = true := by
  unfold optQArg at ho
  split at ho
  · next hg => cases ho; simpa using h _ _ hg
  · cases ho
  · cases ho; rfl

theorem qargsOf_accepted {env : UnitEnv U F} {kw : Dict String (QVal U F)} (h : KwAccepted env kw)
    {sfx : String} (hs : SuffixUnits env sfx) {a : QArgs U F} (ha : qargsOf kw sfx = .ok a) :
    a.accepted env = true := by
  obtain ⟨h1, h2, h3, h4, h5, h6, h7, h8⟩ := hs
  unfold qargsOf at ha
  cases hm : qArg kw ("m_" ++ sfx) with
  | error e => rw [hm] at ha; cases ha
  | ok m =>
  cases hx : qArg kw ("x_" ++ sfx) with
  | error e => rw [hm, hx] at ha; cases ha
  | ok x =>
  cases hy : qArg kw ("y_" ++ sfx) with
  | error e => rw [hm, hx, hy] at ha; cases ha
  | ok y =>
  cases hz : qArg kw ("z_" ++ sfx) with
  | error e => rw [hm, hx, hy, hz] at ha; cases ha
  | ok z =>
  cases hvx : qArg kw ("vx_" ++ sfx) with
  | error e => rw [hm, hx, hy, hz, hvx] at ha; cases ha
  | ok vx =>
  cases hvy : qArg kw ("vy_" ++ sfx) with
  | error e => rw [hm, hx, hy, hz, hvx, hvy] at ha; cases ha
  | ok vy =>
  cases hvz : qArg kw ("vz_" ++ sfx) with
  | error e => rw [hm, hx, hy, hz, hvx, hvy, hvz] at ha; cases ha
  | ok vz =>
  cases hp : optQArg kw ("potential_" ++ sfx) with
  | error e => rw [hm, hx, hy, hz, hvx, hvy, hvz, hp] at ha; cases ha
  | ok pot =>
  cases hn : qNumArg kw ("softening_" ++ sfx) with
  | error e => rw [hm, hx, hy, hz, hvx, hvy, hvz, hp, hn] at ha; cases ha
  | ok soft =>
    rw [hm, hx, hy, hz, hvx, hvy, hvz, hp, hn] at ha
    cases ha
    have a1 := qArg_accepted h hm
    have a2 := qArg_accepted h hx
    have a3 := qArg_accepted h hy
    have a4 := qArg_accepted h hz
    have a5 := qArg_accepted h hvx
    have a6 := qArg_accepted h hvy
    have a7 := qArg_accepted h hvz
    have a8 := optQArg_accepted h hp
    rw [h1] at a1; rw [h2] at a2; rw [h3] at a3; rw [h4] at a4; rw [h5] at a5; rw [h6] at a6
    rw [h7] at a7; rw [h8] at a8
    simp only [QArgs.accepted, a1, a2, a3, a4, a5, a6, a7, a8, Bool.and_self]

theorem arr_qmkgalaxyKw {env : UnitEnv U F} (h : env.OK) {kw : Dict String (QVal U F)}
    (hk : KwAccepted env kw) :
    QGalaxy.arr env <$> qmkgalaxyKw env kw = mkgalaxyKw (stripKw env kw) := by
  unfold qmkgalaxyKw mkgalaxyKw
  rw [keys_stripKw, pargsOf_strip env kw (suffix_s env), pargsOf_strip env kw (suffix_dm env),
    pargsOf_strip env kw (suffix_g env)]
  split
  · rfl
  split
  · rfl
  cases hs : qargsOf kw "s" with
  | error e => rfl
  | ok s =>
  cases hd : qargsOf kw "dm" with
  | error e => rfl
  | ok d =>
  cases hg : qargsOf kw "g" with
  | error e => rfl
  | ok g =>
    exact arr_qmkgalaxy h ⟨qargsOf_accepted hk (suffix_s env) hs,
      qargsOf_accepted hk (suffix_dm env) hd, qargsOf_accepted hk (suffix_g env) hg⟩

theorem proper_of_kw {env : UnitEnv U F} (h : env.OK) {kw : Dict String (QVal U F)}
    {G : QGalaxy U F} (hG : qmkgalaxyKw env kw = .ok G) : G.Proper env := by
  unfold qmkgalaxyKw at hG
  split at hG
  · cases hG
  split at hG
  · cases hG
  cases hs : qargsOf kw "s" with
  | error e => rw [hs] at hG; cases hG
  | ok s =>
  cases hd : qargsOf kw "dm" with
  | error e => rw [hs, hd] at hG; cases hG
  | ok d =>
  cases hg : qargsOf kw "g" with
  | error e => rw [hs, hd, hg] at hG; cases hG
  | ok g =>
    rw [hs, hd, hg] at hG
    exact proper_of_mk h hG

/-! ## The keyword arguments of a galaxy -/

/-- an entry is accepted by its parameter -/
def EntryOk (env : UnitEnv U F) (e : String × QVal U F) : Prop :=
  ∀ i, e.2 = .given i → i.accepted env (unitOf env e.1) = true

theorem kwAccepted_update {env : UnitEnv U F} {kw e : Dict String (QVal U F)}
    (hk : KwAccepted env kw) (he : ∀ a ∈ e, EntryOk env a) :
    KwAccepted env (Dict.update kw e) := by
  unfold Dict.update
  induction e generalizing kw with
  | nil => exact hk
  | cons a e ih =>
    simp only [List.foldl_cons]
    refine ih (fun k i hi => ?_) fun b hb => he b (List.mem_cons_of_mem _ hb)
    rw [Dict.get?_set_eq] at hi
    split at hi
    · next hak => 
      subst hak
      exact he a (List.mem_cons_self ..) i (by simpa using hi)
    · exact hk k i hi

theorem kwAccepted_nil (env : UnitEnv U F) : KwAccepted env [] := by
  intro k i h; cases h

theorem qsetAsKwargs_ok {env : UnitEnv U F} {p : QSet U F} (hp : p.Proper env) {sfx : String}
    (hs : SuffixUnits env sfx) : ∀ a ∈ qsetAsKwargs p sfx, EntryOk env a := by
  obtain ⟨h1, h2, h3, h4, h5, h6, h7, h8⟩ := hs
  intro a ha i hi
  simp only [qsetAsKwargs, List.mem_cons, List.not_mem_nil, or_false] at ha
  rcases ha with rfl | rfl | rfl | rfl | rfl | rfl | rfl | rfl | rfl
  · cases hi; rw [h1]; exact hp.m.accepted
  · cases hi; rw [h2]; exact hp.x.accepted
  · cases hi; rw [h3]; exact hp.y.accepted
  · cases hi; rw [h4]; exact hp.z.accepted
  · cases hi; rw [h5]; exact hp.vx.accepted
  · cases hi; rw [h6]; exact hp.vy.accepted
  · cases hi; rw [h7]; exact hp.vz.accepted
  · simp only at hi
    rw [h8]
    cases hq : p.potential with
    | none => rw [hq] at hi; cases hi
    | some q => rw [hq] at hi; cases hi; exact (hp.potential q hq).accepted
  · cases hi

theorem kwAccepted_galaxy {env : UnitEnv U F} {g : QGalaxy U F} (hg : g.Proper env) :
    KwAccepted env (qgalaxyAsKwargs g) := by
  refine kwAccepted_update (kwAccepted_nil env) fun a ha => ?_
  rcases List.mem_append.1 ha with ha | ha
  · rcases List.mem_append.1 ha with ha | ha
    · exact qsetAsKwargs_ok hg.stars (suffix_s env) a ha
    · exact qsetAsKwargs_ok hg.darkMatter (suffix_dm env) a ha
  · exact qsetAsKwargs_ok hg.gas (suffix_g env) a ha

theorem stripKw_qset {env : UnitEnv U F} {p : QSet U F} (hp : p.Proper env) {sfx : String}
    (hs : SuffixUnits env sfx) :
    stripKw env (qsetAsKwargs p sfx) = psetAsKwargs (p.arr env) sfx := by
  obtain ⟨h1, h2, h3, h4, h5, h6, h7, h8⟩ := hs
  simp only [stripKw, qsetAsKwargs, psetAsKwargs, List.map_cons, List.map_nil, QVal.strip, h1, h2,
    h3, h4, h5, h6, h7, hp.m.numbers, hp.x.numbers, hp.y.numbers, hp.z.numbers, hp.vx.numbers,
    hp.vy.numbers, hp.vz.numbers, QSet.arr]
  congr 8
  cases hq : p.potential with
  | none => rfl
  | some q =>
    simp only [QVal.ofOption, QVal.strip, h8, (hp.potential q hq).numbers, Option.map_some,
      KVal.ofOption]

theorem stripKw_galaxy {env : UnitEnv U F} {g : QGalaxy U F} (hg : g.Proper env) :
    stripKw env (qgalaxyAsKwargs g) = galaxyAsKwargs (g.arr env) := by
  rw [qgalaxyAsKwargs, stripKw_update]
  have : stripKw env (qsetAsKwargs g.stars "s" ++ qsetAsKwargs g.darkMatter "dm" ++
      qsetAsKwargs g.gas "g") = stripKw env (qsetAsKwargs g.stars "s") ++
      stripKw env (qsetAsKwargs g.darkMatter "dm") ++ stripKw env (qsetAsKwargs g.gas "g") := by
    simp [stripKw]
  rw [this, stripKw_qset hg.stars (suffix_s env), stripKw_qset hg.darkMatter (suffix_dm env),
    stripKw_qset hg.gas (suffix_g env)]
  rfl

/-- rebuilding a galaxy with some of its keyword arguments replaced -/
theorem arr_rebuild {env : UnitEnv U F} (h : env.OK) {g : QGalaxy U F} (hg : g.Proper env)
    {e : Dict String (QVal U F)} (he : ∀ a ∈ e, EntryOk env a) :
    QGalaxy.arr env <$> qmkgalaxyKw env (Dict.update (qgalaxyAsKwargs g) e) =
      mkgalaxyKw (Dict.update (galaxyAsKwargs (g.arr env)) (stripKw env e)) := by
  rw [arr_qmkgalaxyKw h (kwAccepted_update (kwAccepted_galaxy hg) he), stripKw_update,
    stripKw_galaxy hg]

theorem entryOk_arr {env : UnitEnv U F} (h : env.OK) (k : String) (l : List F) :
    EntryOk env (k, QVal.arr l) := by
  intro i hi
  cases hi
  exact h.equiv_self _

theorem strip_arr {env : UnitEnv U F} (h : env.OK) (k : String) (l : List F) :
    (QVal.arr l : QVal U F).strip env k = .arr l := by
  simp only [QVal.arr, QVal.strip, numbers_array h]

end GChop
