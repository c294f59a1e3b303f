import Verif.Data

/-!
# Row view of particle sets

The code keeps a particle set as a struct of columns.  Here a particle is one record and a set is
a list of records; `ParticleSet.ofBodies` writes down what the class must contain for that list,
attribute by attribute, from the textbook formulas.  `Verif/Props/Data.lean` proves that the
constructor produces exactly these objects.
-/

namespace GChop

variable {F : Type} [Num F]

/-- One particle. -/
structure Body (F : Type) where
  m : F
  x : F
  y : F
  z : F
  vx : F
  vy : F
  vz : F
  pot : F
  deriving DecidableEq

namespace Body
/-- specific kinetic energy `(vx² + vy² + vz²)/2` -/
def kinetic (b : Body F) : F := Num.ofRat (1/2) *. ((Num.sq b.vx +. Num.sq b.vy) +. Num.sq b.vz)
/-- specific total energy -/
def energy (b : Body F) : F := b.kinetic +. b.pot
/-- components of `r × v` -/
def jx (b : Body F) : F := (b.y *. b.vz) -. (b.z *. b.vy)
/-- components of `r × v` -/
def jy (b : Body F) : F := (b.z *. b.vx) -. (b.x *. b.vz)
/-- components of `r × v` -/
def jz (b : Body F) : F := (b.x *. b.vy) -. (b.y *. b.vx)
end Body

/-- A list of particles with a softening; `hasPot` says whether the potential is known (if not, the
`pot` fields are meaningless). -/
structure BSet (F : Type) where
  bodies : List (Body F)
  hasPot : Bool
  soft : F

/-- the columns of a list of particles -/
def BSet.args (s : BSet F) : PArgs F where
  m := s.bodies.map (·.m)
  x := s.bodies.map (·.x)
  y := s.bodies.map (·.y)
  z := s.bodies.map (·.z)
  vx := s.bodies.map (·.vx)
  vy := s.bodies.map (·.vy)
  vz := s.bodies.map (·.vz)
  potential := if s.hasPot then some (s.bodies.map (·.pot)) else none
  softening := s.soft

/-- the particle set that represents a list of particles -/
def ParticleSet.ofBodies (t : PType) (s : BSet F) : ParticleSet F where
  ptype := t
  m := s.bodies.map (·.m)
  x := s.bodies.map (·.x)
  y := s.bodies.map (·.y)
  z := s.bodies.map (·.z)
  vx := s.bodies.map (·.vx)
  vy := s.bodies.map (·.vy)
  vz := s.bodies.map (·.vz)
  potential := if s.hasPot then some (s.bodies.map (·.pot)) else none
  softening := s.soft
  hasPotential := s.hasPot
  kineticEnergy := s.bodies.map Body.kinetic
  totalEnergy := if s.hasPot then some (s.bodies.map Body.energy) else none
  Jx := s.bodies.map Body.jx
  Jy := s.bodies.map Body.jy
  Jz := s.bodies.map Body.jz

/-- Three lists of particles; the potential is known for all or for none. -/
structure BGalaxy (F : Type) where
  stars : List (Body F)
  dm : List (Body F)
  gas : List (Body F)
  hasPot : Bool
  softS : F
  softDm : F
  softG : F

namespace BGalaxy
/-- the three sets -/
def sSet (g : BGalaxy F) : BSet F := ⟨g.stars, g.hasPot, g.softS⟩
/-- the three sets -/
def dmSet (g : BGalaxy F) : BSet F := ⟨g.dm, g.hasPot, g.softDm⟩
/-- the three sets -/
def gSet (g : BGalaxy F) : BSet F := ⟨g.gas, g.hasPot, g.softG⟩
/-- all particles, stars first, then dark matter, then gas -/
def all (g : BGalaxy F) : List (Body F) := g.stars ++ g.dm ++ g.gas
/-- apply a function to every particle -/
def mapBodies (f : Body F → Body F) (g : BGalaxy F) : BGalaxy F :=
  { g with stars := g.stars.map f, dm := g.dm.map f, gas := g.gas.map f }
end BGalaxy

/-- the galaxy object that represents three lists of particles -/
def Galaxy.ofBodies (g : BGalaxy F) : Galaxy F where
  stars := .ofBodies .stars g.sSet
  darkMatter := .ofBodies .darkMatter g.dmSet
  gas := .ofBodies .gas g.gSet
  hasPotential := g.hasPot

/-- A particle set some call of the constructor returned. -/
def ParticleSet.Valid (p : ParticleSet F) : Prop := ∃ t a, ParticleSet.new t a = .ok p

/-- A galaxy some call of the constructor returned on particle sets the constructor returned. -/
def Galaxy.Valid (g : Galaxy F) : Prop :=
  ∃ s d h, ParticleSet.Valid s ∧ ParticleSet.Valid d ∧ ParticleSet.Valid h ∧
    Galaxy.new s d h = .ok g

end GChop
