import Verif.Spec.Bodies
import Verif.Ext
import Mathlib.LinearAlgebra.CrossProduct
import Mathlib.LinearAlgebra.UnitaryGroup

/-!
# Galaxies as lists of vectors

Exact arithmetic view of a galaxy with finite data: mass, position and velocity of a particle are a
number and two vectors over an ordered field.
-/

namespace GChop

open Matrix

/-- One particle: mass, position, velocity; the potential may be any float. -/
structure KBody (K : Type) where
  m : K
  r : Fin 3 → K
  v : Fin 3 → K
  pot : Ext K

/-- Three lists of particles. -/
structure KGalaxy (K : Type) where
  stars : List (KBody K)
  dm : List (KBody K)
  gas : List (KBody K)
  hasPot : Bool
  softS : Ext K
  softDm : Ext K
  softG : Ext K

variable {K : Type}

/-- the record of floats -/
def KBody.body (k : KBody K) : Body (Ext K) :=
  ⟨.fin k.m, .fin (k.r 0), .fin (k.r 1), .fin (k.r 2), .fin (k.v 0), .fin (k.v 1), .fin (k.v 2),
    k.pot⟩

/-- the galaxy of floats -/
def KGalaxy.toB (g : KGalaxy K) : BGalaxy (Ext K) :=
  ⟨g.stars.map KBody.body, g.dm.map KBody.body, g.gas.map KBody.body, g.hasPot, g.softS, g.softDm,
    g.softG⟩

/-- apply a function to every particle -/
def KGalaxy.map (f : KBody K → KBody K) (g : KGalaxy K) : KGalaxy K :=
  { g with stars := g.stars.map f, dm := g.dm.map f, gas := g.gas.map f }

/-- all particles -/
def KGalaxy.all (g : KGalaxy K) : List (KBody K) := g.stars ++ g.dm ++ g.gas

/-- a float is a finite number -/
def Ext.IsFin : Ext K → Prop
  | .fin _ => True
  | _ => False

/-- masses, positions and velocities are finite numbers -/
def BGalaxy.FinData (b : BGalaxy (Ext K)) : Prop :=
  ∀ a ∈ b.all, a.m.IsFin ∧ a.x.IsFin ∧ a.y.IsFin ∧ a.z.IsFin ∧ a.vx.IsFin ∧ a.vy.IsFin ∧ a.vz.IsFin

theorem Ext.IsFin.exists {a : Ext K} (h : a.IsFin) : ∃ x, a = .fin x := by
  cases a with
  | fin x => exact ⟨x, rfl⟩
  | _ => exact absurd h (by simp [Ext.IsFin])

theorem exists_KBody {l : List (Body (Ext K))}
    (h : ∀ a ∈ l, a.m.IsFin ∧ a.x.IsFin ∧ a.y.IsFin ∧ a.z.IsFin ∧ a.vx.IsFin ∧ a.vy.IsFin ∧
      a.vz.IsFin) : ∃ k : List (KBody K), l = k.map KBody.body := by
  induction l with
  | nil => exact ⟨[], rfl⟩
  | cons a l ih =>
    obtain ⟨k, rfl⟩ := ih fun b hb => h b (List.mem_cons_of_mem _ hb)
    obtain ⟨h1, h2, h3, h4, h5, h6, h7⟩ := h a List.mem_cons_self
    obtain ⟨m, e1⟩ := h1.exists
    obtain ⟨x, e2⟩ := h2.exists
    obtain ⟨y, e3⟩ := h3.exists
    obtain ⟨z, e4⟩ := h4.exists
    obtain ⟨vx, e5⟩ := h5.exists
    obtain ⟨vy, e6⟩ := h6.exists
    obtain ⟨vz, e7⟩ := h7.exists
    refine ⟨⟨m, ![x, y, z], ![vx, vy, vz], a.pot⟩ :: k, ?_⟩
    cases a
    simp_all [KBody.body]

/-- every galaxy with finite data is a galaxy of vectors -/
theorem BGalaxy.finData_iff {b : BGalaxy (Ext K)} : b.FinData ↔ ∃ g : KGalaxy K, b = g.toB := by
  constructor
  · intro h
    obtain ⟨s, hs⟩ := exists_KBody (l := b.stars) fun a ha => h a (by simp [BGalaxy.all, ha])
    obtain ⟨d, hd⟩ := exists_KBody (l := b.dm) fun a ha => h a (by simp [BGalaxy.all, ha])
    obtain ⟨g, hg⟩ := exists_KBody (l := b.gas) fun a ha => h a (by simp [BGalaxy.all, ha])
    refine ⟨⟨s, d, g, b.hasPot, b.softS, b.softDm, b.softG⟩, ?_⟩
    cases b
    simp_all [KGalaxy.toB]
  · rintro ⟨g, rfl⟩ a ha
    simp only [BGalaxy.all, KGalaxy.toB, List.mem_append, List.mem_map] at ha
    rcases ha with (⟨k, _, rfl⟩ | ⟨k, _, rfl⟩) | ⟨k, _, rfl⟩ <;>
    simp [KBody.body, Ext.IsFin]

section
variable [Field K]

/-- specific angular momentum `r × v` -/
def KBody.L (k : KBody K) : Fin 3 → K := crossProduct k.r k.v

/-- apply a matrix to position and velocity -/
def KBody.rotate (A : Matrix (Fin 3) (Fin 3) K) (k : KBody K) : KBody K :=
  { k with r := A *ᵥ k.r, v := A *ᵥ k.v }

/-- apply a matrix to every particle of every type -/
def KGalaxy.rotate (A : Matrix (Fin 3) (Fin 3) K) (g : KGalaxy K) : KGalaxy K :=
  g.map (KBody.rotate A)

variable [LinearOrder K]

/-- closer to the origin than the cut radius -/
def KBody.inside (rCut : Option K) (k : KBody K) : Bool :=
  match rCut with
  | none => true
  | some c => decide (0 < c ∧ k.r ⬝ᵥ k.r < c * c)

/-- mass-weighted total angular momentum of the particles inside the cut radius -/
def totalL (rCut : Option K) (l : List (KBody K)) : Fin 3 → K :=
  ((l.filter (KBody.inside rCut)).map fun k => k.m • k.L).sum

end

end GChop
