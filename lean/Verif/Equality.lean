import Verif.Models

/-!
# `==` and `hash` of the objects

The classes are made by `uttr.s` and `attr.s` with their defaults for comparison (data.py:59 and 278,
_base.py:41, 170 and 184-216, _circ.py:44, plot.py:34): `__eq__` compares the attributes in order when the
classes are the same, and since the classes are frozen `__hash__` hashes the attributes in order.  Older
versions of attrs compare the two tuples of attributes, which skips attributes that are the same object; newer ones compare
attribute by attribute.  Both are modelled (`EqEnv.tuples`).

The truth value of an array with two or more entries raises `ValueError`.  What an empty array and arrays
of different lengths do depends on the version of numpy; both are parameters, as are the comparison and
the hash of values of unknown type (`PyVal.other`).  Simplifications: quantities are in the default units,
integers are compared with floats after rounding, and lists are compared item by item before their
lengths.
-/

namespace GChop

variable {F : Type} [Num F]

/-- the parts of a comparison that the code does not determine -/
structure EqEnv (F : Type) where
  /-- attrs compares tuples of attributes -/
  tuples : Bool
  /-- `a is b` -/
  same : PyVal F → PyVal F → Bool
  /-- comparison with a value of unknown type -/
  other : Py Bool
  /-- the truth value of an empty array -/
  empty : Py Bool
  /-- the truth value of the comparison of arrays with different lengths, neither of them one -/
  mismatch : Py Bool

/-- an object is equal to itself as a value -/
def EqEnv.OK (e : EqEnv F) : Prop := ∀ a b, e.same a b = true → a = b

/-- the value of a number -/
def numberOf? : PyVal F → Option F
  | .float x => some x
  | .int i => some (Num.ofInt i)
  | .bool b => some (Num.ofInt (if b then 1 else 0))
  | _ => none

/-- a number that is an integer -/
def integerOf? : PyVal F → Option Int
  | .int i => some i
  | .bool b => some (if b then 1 else 0)
  | _ => none

/-- `a == b` for values without parts -/
def atomEq (e : EqEnv F) : PyVal F → PyVal F → Py Bool
  | .other, _ => e.other
  | _, .other => e.other
  | .str s, .str t => .ok (s == t)
  | .none, .none => .ok true
  | a, b =>
    match integerOf? a, integerOf? b with
    | some i, some j => .ok (i == j)
    | _, _ =>
      match numberOf? a, numberOf? b with
      | some x, some y => .ok (x ==. y)
      | _, _ => .ok false

mutual
/-- `a == b` -/
def pyEq (e : EqEnv F) : PyVal F → PyVal F → Py Bool
  | .tuple a, .tuple b => seqEq e a b
  | .list a, .list b => seqEq e a b
  | a, b => atomEq e a b
/-- `a == b` of the items of two tuples or two lists: the same object, or equal -/
def seqEq (e : EqEnv F) : List (PyVal F) → List (PyVal F) → Py Bool
  | [], [] => .ok true
  | a :: l, b :: m =>
    if e.same a b then seqEq e l m
    else
      match pyEq e a b with
      | .ok true => seqEq e l m
      | r => r
  | _, _ => .ok false
end

/-- the generated `__eq__` on the attributes: for each one whether it is the same object, and `==` -/
def fieldsEq (e : EqEnv F) : List (Bool × Py Bool) → Py Bool
  | [] => .ok true
  | (same, r) :: l =>
    if e.tuples && same then fieldsEq e l
    else
      match r with
      | .ok true => fieldsEq e l
      | r => r

/-- `a == b` of hyperparameters; generators are compared by identity -/
def hvalEq (e : EqEnv F) : HVal F → HVal F → Py Bool
  | .gen a, .gen b => .ok (a == b)
  | .py a, .py b => pyEq e a b
  | .py .other, _ => e.other
  | _, .py .other => e.other
  | _, _ => .ok false

/-- `a is b` of hyperparameters -/
def hvalSame (e : EqEnv F) : HVal F → HVal F → Bool
  | .gen a, .gen b => a == b
  | .py a, .py b => e.same a b
  | _, _ => false

/-- `x == y` of decomposers, _base.py:170 and 199-216 -/
def Obj.eq (e : EqEnv F) (x y : Obj F) : Py Bool :=
  if x.cls = y.cls then
    fieldsEq e ((x.attrs.zip y.attrs).map fun p => (hvalSame e p.1.2 p.2.2, hvalEq e p.1.2 p.2.2))
  else .ok false

mutual
/-- whether a value has a hash; `other` for values of unknown type -/
def hasHash (other : Bool) : PyVal F → Bool
  | .list _ => false
  | .tuple l => allHash other l
  | .other => other
  | _ => true
/-- whether all items have a hash -/
def allHash (other : Bool) : List (PyVal F) → Bool
  | [] => true
  | v :: l => hasHash other v && allHash other l
end

/-- whether a hyperparameter has a hash; generators do, by identity -/
def HVal.hashable (other : Bool) : HVal F → Bool
  | .py v => hasHash other v
  | .gen _ => true

/-- `hash(x)` of a decomposer: `hashV` is the hash of the values and `mix` that of a tuple -/
def Obj.hash (other : Bool) (hashV : HVal F → Int) (mix : Cls → List Int → Int) (x : Obj F) : Py Int :=
  if x.attrs.all fun kv => kv.2.hashable other then .ok (mix x.cls (x.attrs.map fun kv => hashV kv.2))
  else .error .typeError

/-! ### data -/

/-- `bool(array)` -/
def arrTruth (e : EqEnv F) : List Bool → Py Bool
  | [] => e.empty
  | [b] => .ok b
  | _ => .error .valueError

/-- `bool(a == b)` of two arrays -/
def arrEq {α : Type} (e : EqEnv F) (eq : α → α → Bool) (a b : List α) : Py Bool :=
  if a.length = b.length then arrTruth e (List.zipWith eq a b)
  else
    match a, b with
    | [x], b => arrTruth e (b.map (eq x))
    | a, [y] => arrTruth e (a.map fun x => eq x y)
    | _, _ => e.mismatch

/-- `a == b` of arrays that may be `None` -/
def optArrEq (e : EqEnv F) : Option (List F) → Option (List F) → Py Bool
  | none, none => .ok true
  | some a, some b => arrEq e Num.eq a b
  | _, _ => .ok false

/-- the generated `__eq__` of `ParticleSet`, data.py:59-125; `same` are the attributes that are the same
object -/
def ParticleSet.eq (e : EqEnv F) (same : String → Bool) (p q : ParticleSet F) : Py Bool :=
  let arr (name : String) (f : ParticleSet F → List F) := (same name, arrEq e Num.eq (f p) (f q))
  fieldsEq e [
    (decide (p.ptype = q.ptype), .ok (decide (p.ptype = q.ptype))),
    arr "m" (·.m), arr "x" (·.x), arr "y" (·.y), arr "z" (·.z),
    arr "vx" (·.vx), arr "vy" (·.vy), arr "vz" (·.vz),
    (same "potential", optArrEq e p.potential q.potential),
    (same "softening", .ok (p.softening ==. q.softening)),
    (p.hasPotential == q.hasPotential, .ok (p.hasPotential == q.hasPotential)),
    arr "kinetic_energy_" (·.kineticEnergy),
    (same "total_energy_", optArrEq e p.totalEnergy q.totalEnergy),
    arr "Jx_" (·.Jx), arr "Jy_" (·.Jy), arr "Jz_" (·.Jz)]

/-- the attributes two galaxies have in common, as objects -/
structure Common where
  sets : PType → Bool
  arrays : PType → String → Bool

/-- a set is the same object only together with its attributes -/
def Common.OK (c : Common) : Prop := ∀ t, c.sets t = true → ∀ a, c.arrays t a = true

/-- the generated `__eq__` of `Galaxy`, data.py:278-305 -/
def Galaxy.eq (e : EqEnv F) (c : Common) (g h : Galaxy F) : Py Bool :=
  fieldsEq e [
    (c.sets .stars, g.stars.eq e (c.arrays .stars) h.stars),
    (c.sets .darkMatter, g.darkMatter.eq e (c.arrays .darkMatter) h.darkMatter),
    (c.sets .gas, g.gas.eq e (c.arrays .gas) h.gas),
    (g.hasPotential == h.hasPotential, .ok (g.hasPotential == h.hasPotential))]

/-- the generated `__eq__` of `Components`, _base.py:41-66; `same` are the attributes that are the same
object.  The probabilities are compared by rows: a matrix with more than one entry has no truth value. -/
def Components.eq (e : EqEnv F) (same : String → Bool) (a b : Components F) : Py Bool :=
  fieldsEq e [
    (same "labels", arrEq e (fun x y => x == y) a.labels b.labels),
    (same "ptypes", arrEq e (fun x y => x == y) a.ptypes b.ptypes),
    (same "probabilities",
      match a.probabilities, b.probabilities with
      | none, none => .ok true
      | some p, some q => arrEq e Num.eq p.rows.flatten q.rows.flatten
      | _, _ => .ok false)]

/-- the generated `__eq__` of `JCirc`, _circ.py:44-73; `same` are the attributes that are the same object -/
def JCirc.eq (e : EqEnv F) (same : String → Bool) (a b : JCirc F) : Py Bool :=
  let arr (name : String) (f : JCirc F → List F) := (same name, arrEq e Num.eq (f a) (f b))
  fieldsEq e [arr "normalized_star_energy" (·.normalizedStarEnergy),
    arr "normalized_star_Jz" (·.normalizedStarJz), arr "eps" (·.eps), arr "eps_r" (·.epsR),
    arr "x" (·.x), arr "y" (·.y)]

/-- the generated `__eq__` of `GalaxyPlotter`, plot.py:34-40, on the plotters `g.plot` and `h.plot`
(data.py:412-416); `same` says whether `g` and `h` are the same object -/
def Galaxy.plotEq (e : EqEnv F) (same : Bool) (c : Common) (g h : Galaxy F) : Py Bool :=
  fieldsEq e [(same, g.eq e c h)]

/-- an attribute for the generated `__hash__`: hashable or an array -/
inductive HashField where
  | plain
  | array

/-- the generated `__hash__`: the hash of a tuple raises at the first array; the value is not modelled -/
def fieldsHash : List HashField → Py Unit
  | [] => .ok ()
  | .plain :: l => fieldsHash l
  | .array :: _ => .error .typeError

/-- `None` has a hash, an array has none -/
def optHash {α : Type} : Option α → HashField
  | none => .plain
  | some _ => .array

/-- `hash(p)` of a `ParticleSet`, data.py:59-125 -/
def ParticleSet.hash (p : ParticleSet F) : Py Unit :=
  fieldsHash ([.plain] ++ List.replicate 7 .array ++ [optHash p.potential, .plain, .plain, .array,
    optHash p.totalEnergy, .array, .array, .array])

/-- `hash(g)` of a `Galaxy`, data.py:278-305 -/
def Galaxy.hash (g : Galaxy F) : Py Unit := do
  g.stars.hash
  g.darkMatter.hash
  g.gas.hash

/-- `hash(c)` of a `Components`, _base.py:41-66 -/
def Components.hash (c : Components F) : Py Unit :=
  fieldsHash [.array, .array, optHash c.probabilities]

/-- `hash(j)` of a `JCirc`, _circ.py:44-73 -/
def JCirc.hash (_ : JCirc F) : Py Unit := fieldsHash (List.replicate 6 .array)

/-- `hash(g.plot)`: the hash of a tuple with the galaxy, plot.py:34-40 -/
def Galaxy.plotHash (g : Galaxy F) : Py Unit := g.hash

end GChop
