/-!
# Python basics: exceptions as values and insertion-ordered dictionaries

These definitions model the Python runtime, not a file of the repository.  They are used by the
models of the files in `/repo/galaxychop`.
-/

namespace GChop

/-- The Python exception classes that the modelled code can raise. -/
inductive PyErr where
  | valueError
  | typeError
  | keyError
  | indexError
  | attributeError
  | zeroDivisionError
  | osError
  | notImplemented
  deriving DecidableEq, Repr

/-- A Python computation: a value or a raised exception. -/
abbrev Py (α : Type) := Except PyErr α

/-- Decidable equality of Python results, used to evaluate concrete cases. -/
instance {α : Type} [DecidableEq α] : DecidableEq (Py α)
  | .ok a, .ok b => if h : a = b then isTrue (by rw [h]) else isFalse (by simp [h])
  | .error a, .error b => if h : a = b then isTrue (by rw [h]) else isFalse (by simp [h])
  | .ok _, .error _ => isFalse (by simp)
  | .error _, .ok _ => isFalse (by simp)

/-- A Python `dict` (insertion ordered): an association list with at most one entry per key.
`Dict.set` keeps that invariant. -/
abbrev Dict (κ ν : Type) := List (κ × ν)

namespace Dict
variable {κ ν : Type} [DecidableEq κ]

/-- `d.get(k)` -/
def get? : Dict κ ν → κ → Option ν
  | [], _ => none
  | (k', v) :: d, k => if k' = k then some v else get? d k

/-- `d[k]`, which raises `KeyError` when the key is missing. -/
def getItem (d : Dict κ ν) (k : κ) : Py ν :=
  match get? d k with
  | some v => .ok v
  | none => .error .keyError

/-- `d[k] = v`: replaces in place or appends at the end. -/
def set : Dict κ ν → κ → ν → Dict κ ν
  | [], k, v => [(k, v)]
  | (k', v') :: d, k, v => if k' = k then (k', v) :: d else (k', v') :: set d k v

/-- `del d[k]` / `d.pop(k)` without the value. -/
def erase : Dict κ ν → κ → Dict κ ν
  | [], _ => []
  | (k', v') :: d, k => if k' = k then erase d k else (k', v') :: erase d k

/-- `d.update(e)` -/
def update (d e : Dict κ ν) : Dict κ ν := e.foldl (fun acc kv => set acc kv.1 kv.2) d

/-- `list(d.keys())` -/
def keys (d : Dict κ ν) : List κ := d.map (·.1)

end Dict
end GChop
