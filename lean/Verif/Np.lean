import Verif.Py
import Verif.Num

/-!
# The numpy operations used by the package, on lists

One-dimensional arrays are lists.  These definitions model numpy, not a file of the repository;
each one names the call it stands for.
-/

namespace GChop.Np
open GChop

variable {α β γ : Type} {F : Type} [Num F]

/-- numpy broadcasting of a binary operation on two 1-D arrays: equal lengths, or one of them has
length one; everything else raises `ValueError` ("operands could not be broadcast"). -/
def bcast (f : α → β → γ) (a : List α) (b : List β) : Py (List γ) :=
  if a.length = b.length then .ok (List.zipWith f a b)
  else match a, b with
    | [x], b => .ok (b.map (f x))
    | a, [y] => .ok (a.map (f · y))
    | _, _ => .error .valueError

/-- `np.where(mask)[0]`: the indices of the true entries, increasing. -/
def whereIdx (mask : List Bool) : List Nat :=
  (List.range mask.length).filter fun i => mask.getD i false

/-- `a[idx]` for an integer index array whose entries are in range (in the code every such index
array comes from `np.where` on an array of the same length). -/
def take (a : List α) (idx : List Nat) : List α := idx.filterMap (a[·]?)

/-- `a[mask]` for a boolean mask; numpy raises `IndexError` on a length mismatch. -/
def compress (mask : List Bool) (a : List α) : Py (List α) :=
  if mask.length = a.length then .ok (((mask.zip a).filter (·.1)).map (·.2))
  else .error .indexError

/-- write `vals` one after the other at the positions `idx` -/
def writeAt : List α → List Nat → List α → List α
  | a, i :: is, v :: vs => writeAt (a.set i v) is vs
  | a, _, _ => a

/-- `a[idx] = vals` with an integer index array: `IndexError` if an index is out of range, a
single value is broadcast, any other length mismatch is a `ValueError`. -/
def scatter (a : List α) (idx : List Nat) (vals : List α) : Py (List α) :=
  if idx.all (· < a.length) then
    if vals.length = idx.length then .ok (writeAt a idx vals)
    else match vals with
      | [v] => .ok (writeAt a idx (List.replicate idx.length v))
      | _ => .error .valueError
  else .error .indexError

/-- `a[idx] = v` with a scalar `v`. -/
def fillAt (a : List α) (idx : List Nat) (v : α) : Py (List α) :=
  if idx.all (· < a.length) then .ok (writeAt a idx (List.replicate idx.length v))
  else .error .indexError

/-- put the next value at every true position -/
def writeMask : List α → List Bool → List α → List α
  | _ :: as, true :: ms, v :: vs => v :: writeMask as ms vs
  | a :: as, _ :: ms, vs => a :: writeMask as ms vs
  | as, _, _ => as

/-- `a[mask] = vals` with a boolean mask of the same length. -/
def assignMask (a : List α) (mask : List Bool) (vals : List α) : Py (List α) :=
  if mask.length = a.length then
    if vals.length = mask.count true then .ok (writeMask a mask vals)
    else match vals with
      | [v] => .ok (writeMask a mask (List.replicate (mask.count true) v))
      | _ => .error .valueError
  else .error .indexError

/-- the better of two candidates for `np.min`: NaN wins, then the smaller -/
def min2 (a b : F) : F := if Num.isNaN a then a else if Num.isNaN b then b else if b <. a then b else a
/-- the better of two candidates for `np.max`: NaN wins, then the larger -/
def max2 (a b : F) : F := if Num.isNaN a then a else if Num.isNaN b then b else if a <. b then b else a

/-- `np.min(a)`; `ValueError` on an empty array. -/
def amin : List F → Py F
  | [] => .error .valueError
  | x :: xs => .ok (xs.foldl min2 x)

/-- `np.max(a)`; `ValueError` on an empty array. -/
def amax : List F → Py F
  | [] => .error .valueError
  | x :: xs => .ok (xs.foldl max2 x)

/-- index and value of the best element so far, `better new old` meaning that `new` replaces `old` -/
def argBestAux (better : F → F → Bool) : List F → Nat → Nat × F → Nat × F
  | [], _, best => best
  | x :: xs, i, best => argBestAux better xs (i + 1) (if better x best.2 then (i, x) else best)

/-- `np.argmin(a)`: the first NaN if there is one, else the first minimum; `ValueError` if empty. -/
def argmin : List F → Py Nat
  | [] => .error .valueError
  | x :: xs =>
    .ok (argBestAux (fun n o => !Num.isNaN o && (Num.isNaN n || (n <. o))) xs 1 (0, x)).1

/-- `np.argmax(a)`: the first NaN if there is one, else the first maximum; `ValueError` if empty. -/
def argmax : List F → Py Nat
  | [] => .error .valueError
  | x :: xs =>
    .ok (argBestAux (fun n o => !Num.isNaN o && (Num.isNaN n || (o <. n))) xs 1 (0, x)).1

/-- `np.arange(start, stop, step)`: `ZeroDivisionError` for step zero, `ValueError` for a NaN step.
The first two elements are `start` and `start + step`, element `i >= 2` is
`start + i * ((start + step) - start)`. -/
def arange (start stop step : F) : Py (List F) :=
  if Num.isNaN step then .error .valueError
  else if step ==. Num.zero then .error .zeroDivisionError
  else
    let delta := (start +. step) -. start
    .ok ((List.range (Num.arangeLen start stop step)).map fun (i : Nat) =>
      if i = 0 then start else if i = 1 then start +. step
      else start +. (Num.ofInt i *. delta))

/-- `np.linspace(start, stop, n + 1)`: `i * ((stop - start)/n) + start`, the last element is
exactly `stop`. -/
def linspace (start stop : F) (n : Nat) : List F :=
  let step := (stop -. start) /. Num.ofInt n
  ((List.range n).map fun (i : Nat) => (Num.ofInt i *. step) +. start) ++ [stop]

/-- `np.allclose(a, b, rtol, atol)` on two scalars: `|a - b| <= atol + rtol * |b|` for finite
values, equality for infinite ones. -/
def isclose (rtol atol a b : F) : Bool :=
  if Num.isFinite a && Num.isFinite b then
    Num.abs (a -. b) <=. (atol +. (rtol *. Num.abs b))
  else a ==. b

/-- `np.argsort` is not stable by default: it is any function that returns the positions of its
argument in an order in which the values are non-decreasing, NaN last. -/
def ArgsortOK (argsort : List F → List Nat) : Prop :=
  ∀ l : List F, (argsort l).Perm (List.range l.length) ∧
    (argsort l).Pairwise (fun i j => ∀ a b, l[i]? = some a → l[j]? = some b →
      (a <=. b) = true ∨ Num.isNaN b = true)

/-- the element at position `-k` of a non-empty array, in range wherever it is used -/
def fromEnd (l : List F) (k : Nat) : F := l.getD (l.length - k) Num.nan

/-- `np.interp(key, xp, fp)` for one key and a non-empty table.  `locate` is numpy's search for the
interval. -/
def interp1 (locate : List F → F → Nat) (xp fp : List F) (key : F) : F :=
  let at' (l : List F) (k : Nat) : F := l.getD k Num.nan
  let n := xp.length
  if n = 1 then at' fp 0
  else if Num.isNaN key then key
  else if at' xp (n - 1) <. key then at' fp (n - 1)
  else if key <. at' xp 0 then at' fp 0
  else
    let j := locate xp key
    if j = n - 1 then at' fp j
    else if at' xp j ==. key then at' fp j
    else
      let slope := (at' fp (j + 1) -. at' fp j) /. (at' xp (j + 1) -. at' xp j)
      let r := (slope *. (key -. at' xp j)) +. at' fp j
      if Num.isNaN r then
        let r' := (slope *. (key -. at' xp (j + 1))) +. at' fp (j + 1)
        if Num.isNaN r' && (at' fp j ==. at' fp (j + 1)) then at' fp j else r'
      else r

/-- `np.interp(keys, xp, fp)`; `ValueError` for an empty table or different lengths. -/
def interp (locate : List F → F → Nat) (keys xp fp : List F) : Py (List F) :=
  if xp.length = 0 ∨ xp.length ≠ fp.length then .error .valueError
  else .ok (keys.map (interp1 locate xp fp))

/-- The search inside `np.interp` is a bisection that starts from the previous hit.  All that is
assumed: for a key between the first and the last entry of a non-decreasing table it finds the last
entry that is not above the key; on any other table it finds some position. -/
def LocateOK (locate : List F → F → Nat) : Prop :=
  ∀ (xp : List F) (key : F), xp ≠ [] → locate xp key < xp.length ∧
    (xp.Pairwise (fun a b => (a <=. b) = true) →
      (∀ a, xp[0]? = some a → (a <=. key) = true) →
      (∀ a, xp[locate xp key]? = some a → (a <=. key) = true) ∧
      ∀ k a, locate xp key < k → xp[k]? = some a → (key <. a) = true)

end GChop.Np
