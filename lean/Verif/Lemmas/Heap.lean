import Verif.Heap
import Verif.Lemmas.Dict

/-!
# Galaxies in memory and their values
-/

set_option linter.unusedSectionVars false
set_option linter.unusedSimpArgs false

namespace GChop
open Pd InMem

variable {F : Type} [Num F] {α β γ δ : Type}

theorem Mem.at_prefix {h h' : Mem F} (hp : h <+: h') {a : Nat} (ha : a < h.length) :
    h'.at a = h.at a := by
  obtain ⟨t, rfl⟩ := hp
  simp [Mem.at, List.getD_eq_getElem?_getD, List.getElem?_append_left ha]

theorem Mem.at_append (h : Mem F) (l : List F) : (Mem.at (h ++ [l]) h.length) = l := by
  simp [Mem.at, List.getD_eq_getElem?_getD]

/-- `x` started in `h` keeps all arrays that exist and ends as `y` does: with the same error, or with
results related by `R` -/
def Runs (h : Mem F) (x : InMem F α) (y : Py β) (R : Mem F → α → β → Prop) : Prop :=
  h <+: (x h).2 ∧
    match (x h).1, y with
    | .ok a, .ok b => R (x h).2 a b
    | .error e, .error e' => e = e'
    | _, _ => False

theorem Runs.bind {h : Mem F} {x : InMem F α} {y : Py β} {R : Mem F → α → β → Prop}
    {f : α → InMem F γ} {k : β → Py δ} {R' : Mem F → γ → δ → Prop} (hx : Runs h x y R)
    (hf : ∀ h' a b, h <+: h' → R h' a b → Runs h' (f a) (k b) R') :
    Runs h (x >>= f) (y >>= k) R' := by
  obtain ⟨h1, h2⟩ := hx
  rcases hr : x h with ⟨r, h'⟩
  rw [hr] at h1 h2
  have e : (x >>= f) h = match x h with
    | (.ok a, h) => f a h
    | (.error e, h) => (.error e, h) := rfl
  cases r with
  | error e' =>
    cases y with
    | error e'' =>
      refine ⟨?_, ?_⟩ <;> rw [e, hr]
      · exact h1
      · exact h2
    | ok b => exact h2.elim
  | ok a =>
    cases y with
    | error e'' => exact h2.elim
    | ok b =>
      have := hf h' a b h1 h2
      refine ⟨?_, ?_⟩ <;> rw [e, hr]
      · exact h1.trans this.1
      · exact this.2

theorem Runs.left {h : Mem F} {x : InMem F α} {b : β} {R : Mem F → α → β → Prop}
    {f : α → InMem F γ} {y : Py δ} {R' : Mem F → γ → δ → Prop} (hx : Runs h x (.ok b) R)
    (hf : ∀ h' a, h <+: h' → R h' a b → Runs h' (f a) y R') : Runs h (x >>= f) y R' := by
  have hx' : Runs h x (.ok b) (fun h' a c => R h' a c ∧ c = b) := by
    obtain ⟨h1, h2⟩ := hx
    refine ⟨h1, ?_⟩
    revert h2
    cases (x h).1 <;> simp
  refine hx'.bind (k := fun _ => y) ?_
  rintro h' a c hp ⟨hR, rfl⟩
  exact hf h' a hp hR

theorem Runs.mono {h : Mem F} {x : InMem F α} {y : Py β} {R R' : Mem F → α → β → Prop}
    (hx : Runs h x y R) (hR : ∀ h' a b, h <+: h' → R h' a b → R' h' a b) : Runs h x y R' := by
  obtain ⟨h1, h2⟩ := hx
  refine ⟨h1, ?_⟩
  revert h2
  cases (x h).1 <;> cases y <;> simp only [imp_self]
  exact hR _ _ _ h1

theorem Runs.pure {h : Mem F} {a : α} {b : β} {R : Mem F → α → β → Prop} (hR : R h a b) :
    Runs h (pure a) (pure b) R := ⟨List.prefix_rfl, hR⟩

theorem Runs.raising {h : Mem F} {e : PyErr} {R : Mem F → α → β → Prop} :
    Runs h (raising e : InMem F α) (.error e) R := ⟨List.prefix_rfl, rfl⟩

/-- reading gives the value that was read -/
theorem Runs.reading {h : Mem F} (f : Mem F → Py α) :
    Runs h (reading f) (f h) (fun h' a b => h' = h ∧ a = b) := by
  refine ⟨List.prefix_rfl, ?_⟩
  have e : InMem.reading f h = (f h, h) := rfl
  rw [e]
  cases f h <;> simp

theorem Runs.alloc {h : Mem F} (l : List F) :
    Runs h (alloc l) (Except.ok l : Py (List F))
      (fun h' a b => h'.length = h.length + 1 ∧ a = h.length ∧ h'.at a = b) := by
  refine ⟨⟨[l], rfl⟩, ?_⟩
  exact ⟨by simp [InMem.alloc], rfl, Mem.at_append h l⟩

/-- one more step that only reads -/
theorem Runs.read_bind {h : Mem F} {f : Mem F → Py α} {k : α → InMem F γ} {k' : α → Py δ}
    {y : Py α} {R' : Mem F → γ → δ → Prop} (hy : f h = y) (hk : ∀ a, Runs h (k a) (k' a) R') :
    Runs h (InMem.reading f >>= k) (y >>= k') R' := by
  subst hy
  refine (Runs.reading f).bind ?_
  rintro h' a b - ⟨rfl, rfl⟩
  exact hk a

theorem Runs.read_left {h : Mem F} {f : Mem F → Py α} {k : α → InMem F γ} {b : α} {y : Py δ}
    {R' : Mem F → γ → δ → Prop} (hf : f h = .ok b) (hk : Runs h (k b) y R') :
    Runs h (InMem.reading f >>= k) y R' := by
  have e : (InMem.reading f >>= k) h = k b h := by
    show (match InMem.reading f h with
      | (.ok a, h) => k a h
      | (.error e, h) => (.error e, h)) = k b h
    have : InMem.reading f h = (.ok b, h) := by rw [← hf]; rfl
    rw [this]
  unfold Runs
  rw [e]
  exact hk

/-! ## Arguments -/

namespace HGiven

/-- the numbers of an argument -/
def read (h : Mem F) : HGiven F → List F
  | .array a => h.at a
  | .quantity a => h.at a
  | .temp l => l

/-- the arrays of an argument exist -/
def Live (h : Mem F) : HGiven F → Prop
  | .array a => a < h.length
  | .quantity a => a < h.length
  | .temp _ => True

/-- what is stored for the argument: a quantity itself, or a new array (`n` arrays existed before) -/
def Gives (n : Nat) (i : HGiven F) (a : Nat) : Prop :=
  match i with
  | .quantity b => a = b
  | _ => n ≤ a

theorem Live.mono {h h' : Mem F} (hp : h <+: h') {i : HGiven F} (hi : i.Live h) : i.Live h' := by
  cases i with
  | array a => exact lt_of_lt_of_le hi hp.length_le
  | quantity a => exact lt_of_lt_of_le hi hp.length_le
  | temp l => trivial

theorem read_prefix {h h' : Mem F} (hp : h <+: h') {i : HGiven F} (hi : i.Live h) :
    i.read h' = i.read h := by
  cases i with
  | array a => exact Mem.at_prefix hp hi
  | quantity a => exact Mem.at_prefix hp hi
  | temp l => rfl

theorem Gives.mono {n n' : Nat} (hn : n ≤ n') {i : HGiven F} {a : Nat} (h : i.Gives n' a) :
    i.Gives n a := by
  cases i with
  | array a => exact le_trans hn h
  | quantity a => exact h
  | temp l => exact le_trans hn h

end HGiven

/-- an attribute stored in memory `h'`: it exists, has the value and comes from the argument -/
structure HasArray (n : Nat) (h' : Mem F) (i : HGiven F) (a : Nat) (l : List F) : Prop where
  live : a < h'.length
  val : h'.at a = l
  gives : i.Gives n a

theorem HasArray.mono {n : Nat} {h h' : Mem F} (hp : h <+: h') {i : HGiven F} {a : Nat} {l : List F}
    (hi : HasArray n h i a l) : HasArray n h' i a l :=
  ⟨lt_of_lt_of_le hi.live hp.length_le, (Mem.at_prefix hp hi.live).trans hi.val, hi.gives⟩

theorem HasArray.weaken {n n' : Nat} (hn : n ≤ n') {h : Mem F} {i : HGiven F} {a : Nat} {l : List F}
    (hi : HasArray n' h i a l) : HasArray n h i a l := ⟨hi.live, hi.val, hi.gives.mono hn⟩

theorem attach_runs {n : Nat} {h : Mem F} (hn : n ≤ h.length) {i : HGiven F} (hi : i.Live h) :
    Runs h i.attach (Except.ok (i.read h)) (fun h' a l => HasArray n h' i a l) := by
  cases i with
  | array a =>
    refine Runs.read_bind (y := Except.ok (h.at a)) (k' := Except.ok) rfl fun l => ?_
    refine (Runs.alloc l).mono ?_
    rintro h' a' b - ⟨h1, rfl, h3⟩
    exact ⟨by omega, h3, hn⟩
  | quantity a => exact ⟨List.prefix_rfl, hi, rfl, rfl⟩
  | temp l =>
    refine (Runs.alloc l).mono ?_
    rintro h' a' b - ⟨h1, rfl, h3⟩
    exact ⟨by omega, h3, hn⟩

/-- what is stored for an optional argument -/
def GivesOpt (n : Nat) (i : Option (HGiven F)) (a : Option Nat) : Prop :=
  match i, a with
  | none, none => True
  | some j, some a => j.Gives n a
  | _, _ => False

/-- an optional attribute -/
def HasArrayOpt (n : Nat) (h' : Mem F) (i : Option (HGiven F)) (a : Option Nat)
    (l : Option (List F)) : Prop :=
  match i, a, l with
  | none, none, none => True
  | some i, some a, some l => HasArray n h' i a l
  | _, _, _ => False

theorem HasArrayOpt.mono {n : Nat} {h h' : Mem F} (hp : h <+: h') {i : Option (HGiven F)}
    {a : Option Nat} {l : Option (List F)} (hi : HasArrayOpt n h i a l) : HasArrayOpt n h' i a l := by
  cases i <;> cases a <;> cases l <;> simp only [HasArrayOpt] at hi ⊢
  exact hi.mono hp

theorem HasArrayOpt.weaken {n n' : Nat} (hn : n ≤ n') {h : Mem F} {i : Option (HGiven F)}
    {a : Option Nat} {l : Option (List F)} (hi : HasArrayOpt n' h i a l) : HasArrayOpt n h i a l := by
  cases i <;> cases a <;> cases l <;> simp only [HasArrayOpt] at hi ⊢
  exact hi.weaken hn

theorem HasArrayOpt.elim {n : Nat} {h : Mem F} {i : Option (HGiven F)} {a : Option Nat}
    {l : Option (List F)} (k : HasArrayOpt n h i a l) :
    (∀ b, a = some b → b < h.length) ∧ a.map (Mem.at h) = l ∧ a.isSome = i.isSome ∧
      GivesOpt n i a := by
  cases i <;> cases a <;> cases l <;> simp only [HasArrayOpt] at k
  · simp [GivesOpt]
  · refine ⟨fun b hb => ?_, ?_, rfl, k.gives⟩
    · cases hb; exact k.live
    · rw [Option.map_some, k.val]

theorem attachOpt_runs {n : Nat} {h : Mem F} (hn : n ≤ h.length) {i : Option (HGiven F)}
    (hi : ∀ j, i = some j → j.Live h) :
    Runs h (HSet.attachOpt i) (Except.ok (i.map (·.read h)))
      (fun h' a l => HasArrayOpt n h' i a l) := by
  cases i with
  | none => exact ⟨List.prefix_rfl, trivial⟩
  | some i =>
    refine Runs.bind (k := fun l => Except.ok (some l)) (attach_runs hn (hi i rfl)) ?_
    intro h' a l _ hR
    exact ⟨List.prefix_rfl, hR⟩

/-- a new array -/
structure Fresh (n : Nat) (h' : Mem F) (a : Nat) (l : List F) : Prop where
  live : a < h'.length
  val : h'.at a = l
  new : n ≤ a

theorem Fresh.mono {n : Nat} {h h' : Mem F} (hp : h <+: h') {a : Nat} {l : List F}
    (hi : Fresh n h a l) : Fresh n h' a l :=
  ⟨lt_of_lt_of_le hi.live hp.length_le, (Mem.at_prefix hp hi.live).trans hi.val, hi.new⟩

theorem Fresh.weaken {n n' : Nat} (hn : n ≤ n') {h : Mem F} {a : Nat} {l : List F}
    (hi : Fresh n' h a l) : Fresh n h a l := ⟨hi.live, hi.val, hn.trans hi.new⟩

theorem alloc_runs {n : Nat} {h : Mem F} (hn : n ≤ h.length) (l : List F) :
    Runs h (alloc l) (Except.ok l) (fun h' a l => Fresh n h' a l) := by
  refine (Runs.alloc l).mono ?_
  rintro h' a' b - ⟨h1, rfl, h3⟩
  exact ⟨by omega, h3, hn⟩

/-- an optional new array -/
def FreshOpt (n : Nat) (h' : Mem F) (a : Option Nat) (l : Option (List F)) : Prop :=
  match a, l with
  | none, none => True
  | some a, some l => Fresh n h' a l
  | _, _ => False

theorem FreshOpt.mono {n : Nat} {h h' : Mem F} (hp : h <+: h') {a : Option Nat}
    {l : Option (List F)} (hi : FreshOpt n h a l) : FreshOpt n h' a l := by
  cases a <;> cases l <;> simp only [FreshOpt] at hi ⊢
  exact hi.mono hp

theorem FreshOpt.weaken {n n' : Nat} (hn : n ≤ n') {h : Mem F} {a : Option Nat}
    {l : Option (List F)} (hi : FreshOpt n' h a l) : FreshOpt n h a l := by
  cases a <;> cases l <;> simp only [FreshOpt] at hi ⊢
  exact hi.weaken hn

theorem FreshOpt.elim {n : Nat} {h : Mem F} {a : Option Nat} {l : Option (List F)}
    (k : FreshOpt n h a l) :
    (∀ b, a = some b → b < h.length ∧ n ≤ b) ∧ a.map (Mem.at h) = l := by
  cases a <;> cases l <;> simp only [FreshOpt] at k
  · simp
  · refine ⟨fun b hb => ?_, ?_⟩
    · cases hb; exact ⟨k.live, k.new⟩
    · rw [Option.map_some, k.val]

theorem allocOpt_runs {n : Nat} {h : Mem F} (hn : n ≤ h.length) (l : Option (List F)) :
    Runs h (HSet.allocOpt l) (Except.ok l) (fun h' a l => FreshOpt n h' a l) := by
  cases l with
  | none => exact ⟨List.prefix_rfl, trivial⟩
  | some l =>
    refine Runs.bind (k := fun l => Except.ok (some l)) (alloc_runs hn l) ?_
    intro h' a l _ hR
    exact ⟨List.prefix_rfl, hR⟩

/-! ## Particle sets -/

/-- the numbers of the arguments -/
def HArgs.read (h : Mem F) (a : HArgs F) : PArgs F :=
  ⟨a.m.read h, a.x.read h, a.y.read h, a.z.read h, a.vx.read h, a.vy.read h, a.vz.read h,
    a.potential.map (·.read h), a.softening⟩

/-- the arrays of the arguments exist -/
structure HArgs.Live (h : Mem F) (a : HArgs F) : Prop where
  m : a.m.Live h
  x : a.x.Live h
  y : a.y.Live h
  z : a.z.Live h
  vx : a.vx.Live h
  vy : a.vy.Live h
  vz : a.vz.Live h
  potential : ∀ i, a.potential = some i → i.Live h

theorem HArgs.Live.mono {h h' : Mem F} (hp : h <+: h') {a : HArgs F} (ha : a.Live h) :
    a.Live h' :=
  ⟨ha.m.mono hp, ha.x.mono hp, ha.y.mono hp, ha.z.mono hp, ha.vx.mono hp, ha.vy.mono hp,
    ha.vz.mono hp, fun i hi => (ha.potential i hi).mono hp⟩

theorem HArgs.read_prefix {h h' : Mem F} (hp : h <+: h') {a : HArgs F} (ha : a.Live h) :
    a.read h' = a.read h := by
  simp only [HArgs.read, HGiven.read_prefix hp ha.m, HGiven.read_prefix hp ha.x,
    HGiven.read_prefix hp ha.y, HGiven.read_prefix hp ha.z, HGiven.read_prefix hp ha.vx,
    HGiven.read_prefix hp ha.vy, HGiven.read_prefix hp ha.vz]
  cases hq : a.potential with
  | none => rfl
  | some i => simp only [Option.map_some, HGiven.read_prefix hp (ha.potential i hq)]

/-- the addresses of the arrays of a particle set -/
def HSet.cols (p : HSet F) : List Nat :=
  [p.m, p.x, p.y, p.z, p.vx, p.vy, p.vz] ++ p.potential.toList ++ [p.kineticEnergy] ++
    p.totalEnergy.toList ++ [p.Jx, p.Jy, p.Jz]

/-- what a new particle set holds, given its arguments, when `n` arrays existed before the call -/
structure HSet.From (n : Nat) (i : HArgs F) (p : HSet F) : Prop where
  m : i.m.Gives n p.m
  x : i.x.Gives n p.x
  y : i.y.Gives n p.y
  z : i.z.Gives n p.z
  vx : i.vx.Gives n p.vx
  vy : i.vy.Gives n p.vy
  vz : i.vz.Gives n p.vz
  potential : GivesOpt n i.potential p.potential
  kineticEnergy : n ≤ p.kineticEnergy
  totalEnergy : ∀ a, p.totalEnergy = some a → n ≤ a
  Jx : n ≤ p.Jx
  Jy : n ≤ p.Jy
  Jz : n ≤ p.Jz

/-- Arrays stored one after the other: each one is the quantity given for it or a new array at an address
that was not in use. -/
def Stores : Nat → List (HGiven F × Nat) → Nat → Prop
  | L, [], L' => L ≤ L'
  | L, e :: es, L' => ∃ L1, L ≤ L1 ∧ e.1.Gives L e.2 ∧ e.2 < L1 ∧ Stores L1 es L'

/-- the address of a quantity -/
def HGiven.addr : HGiven F → Option Nat
  | .quantity a => some a
  | _ => none

theorem Stores.le {L L' : Nat} {es : List (HGiven F × Nat)} (h : Stores L es L') : L ≤ L' := by
  induction es generalizing L with
  | nil => exact h
  | cons e es ih =>
    obtain ⟨L1, h1, -, -, h2⟩ := h
    exact h1.trans (ih h2)

theorem Stores.weaken {L L' L'' : Nat} {es : List (HGiven F × Nat)} (h : Stores L es L')
    (hL : L' ≤ L'') : Stores L es L'' := by
  induction es generalizing L with
  | nil => exact le_trans h hL
  | cons e es ih =>
    obtain ⟨L1, h1, h2, h3, h4⟩ := h
    exact ⟨L1, h1, h2, h3, ih h4⟩

theorem Stores.append {L L' L'' : Nat} {es es' : List (HGiven F × Nat)} (h : Stores L es L')
    (h' : Stores L' es' L'') : Stores L (es ++ es') L'' := by
  induction es generalizing L with
  | nil =>
    cases es' with
    | nil => exact le_trans h h'
    | cons e es' =>
      obtain ⟨L1, h1, h2, h3, h4⟩ := h'
      exact ⟨L1, le_trans h h1, h2.mono h, h3, h4⟩
  | cons e es ih =>
    obtain ⟨L1, h1, h2, h3, h4⟩ := h
    exact ⟨L1, h1, h2, h3, ih h4⟩

theorem Stores.mem {L L' : Nat} {es : List (HGiven F × Nat)} (h : Stores L es L')
    {e : HGiven F × Nat} (he : e ∈ es) : e.1.addr = some e.2 ∨ L ≤ e.2 := by
  induction es generalizing L with
  | nil => cases he
  | cons e' es ih =>
    obtain ⟨L1, h1, h2, h3, h4⟩ := h
    rcases List.mem_cons.1 he with rfl | he
    · obtain ⟨i, a⟩ := e
      cases i with
      | quantity b => exact .inl (congrArg some h2.symm)
      | array b => exact .inr h2
      | temp l => exact .inr h2
    · exact (ih h4 he).imp_right h1.trans

/-- If no two arguments are the same quantity, no two stored arrays are the same. -/
theorem Stores.nodup {n L L' : Nat} {es : List (HGiven F × Nat)} (h : Stores L es L') (hn : n ≤ L)
    (hq : ∀ e ∈ es, ∀ b, e.1.addr = some b → b < n)
    (hd : (es.filterMap fun e => e.1.addr).Nodup) : (es.map (·.2)).Nodup := by
  induction es generalizing L with
  | nil => exact List.nodup_nil
  | cons e es ih =>
    obtain ⟨L1, h1, h2, h3, h4⟩ := h
    have hq' : ∀ e ∈ es, ∀ b, e.1.addr = some b → b < n :=
      fun e he => hq e (List.mem_cons_of_mem _ he)
    obtain ⟨i, a⟩ := e
    rw [List.map_cons, List.nodup_cons]
    cases i with
    | quantity b =>
      replace hd : (b :: es.filterMap fun e => e.1.addr).Nodup := hd
      rw [List.nodup_cons] at hd
      have hb : b < n := hq _ (List.mem_cons_self ..) b rfl
      have ha : a = b := h2
      subst ha
      refine ⟨fun hm => ?_, ih h4 (hn.trans h1) hq' hd.2⟩
      obtain ⟨e, he, hea⟩ := List.mem_map.1 hm
      rcases h4.mem he with h5 | h5
      · exact hd.1 (List.mem_filterMap.2 ⟨e, he, by rw [h5]; exact congrArg some hea⟩)
      · simp only at hea; omega
    | array b =>
      replace hd : (es.filterMap fun e => e.1.addr).Nodup := hd
      have ha : L ≤ a := h2
      refine ⟨fun hm => ?_, ih h4 (hn.trans h1) hq' hd⟩
      obtain ⟨e, he, hea⟩ := List.mem_map.1 hm
      rcases h4.mem he with h5 | h5
      · have := hq' e he _ h5; simp only at hea; omega
      · simp only at hea h3; omega
    | temp l =>
      replace hd : (es.filterMap fun e => e.1.addr).Nodup := hd
      have ha : L ≤ a := h2
      refine ⟨fun hm => ?_, ih h4 (hn.trans h1) hq' hd⟩
      obtain ⟨e, he, hea⟩ := List.mem_map.1 hm
      rcases h4.mem he with h5 | h5
      · have := hq' e he _ h5; simp only at hea; omega
      · simp only at hea h3; omega

/-- the arrays of a particle set with the arguments they were made from -/
def HSet.entries (i : HArgs F) (p : HSet F) : List (HGiven F × Nat) :=
  [(i.m, p.m), (i.x, p.x), (i.y, p.y), (i.z, p.z), (i.vx, p.vx), (i.vy, p.vy), (i.vz, p.vz)] ++
    p.potential.toList.map (fun a => (i.potential.getD (.temp []), a)) ++
    [(.temp [], p.kineticEnergy)] ++ p.totalEnergy.toList.map (fun a => (.temp [], a)) ++
    [(.temp [], p.Jx), (.temp [], p.Jy), (.temp [], p.Jz)]

theorem HSet.entries_cols (i : HArgs F) (p : HSet F) : (HSet.entries i p).map (·.2) = p.cols := by
  simp [HSet.entries, HSet.cols, Function.comp_def]

/-- a new particle set in memory `h'`; `L` arrays existed when it was made -/
structure HSet.Made (n L : Nat) (i : HArgs F) (h' : Mem F) (p : HSet F) (q : ParticleSet F) :
    Prop where
  stores : Stores L (HSet.entries i p) h'.length
  live : ∀ a ∈ p.cols, a < h'.length
  val : p.read h' = q
  shares : p.From n i

theorem HSet.read_congr {h h' : Mem F} {p : HSet F} (hc : ∀ a ∈ p.cols, h'.at a = h.at a) :
    p.read h' = p.read h := by
  have hm : ∀ a, a ∈ p.cols → h'.at a = h.at a := hc
  simp only [HSet.cols, List.mem_append, List.mem_cons, List.not_mem_nil, or_false,
    Option.mem_toList] at hm
  unfold HSet.read
  have e1 : p.potential.map h'.at = p.potential.map h.at := by
    cases hq : p.potential with
    | none => rfl
    | some a => simp only [Option.map_some]; rw [hm a (by simp [hq])]
  have e2 : p.totalEnergy.map h'.at = p.totalEnergy.map h.at := by
    cases hq : p.totalEnergy with
    | none => rfl
    | some a => simp only [Option.map_some]; rw [hm a (by simp [hq])]
  rw [e1, e2, hm p.m (by simp), hm p.x (by simp), hm p.y (by simp), hm p.z (by simp),
    hm p.vx (by simp), hm p.vy (by simp), hm p.vz (by simp), hm p.kineticEnergy (by simp),
    hm p.Jx (by simp), hm p.Jy (by simp), hm p.Jz (by simp)]

theorem HSet.Made.mono {n L : Nat} {i : HArgs F} {h h' : Mem F} (hp : h <+: h') {p : HSet F}
    {q : ParticleSet F} (hm : p.Made n L i h q) : p.Made n L i h' q :=
  ⟨hm.stores.weaken hp.length_le, fun a ha => lt_of_lt_of_le (hm.live a ha) hp.length_le,
    (HSet.read_congr fun a ha => Mem.at_prefix hp (hm.live a ha)).trans hm.val, hm.shares⟩

theorem set_runs {n : Nat} {h : Mem F} (hn : n ≤ h.length) (t : PType) {i : HArgs F}
    (hi : i.Live h) :
    Runs h (HSet.new t i) (ParticleSet.new t (i.read h))
      (fun h' p q => p.Made n h.length i h' q) := by
  unfold HSet.new
  refine (attach_runs le_rfl hi.m).left fun h1 m p1 km => ?_
  refine (attach_runs le_rfl (hi.x.mono p1)).left fun h2 x q2 kx => ?_
  have p2 := p1.trans q2
  refine (attach_runs le_rfl (hi.y.mono p2)).left fun h3 y q3 ky => ?_
  have p3 := p2.trans q3
  refine (attach_runs le_rfl (hi.z.mono p3)).left fun h4 z q4 kz => ?_
  have p4 := p3.trans q4
  refine (attach_runs le_rfl (hi.vx.mono p4)).left fun h5 vx q5 kvx => ?_
  have p5 := p4.trans q5
  refine (attach_runs le_rfl (hi.vy.mono p5)).left fun h6 vy q6 kvy => ?_
  have p6 := p5.trans q6
  refine (attach_runs le_rfl (hi.vz.mono p6)).left fun h7 vz q7 kvz => ?_
  have p7 := p6.trans q7
  refine (attachOpt_runs le_rfl
    fun j hj => (hi.potential j hj).mono p7).left fun h8 pot q8 kpot => ?_
  have p8 := p7.trans q8
  have cm := km
  have cx := kx
  have cy := ky
  have cz := kz
  have cvx := kvx
  have cvy := kvy
  have cvz := kvz
  have cpot := kpot
  replace km := km.weaken hn
  replace kx := kx.weaken (hn.trans p1.length_le)
  replace ky := ky.weaken (hn.trans p2.length_le)
  replace kz := kz.weaken (hn.trans p3.length_le)
  replace kvx := kvx.weaken (hn.trans p4.length_le)
  replace kvy := kvy.weaken (hn.trans p5.length_le)
  replace kvz := kvz.weaken (hn.trans p6.length_le)
  replace kpot := kpot.weaken (hn.trans p7.length_le)
  rw [HGiven.read_prefix p1 hi.x] at kx
  rw [HGiven.read_prefix p2 hi.y] at ky
  rw [HGiven.read_prefix p3 hi.z] at kz
  rw [HGiven.read_prefix p4 hi.vx] at kvx
  rw [HGiven.read_prefix p5 hi.vy] at kvy
  rw [HGiven.read_prefix p6 hi.vz] at kvz
  have epot : i.potential.map (·.read h7) = i.potential.map (·.read h) := by
    cases hq : i.potential with
    | none => rfl
    | some j => simp only [Option.map_some, HGiven.read_prefix p7 (hi.potential j hq)]
  rw [epot] at kpot
  have r7 := q8
  have r6 := q7.trans r7
  have r5 := q6.trans r6
  have r4 := q5.trans r5
  have r3 := q4.trans r4
  have r2 := q3.trans r3
  have r1 := q2.trans r2
  replace km := km.mono r1
  replace kx := kx.mono r2
  replace ky := ky.mono r3
  replace kz := kz.mono r4
  replace kvx := kvx.mono r5
  replace kvy := kvy.mono r6
  replace kvz := kvz.mono r7
  have hpv := kpot.elim.2.1
  refine Runs.read_left (b := i.read h) ?_ ?_
  · rw [km.val, kx.val, ky.val, kz.val, kvx.val, kvy.val, kvz.val, hpv]
    rfl
  unfold ParticleSet.new
  refine Runs.read_bind rfl fun keV => ?_
  refine (alloc_runs le_rfl keV).left fun h9 ke q9 kke => ?_
  have p9 := p8.trans q9
  refine Runs.read_bind (by rw [kke.val]) fun teV => ?_
  refine (allocOpt_runs le_rfl teV).left fun h10 te q10 kte => ?_
  have p10 := p9.trans q10
  refine Runs.read_bind rfl fun jxV => ?_
  refine (alloc_runs le_rfl jxV).left fun h11 jx q11 kjx => ?_
  have p11 := p10.trans q11
  refine Runs.read_bind rfl fun jyV => ?_
  refine (alloc_runs le_rfl jyV).left fun h12 jy q12 kjy => ?_
  have p12 := p11.trans q12
  refine Runs.read_bind rfl fun jzV => ?_
  refine (alloc_runs le_rfl jzV).left fun h13 jz q13 kjz => ?_
  have cke := kke
  have cte := kte
  have cjx := kjx
  have cjy := kjy
  have cjz := kjz
  replace kke := kke.weaken (hn.trans p8.length_le)
  replace kte := kte.weaken (hn.trans p9.length_le)
  replace kjx := kjx.weaken (hn.trans p10.length_le)
  replace kjy := kjy.weaken (hn.trans p11.length_le)
  replace kjz := kjz.weaken (hn.trans p12.length_le)
  have s12 := q13
  have s11 := q12.trans s12
  have s10 := q11.trans s11
  have s9 := q10.trans s10
  have s8 := q9.trans s9
  replace km := km.mono s8
  replace kx := kx.mono s8
  replace ky := ky.mono s8
  replace kz := kz.mono s8
  replace kvx := kvx.mono s8
  replace kvy := kvy.mono s8
  replace kvz := kvz.mono s8
  replace kpot := kpot.mono s8
  replace kke := kke.mono s9
  replace kte := kte.mono s10
  replace kjx := kjx.mono s11
  replace kjy := kjy.mono s12
  by_cases hd : ParticleSet.distinctLengths (i.read h) = true
  · rw [if_pos hd, if_pos hd]
    exact Runs.raising
  · rw [if_neg hd, if_neg hd]
    refine Runs.pure ⟨?_, ?_, ?_, ?_⟩
    · unfold HSet.entries
      refine Stores.append (L' := h10.length) (Stores.append (L' := h9.length)
        (Stores.append (L' := h8.length) (Stores.append (L' := h7.length) ?_ ?_) ?_) ?_) ?_
      · exact ⟨_, p1.length_le, cm.gives, cm.live, _, q2.length_le, cx.gives, cx.live,
          _, q3.length_le, cy.gives, cy.live, _, q4.length_le, cz.gives, cz.live,
          _, q5.length_le, cvx.gives, cvx.live, _, q6.length_le, cvy.gives, cvy.live,
          _, q7.length_le, cvz.gives, cvz.live, le_rfl⟩
      · have := cpot.elim.2.2.2
        have hl := cpot.elim.1
        revert this hl
        cases i.potential <;> cases pot <;>
          simp only [GivesOpt, false_imp_iff, Option.toList_none, Option.toList_some, List.map_nil,
            List.map_cons]
        · exact fun _ _ => q8.length_le
        · exact fun g hl => ⟨_, q8.length_le, g, hl _ rfl, le_rfl⟩
      · exact ⟨_, q9.length_le, cke.new, cke.live, le_rfl⟩
      · have := cte.elim.1
        revert this
        cases te <;> simp only [Option.toList_none, Option.toList_some, List.map_nil,
            List.map_cons]
        · exact fun _ => q10.length_le
        · exact fun k => ⟨_, q10.length_le, (k _ rfl).2, (k _ rfl).1, le_rfl⟩
      · exact ⟨_, q11.length_le, cjx.new, cjx.live, _, q12.length_le, cjy.new, cjy.live,
          _, q13.length_le, cjz.new, cjz.live, le_rfl⟩
    · intro a ha
      simp only [HSet.cols, List.mem_append, List.mem_cons, List.not_mem_nil, or_false,
        Option.mem_toList] at ha
      rcases ha with (((ha | ha) | ha) | ha) | ha
      · rcases ha with rfl | rfl | rfl | rfl | rfl | rfl | rfl
        · exact km.live
        · exact kx.live
        · exact ky.live
        · exact kz.live
        · exact kvx.live
        · exact kvy.live
        · exact kvz.live
      · exact kpot.elim.1 a ha
      · subst ha
        exact kke.live
      · exact (kte.elim.1 a ha).1
      · rcases ha with rfl | rfl | rfl
        · exact kjx.live
        · exact kjy.live
        · exact kjz.live
    · unfold HSet.read
      simp only [km.val, kx.val, ky.val, kz.val, kvx.val, kvy.val, kvz.val, kpot.elim.2.1,
        kpot.elim.2.2.1, kke.val, kte.elim.2, kjx.val, kjy.val, kjz.val]
      simp [HArgs.read]
    · exact ⟨km.gives, kx.gives, ky.gives, kz.gives, kvx.gives, kvy.gives, kvz.gives,
        kpot.elim.2.2.2, kke.new, fun a ha => (kte.elim.1 a ha).2, kjx.new, kjy.new, kjz.new⟩

/-! ## Galaxies -/

/-- the addresses of the arrays of a galaxy -/
def HGalaxy.cols (g : HGalaxy F) : List Nat := g.stars.cols ++ g.darkMatter.cols ++ g.gas.cols

theorem HGalaxy.read_congr {h h' : Mem F} {g : HGalaxy F}
    (hc : ∀ a ∈ g.cols, h'.at a = h.at a) : g.read h' = g.read h := by
  simp only [HGalaxy.cols, List.mem_append] at hc
  unfold HGalaxy.read
  rw [HSet.read_congr fun a ha => hc a (.inl (.inl ha)),
    HSet.read_congr fun a ha => hc a (.inl (.inr ha)), HSet.read_congr fun a ha => hc a (.inr ha)]

/-- the arrays of a galaxy exist -/
def HGalaxy.Live (h : Mem F) (g : HGalaxy F) : Prop := ∀ a ∈ g.cols, a < h.length

theorem HGalaxy.read_prefix {h h' : Mem F} (hp : h <+: h') {g : HGalaxy F} (hg : g.Live h) :
    g.read h' = g.read h := HGalaxy.read_congr fun a ha => Mem.at_prefix hp (hg a ha)

/-- a new galaxy in memory `h'` -/
structure HGalaxy.Made (n : Nat) (s d g : HArgs F) (h' : Mem F) (G : HGalaxy F) (Q : Galaxy F) :
    Prop where
  stores : Stores n (HSet.entries s G.stars ++ HSet.entries d G.darkMatter ++
    HSet.entries g G.gas) h'.length
  live : G.Live h'
  val : G.read h' = Q
  stars : G.stars.From n s
  darkMatter : G.darkMatter.From n d
  gas : G.gas.From n g

theorem HGalaxy.entries_cols (s d g : HArgs F) (G : HGalaxy F) :
    (HSet.entries s G.stars ++ HSet.entries d G.darkMatter ++ HSet.entries g G.gas).map (·.2) =
      G.cols := by
  simp only [List.map_append, HSet.entries_cols, HGalaxy.cols]

theorem mkgalaxy_runs {h : Mem F} {s d g : HArgs F} (hs : s.Live h) (hd : d.Live h)
    (hg : g.Live h) :
    Runs h (hmkgalaxy s d g) (mkgalaxy (s.read h) (d.read h) (g.read h))
      (HGalaxy.Made h.length s d g) := by
  unfold hmkgalaxy mkgalaxy
  refine (set_runs le_rfl .stars hs).bind fun h1 S S' p1 kS => ?_
  rw [← HArgs.read_prefix p1 hd]
  refine (set_runs p1.length_le .darkMatter (hd.mono p1)).bind fun h2 D D' q2 kD => ?_
  have p2 := p1.trans q2
  rw [← HArgs.read_prefix p2 hg]
  refine (set_runs p2.length_le .gas (hg.mono p2)).bind fun h3 G G' q3 kG => ?_
  have st := (kS.stores.append kD.stores).append kG.stores
  replace kS := kS.mono (q2.trans q3)
  replace kD := kD.mono q3
  have made : HGalaxy.Made h.length s d g h3 ⟨S, D, G, S.hasPotential⟩
      ⟨S', D', G', S'.hasPotential⟩ := by
    refine ⟨st, ?_, ?_, kS.shares, kD.shares, kG.shares⟩
    · intro a ha
      simp only [HGalaxy.cols, List.mem_append] at ha
      rcases ha with (ha | ha) | ha
      · exact kS.live a ha
      · exact kD.live a ha
      · exact kG.live a ha
    · rw [← kS.val, ← kD.val, ← kG.val]
      rfl
  unfold HGalaxy.new Galaxy.new Galaxy.hasPotentialDefault Galaxy.checkTypes
  have e1 : S'.hasPotential = S.hasPotential := by rw [← kS.val]; rfl
  have e2 : D'.hasPotential = D.hasPotential := by rw [← kD.val]; rfl
  have e3 : G'.hasPotential = G.hasPotential := by rw [← kG.val]; rfl
  have e4 : S'.ptype = S.ptype := by rw [← kS.val]; rfl
  have e5 : D'.ptype = D.ptype := by rw [← kD.val]; rfl
  have e6 : G'.ptype = G.ptype := by rw [← kG.val]; rfl
  simp only [e1, e2, e3, e4, e5, e6] at made ⊢
  by_cases h1 : ([S.hasPotential, G.hasPotential, D.hasPotential].contains true &&
      [S.hasPotential, G.hasPotential, D.hasPotential].contains false) = true
  · rw [if_pos h1, if_pos h1]; exact Runs.raising
  rw [if_neg h1, if_neg h1]
  by_cases h2 : S.ptype ≠ .stars
  · rw [if_pos h2, if_pos h2]; exact Runs.raising
  rw [if_neg h2, if_neg h2]
  by_cases h3 : D.ptype ≠ .darkMatter
  · rw [if_pos h3, if_pos h3]; exact Runs.raising
  rw [if_neg h3, if_neg h3]
  by_cases h4 : G.ptype ≠ .gas
  · rw [if_pos h4, if_pos h4]; exact Runs.raising
  rw [if_neg h4, if_neg h4]
  exact Runs.pure made

/-! ## Rebuilding a galaxy with some columns replaced -/

/-- the stored arrays of a particle set as arguments -/
def HSet.kept (p : HSet F) : HArgs F :=
  ⟨.quantity p.m, .quantity p.x, .quantity p.y, .quantity p.z, .quantity p.vx, .quantity p.vy,
    .quantity p.vz, p.potential.map .quantity, p.softening⟩

theorem HSet.kept_live {h : Mem F} {p : HSet F} (hp : ∀ a ∈ p.cols, a < h.length) :
    p.kept.Live h := by
  simp only [HSet.cols, List.mem_append, List.mem_cons, List.not_mem_nil, or_false,
    Option.mem_toList] at hp
  refine ⟨hp _ (by simp), hp _ (by simp), hp _ (by simp), hp _ (by simp), hp _ (by simp),
    hp _ (by simp), hp _ (by simp), fun i hi => ?_⟩
  simp only [HSet.kept, Option.map_eq_some_iff] at hi
  obtain ⟨a, ha, rfl⟩ := hi
  exact hp a (by simp [ha])

/-- the same with new positions -/
def HSet.moved (p : HSet F) (x y z : List F) : HArgs F :=
  { p.kept with x := .temp x, y := .temp y, z := .temp z }

/-- the same with new positions and velocities -/
def HSet.turned (p : HSet F) (x y z vx vy vz : List F) : HArgs F :=
  { p.moved x y z with vx := .temp vx, vy := .temp vy, vz := .temp vz }

/-- the same with a new potential -/
def HSet.charged (p : HSet F) (pot : List F) : HArgs F :=
  { p.kept with potential := some (.temp pot) }

theorem hmkgalaxyKw_eq {kw : Dict String (HKw F)} {s d g : HArgs F}
    (h1 : (Dict.keys kw).all (fun k => (requiredParams ++ optionalParams).contains k) = true)
    (h2 : requiredParams.all (fun k => (Dict.keys kw).contains k) = true)
    (hs : hargsOf kw "s" = .ok s) (hd : hargsOf kw "dm" = .ok d) (hg : hargsOf kw "g" = .ok g) :
    hmkgalaxyKw kw = hmkgalaxy s d g := by
  unfold hmkgalaxyKw
  rw [h1, h2, hs, hd, hg]
  rfl

theorem mkgalaxyKw_eq {kw : Dict String (KVal F)} {s d g : PArgs F}
    (h1 : (Dict.keys kw).all (fun k => (requiredParams ++ optionalParams).contains k) = true)
    (h2 : requiredParams.all (fun k => (Dict.keys kw).contains k) = true)
    (hs : pargsOf kw "s" = .ok s) (hd : pargsOf kw "dm" = .ok d) (hg : pargsOf kw "g" = .ok g) :
    mkgalaxyKw kw = mkgalaxy s d g := by
  unfold mkgalaxyKw
  rw [h1, h2, hs, hd, hg]
  rfl

theorem hgalaxyAsKwargs_eq (g : HGalaxy F) :
    hgalaxyAsKwargs g = hsetAsKwargs g.stars "s" ++ hsetAsKwargs g.darkMatter "dm" ++
      hsetAsKwargs g.gas "g" := by
  simp [hgalaxyAsKwargs, hsetAsKwargs, Dict.update, Dict.set]

theorem galaxyAsKwargs_read (g : Galaxy F) :
    galaxyAsKwargs g = psetAsKwargs g.stars "s" ++ psetAsKwargs g.darkMatter "dm" ++
      psetAsKwargs g.gas "g" := by
  simp [galaxyAsKwargs, psetAsKwargs, Dict.update, Dict.set]

theorem hrebuild_moved (g : HGalaxy F)
    (xs ys zs xdm ydm zdm xg yg zg : List F) :
    hmkgalaxyKw (Dict.update (hgalaxyAsKwargs g) [
      ("x_s", .temp xs), ("y_s", .temp ys), ("z_s", .temp zs), ("x_dm", .temp xdm),
      ("y_dm", .temp ydm), ("z_dm", .temp zdm), ("x_g", .temp xg), ("y_g", .temp yg),
      ("z_g", .temp zg)]) =
    hmkgalaxy (g.stars.moved xs ys zs) (g.darkMatter.moved xdm ydm zdm) (g.gas.moved xg yg zg) := by
  have e : Dict.update (hgalaxyAsKwargs g) [
      ("x_s", .temp xs), ("y_s", .temp ys), ("z_s", .temp zs), ("x_dm", .temp xdm),
      ("y_dm", .temp ydm), ("z_dm", .temp zdm), ("x_g", .temp xg), ("y_g", .temp yg),
      ("z_g", .temp zg)] =
    [("m_s", .given (.quantity g.stars.m)), ("x_s", .temp xs), ("y_s", .temp ys),
     ("z_s", .temp zs), ("vx_s", .given (.quantity g.stars.vx)),
     ("vy_s", .given (.quantity g.stars.vy)), ("vz_s", .given (.quantity g.stars.vz)),
     ("potential_s", .ofOption g.stars.potential), ("softening_s", .num g.stars.softening),
     ("m_dm", .given (.quantity g.darkMatter.m)), ("x_dm", .temp xdm), ("y_dm", .temp ydm),
     ("z_dm", .temp zdm), ("vx_dm", .given (.quantity g.darkMatter.vx)),
     ("vy_dm", .given (.quantity g.darkMatter.vy)), ("vz_dm", .given (.quantity g.darkMatter.vz)),
     ("potential_dm", .ofOption g.darkMatter.potential),
     ("softening_dm", .num g.darkMatter.softening), ("m_g", .given (.quantity g.gas.m)),
     ("x_g", .temp xg), ("y_g", .temp yg), ("z_g", .temp zg),
     ("vx_g", .given (.quantity g.gas.vx)), ("vy_g", .given (.quantity g.gas.vy)),
     ("vz_g", .given (.quantity g.gas.vz)), ("potential_g", .ofOption g.gas.potential),
     ("softening_g", .num g.gas.softening)] := by
    simp [hgalaxyAsKwargs_eq, hsetAsKwargs, Dict.update, Dict.set]
  rw [e]
  refine hmkgalaxyKw_eq ?_ ?_ ?_ ?_ ?_
  · simp [Dict.keys, requiredParams, optionalParams]
  · simp [Dict.keys, requiredParams]
  · cases hp : g.stars.potential <;>
      simp [hargsOf, hArg, Dict.get?, HKw.temp, hNumArg, optHArg, HKw.ofOption, HSet.moved,
        HSet.moved, HSet.kept, hp] <;> rfl
  · cases hp : g.darkMatter.potential <;>
      simp [hargsOf, hArg, Dict.get?, HKw.temp, hNumArg, optHArg, HKw.ofOption, HSet.moved,
        HSet.moved, HSet.kept, hp] <;> rfl
  · cases hp : g.gas.potential <;>
      simp [hargsOf, hArg, Dict.get?, HKw.temp, hNumArg, optHArg, HKw.ofOption, HSet.moved,
        HSet.moved, HSet.kept, hp] <;> rfl

theorem rebuild_moved (h : Mem F) (g : HGalaxy F)
    (xs ys zs xdm ydm zdm xg yg zg : List F) :
    mkgalaxyKw (Dict.update (galaxyAsKwargs (g.read h)) [
      ("x_s", .arr xs), ("y_s", .arr ys), ("z_s", .arr zs), ("x_dm", .arr xdm),
      ("y_dm", .arr ydm), ("z_dm", .arr zdm), ("x_g", .arr xg), ("y_g", .arr yg), ("z_g", .arr zg)]) =
    mkgalaxy ((g.stars.moved xs ys zs).read h) ((g.darkMatter.moved xdm ydm zdm).read h)
      ((g.gas.moved xg yg zg).read h) := by
  have e : Dict.update (galaxyAsKwargs (g.read h)) [
      ("x_s", .arr xs), ("y_s", .arr ys), ("z_s", .arr zs), ("x_dm", .arr xdm),
      ("y_dm", .arr ydm), ("z_dm", .arr zdm), ("x_g", .arr xg), ("y_g", .arr yg), ("z_g", .arr zg)] =
    [("m_s", .arr (h.at g.stars.m)), ("x_s", .arr xs), ("y_s", .arr ys), ("z_s", .arr zs),
     ("vx_s", .arr (h.at g.stars.vx)), ("vy_s", .arr (h.at g.stars.vy)),
     ("vz_s", .arr (h.at g.stars.vz)),
     ("potential_s", .ofOption (g.stars.potential.map (Mem.at h))),
     ("softening_s", .num g.stars.softening), ("m_dm", .arr (h.at g.darkMatter.m)),
     ("x_dm", .arr xdm), ("y_dm", .arr ydm), ("z_dm", .arr zdm),
     ("vx_dm", .arr (h.at g.darkMatter.vx)), ("vy_dm", .arr (h.at g.darkMatter.vy)),
     ("vz_dm", .arr (h.at g.darkMatter.vz)),
     ("potential_dm", .ofOption (g.darkMatter.potential.map (Mem.at h))),
     ("softening_dm", .num g.darkMatter.softening), ("m_g", .arr (h.at g.gas.m)),
     ("x_g", .arr xg), ("y_g", .arr yg), ("z_g", .arr zg), ("vx_g", .arr (h.at g.gas.vx)),
     ("vy_g", .arr (h.at g.gas.vy)), ("vz_g", .arr (h.at g.gas.vz)),
     ("potential_g", .ofOption (g.gas.potential.map (Mem.at h))),
     ("softening_g", .num g.gas.softening)] := by
    simp [galaxyAsKwargs_read, psetAsKwargs, HGalaxy.read, HSet.read, Dict.update, Dict.set]
  rw [e]
  refine mkgalaxyKw_eq ?_ ?_ ?_ ?_ ?_
  · simp [Dict.keys, requiredParams, optionalParams]
  · simp [Dict.keys, requiredParams]
  · cases hp : g.stars.potential <;>
      simp [pargsOf, arrArg, Dict.get?, numArg, optArrArg, KVal.ofOption, HSet.moved,
        HSet.moved, HSet.kept, hp, HArgs.read, HGiven.read] <;> rfl
  · cases hp : g.darkMatter.potential <;>
      simp [pargsOf, arrArg, Dict.get?, numArg, optArrArg, KVal.ofOption, HSet.moved,
        HSet.moved, HSet.kept, hp, HArgs.read, HGiven.read] <;> rfl
  · cases hp : g.gas.potential <;>
      simp [pargsOf, arrArg, Dict.get?, numArg, optArrArg, KVal.ofOption, HSet.moved,
        HSet.moved, HSet.kept, hp, HArgs.read, HGiven.read] <;> rfl

theorem hrebuild_turned (g : HGalaxy F)
    (xs ys zs vxs vys vzs xdm ydm zdm vxdm vydm vzdm xg yg zg vxg vyg vzg : List F) :
    hmkgalaxyKw (Dict.update (hgalaxyAsKwargs g) [
      ("x_s", .temp xs), ("y_s", .temp ys), ("z_s", .temp zs), ("vx_s", .temp vxs),
      ("vy_s", .temp vys), ("vz_s", .temp vzs), ("x_dm", .temp xdm), ("y_dm", .temp ydm),
      ("z_dm", .temp zdm), ("vx_dm", .temp vxdm), ("vy_dm", .temp vydm), ("vz_dm", .temp vzdm),
      ("x_g", .temp xg), ("y_g", .temp yg), ("z_g", .temp zg), ("vx_g", .temp vxg),
      ("vy_g", .temp vyg), ("vz_g", .temp vzg)]) =
    hmkgalaxy (g.stars.turned xs ys zs vxs vys vzs)
      (g.darkMatter.turned xdm ydm zdm vxdm vydm vzdm) (g.gas.turned xg yg zg vxg vyg vzg) := by
  have e : Dict.update (hgalaxyAsKwargs g) [
      ("x_s", .temp xs), ("y_s", .temp ys), ("z_s", .temp zs), ("vx_s", .temp vxs),
      ("vy_s", .temp vys), ("vz_s", .temp vzs), ("x_dm", .temp xdm), ("y_dm", .temp ydm),
      ("z_dm", .temp zdm), ("vx_dm", .temp vxdm), ("vy_dm", .temp vydm), ("vz_dm", .temp vzdm),
      ("x_g", .temp xg), ("y_g", .temp yg), ("z_g", .temp zg), ("vx_g", .temp vxg),
      ("vy_g", .temp vyg), ("vz_g", .temp vzg)] =
    [("m_s", .given (.quantity g.stars.m)), ("x_s", .temp xs), ("y_s", .temp ys),
     ("z_s", .temp zs), ("vx_s", .temp vxs), ("vy_s", .temp vys), ("vz_s", .temp vzs),
     ("potential_s", .ofOption g.stars.potential), ("softening_s", .num g.stars.softening),
     ("m_dm", .given (.quantity g.darkMatter.m)), ("x_dm", .temp xdm), ("y_dm", .temp ydm),
     ("z_dm", .temp zdm), ("vx_dm", .temp vxdm), ("vy_dm", .temp vydm), ("vz_dm", .temp vzdm),
     ("potential_dm", .ofOption g.darkMatter.potential),
     ("softening_dm", .num g.darkMatter.softening), ("m_g", .given (.quantity g.gas.m)),
     ("x_g", .temp xg), ("y_g", .temp yg), ("z_g", .temp zg), ("vx_g", .temp vxg),
     ("vy_g", .temp vyg), ("vz_g", .temp vzg), ("potential_g", .ofOption g.gas.potential),
     ("softening_g", .num g.gas.softening)] := by
    simp [hgalaxyAsKwargs_eq, hsetAsKwargs, Dict.update, Dict.set]
  rw [e]
  refine hmkgalaxyKw_eq ?_ ?_ ?_ ?_ ?_
  · simp [Dict.keys, requiredParams, optionalParams]
  · simp [Dict.keys, requiredParams]
  · cases hp : g.stars.potential <;>
      simp [hargsOf, hArg, Dict.get?, HKw.temp, hNumArg, optHArg, HKw.ofOption, HSet.turned,
        HSet.moved, HSet.kept, hp] <;> rfl
  · cases hp : g.darkMatter.potential <;>
      simp [hargsOf, hArg, Dict.get?, HKw.temp, hNumArg, optHArg, HKw.ofOption, HSet.turned,
        HSet.moved, HSet.kept, hp] <;> rfl
  · cases hp : g.gas.potential <;>
      simp [hargsOf, hArg, Dict.get?, HKw.temp, hNumArg, optHArg, HKw.ofOption, HSet.turned,
        HSet.moved, HSet.kept, hp] <;> rfl

theorem rebuild_turned (h : Mem F) (g : HGalaxy F)
    (xs ys zs vxs vys vzs xdm ydm zdm vxdm vydm vzdm xg yg zg vxg vyg vzg : List F) :
    mkgalaxyKw (Dict.update (galaxyAsKwargs (g.read h)) [
      ("x_s", .arr xs), ("y_s", .arr ys), ("z_s", .arr zs), ("vx_s", .arr vxs),
      ("vy_s", .arr vys), ("vz_s", .arr vzs), ("x_dm", .arr xdm), ("y_dm", .arr ydm),
      ("z_dm", .arr zdm), ("vx_dm", .arr vxdm), ("vy_dm", .arr vydm), ("vz_dm", .arr vzdm),
      ("x_g", .arr xg), ("y_g", .arr yg), ("z_g", .arr zg), ("vx_g", .arr vxg),
      ("vy_g", .arr vyg), ("vz_g", .arr vzg)]) =
    mkgalaxy ((g.stars.turned xs ys zs vxs vys vzs).read h)
      ((g.darkMatter.turned xdm ydm zdm vxdm vydm vzdm).read h)
      ((g.gas.turned xg yg zg vxg vyg vzg).read h) := by
  have e : Dict.update (galaxyAsKwargs (g.read h)) [
      ("x_s", .arr xs), ("y_s", .arr ys), ("z_s", .arr zs), ("vx_s", .arr vxs),
      ("vy_s", .arr vys), ("vz_s", .arr vzs), ("x_dm", .arr xdm), ("y_dm", .arr ydm),
      ("z_dm", .arr zdm), ("vx_dm", .arr vxdm), ("vy_dm", .arr vydm), ("vz_dm", .arr vzdm),
      ("x_g", .arr xg), ("y_g", .arr yg), ("z_g", .arr zg), ("vx_g", .arr vxg),
      ("vy_g", .arr vyg), ("vz_g", .arr vzg)] =
    [("m_s", .arr (h.at g.stars.m)), ("x_s", .arr xs), ("y_s", .arr ys), ("z_s", .arr zs),
     ("vx_s", .arr vxs), ("vy_s", .arr vys), ("vz_s", .arr vzs),
     ("potential_s", .ofOption (g.stars.potential.map (Mem.at h))),
     ("softening_s", .num g.stars.softening), ("m_dm", .arr (h.at g.darkMatter.m)),
     ("x_dm", .arr xdm), ("y_dm", .arr ydm), ("z_dm", .arr zdm), ("vx_dm", .arr vxdm),
     ("vy_dm", .arr vydm), ("vz_dm", .arr vzdm),
     ("potential_dm", .ofOption (g.darkMatter.potential.map (Mem.at h))),
     ("softening_dm", .num g.darkMatter.softening), ("m_g", .arr (h.at g.gas.m)),
     ("x_g", .arr xg), ("y_g", .arr yg), ("z_g", .arr zg), ("vx_g", .arr vxg), ("vy_g", .arr vyg),
     ("vz_g", .arr vzg), ("potential_g", .ofOption (g.gas.potential.map (Mem.at h))),
     ("softening_g", .num g.gas.softening)] := by
    simp [galaxyAsKwargs_read, psetAsKwargs, HGalaxy.read, HSet.read, Dict.update, Dict.set]
  rw [e]
  refine mkgalaxyKw_eq ?_ ?_ ?_ ?_ ?_
  · simp [Dict.keys, requiredParams, optionalParams]
  · simp [Dict.keys, requiredParams]
  · cases hp : g.stars.potential <;>
      simp [pargsOf, arrArg, Dict.get?, numArg, optArrArg, KVal.ofOption, HSet.turned,
        HSet.moved, HSet.kept, hp, HArgs.read, HGiven.read] <;> rfl
  · cases hp : g.darkMatter.potential <;>
      simp [pargsOf, arrArg, Dict.get?, numArg, optArrArg, KVal.ofOption, HSet.turned,
        HSet.moved, HSet.kept, hp, HArgs.read, HGiven.read] <;> rfl
  · cases hp : g.gas.potential <;>
      simp [pargsOf, arrArg, Dict.get?, numArg, optArrArg, KVal.ofOption, HSet.turned,
        HSet.moved, HSet.kept, hp, HArgs.read, HGiven.read] <;> rfl

theorem hrebuild_charged (g : HGalaxy F)
    (ps pdm pg : List F) :
    hmkgalaxyKw (Dict.update (hgalaxyAsKwargs g) [
      ("potential_s", .temp ps), ("potential_dm", .temp pdm), ("potential_g", .temp pg)]) =
    hmkgalaxy (g.stars.charged ps) (g.darkMatter.charged pdm) (g.gas.charged pg) := by
  have e : Dict.update (hgalaxyAsKwargs g) [
      ("potential_s", .temp ps), ("potential_dm", .temp pdm), ("potential_g", .temp pg)] =
    [("m_s", .given (.quantity g.stars.m)), ("x_s", .given (.quantity g.stars.x)),
     ("y_s", .given (.quantity g.stars.y)), ("z_s", .given (.quantity g.stars.z)),
     ("vx_s", .given (.quantity g.stars.vx)), ("vy_s", .given (.quantity g.stars.vy)),
     ("vz_s", .given (.quantity g.stars.vz)), ("potential_s", .temp ps),
     ("softening_s", .num g.stars.softening), ("m_dm", .given (.quantity g.darkMatter.m)),
     ("x_dm", .given (.quantity g.darkMatter.x)), ("y_dm", .given (.quantity g.darkMatter.y)),
     ("z_dm", .given (.quantity g.darkMatter.z)), ("vx_dm", .given (.quantity g.darkMatter.vx)),
     ("vy_dm", .given (.quantity g.darkMatter.vy)), ("vz_dm", .given (.quantity g.darkMatter.vz)),
     ("potential_dm", .temp pdm), ("softening_dm", .num g.darkMatter.softening),
     ("m_g", .given (.quantity g.gas.m)), ("x_g", .given (.quantity g.gas.x)),
     ("y_g", .given (.quantity g.gas.y)), ("z_g", .given (.quantity g.gas.z)),
     ("vx_g", .given (.quantity g.gas.vx)), ("vy_g", .given (.quantity g.gas.vy)),
     ("vz_g", .given (.quantity g.gas.vz)), ("potential_g", .temp pg),
     ("softening_g", .num g.gas.softening)] := by
    simp [hgalaxyAsKwargs_eq, hsetAsKwargs, Dict.update, Dict.set]
  rw [e]
  refine hmkgalaxyKw_eq ?_ ?_ ?_ ?_ ?_
  · simp [Dict.keys, requiredParams, optionalParams]
  · simp [Dict.keys, requiredParams]
  · cases hp : g.stars.potential <;>
      simp [hargsOf, hArg, Dict.get?, HKw.temp, hNumArg, optHArg, HKw.ofOption, HSet.charged,
        HSet.moved, HSet.kept, hp] <;> rfl
  · cases hp : g.darkMatter.potential <;>
      simp [hargsOf, hArg, Dict.get?, HKw.temp, hNumArg, optHArg, HKw.ofOption, HSet.charged,
        HSet.moved, HSet.kept, hp] <;> rfl
  · cases hp : g.gas.potential <;>
      simp [hargsOf, hArg, Dict.get?, HKw.temp, hNumArg, optHArg, HKw.ofOption, HSet.charged,
        HSet.moved, HSet.kept, hp] <;> rfl

theorem rebuild_charged (h : Mem F) (g : HGalaxy F)
    (ps pdm pg : List F) :
    mkgalaxyKw (Dict.update (galaxyAsKwargs (g.read h)) [
      ("potential_s", .arr ps), ("potential_dm", .arr pdm), ("potential_g", .arr pg)]) =
    mkgalaxy ((g.stars.charged ps).read h) ((g.darkMatter.charged pdm).read h)
      ((g.gas.charged pg).read h) := by
  have e : Dict.update (galaxyAsKwargs (g.read h)) [
      ("potential_s", .arr ps), ("potential_dm", .arr pdm), ("potential_g", .arr pg)] =
    [("m_s", .arr (h.at g.stars.m)), ("x_s", .arr (h.at g.stars.x)),
     ("y_s", .arr (h.at g.stars.y)), ("z_s", .arr (h.at g.stars.z)),
     ("vx_s", .arr (h.at g.stars.vx)), ("vy_s", .arr (h.at g.stars.vy)),
     ("vz_s", .arr (h.at g.stars.vz)), ("potential_s", .arr ps),
     ("softening_s", .num g.stars.softening), ("m_dm", .arr (h.at g.darkMatter.m)),
     ("x_dm", .arr (h.at g.darkMatter.x)), ("y_dm", .arr (h.at g.darkMatter.y)),
     ("z_dm", .arr (h.at g.darkMatter.z)), ("vx_dm", .arr (h.at g.darkMatter.vx)),
     ("vy_dm", .arr (h.at g.darkMatter.vy)), ("vz_dm", .arr (h.at g.darkMatter.vz)),
     ("potential_dm", .arr pdm), ("softening_dm", .num g.darkMatter.softening),
     ("m_g", .arr (h.at g.gas.m)), ("x_g", .arr (h.at g.gas.x)), ("y_g", .arr (h.at g.gas.y)),
     ("z_g", .arr (h.at g.gas.z)), ("vx_g", .arr (h.at g.gas.vx)), ("vy_g", .arr (h.at g.gas.vy)),
     ("vz_g", .arr (h.at g.gas.vz)), ("potential_g", .arr pg),
     ("softening_g", .num g.gas.softening)] := by
    simp [galaxyAsKwargs_read, psetAsKwargs, HGalaxy.read, HSet.read, Dict.update, Dict.set]
  rw [e]
  refine mkgalaxyKw_eq ?_ ?_ ?_ ?_ ?_
  · simp [Dict.keys, requiredParams, optionalParams]
  · simp [Dict.keys, requiredParams]
  · cases hp : g.stars.potential <;>
      simp [pargsOf, arrArg, Dict.get?, numArg, optArrArg, KVal.ofOption, HSet.charged,
        HSet.moved, HSet.kept, hp, HArgs.read, HGiven.read] <;> rfl
  · cases hp : g.darkMatter.potential <;>
      simp [pargsOf, arrArg, Dict.get?, numArg, optArrArg, KVal.ofOption, HSet.charged,
        HSet.moved, HSet.kept, hp, HArgs.read, HGiven.read] <;> rfl
  · cases hp : g.gas.potential <;>
      simp [pargsOf, arrArg, Dict.get?, numArg, optArrArg, KVal.ofOption, HSet.charged,
        HSet.moved, HSet.kept, hp, HArgs.read, HGiven.read] <;> rfl

/-! ## `center`, `star_align`, `potential` -/

/-- the particle set `q` was made from `p` with new positions: it has the arrays of `p` for the masses,
velocities and potentials, and new arrays for the rest -/
structure HSet.MovedFrom (n : Nat) (p q : HSet F) : Prop where
  m : q.m = p.m
  vx : q.vx = p.vx
  vy : q.vy = p.vy
  vz : q.vz = p.vz
  potential : q.potential = p.potential
  new : ∀ a ∈ [q.x, q.y, q.z, q.kineticEnergy, q.Jx, q.Jy, q.Jz] ++ q.totalEnergy.toList, n ≤ a

/-- the particle set `q` was made from `p` with new positions and velocities -/
structure HSet.TurnedFrom (n : Nat) (p q : HSet F) : Prop where
  m : q.m = p.m
  potential : q.potential = p.potential
  new : ∀ a ∈ [q.x, q.y, q.z, q.vx, q.vy, q.vz, q.kineticEnergy, q.Jx, q.Jy, q.Jz] ++
    q.totalEnergy.toList, n ≤ a

/-- the particle set `q` was made from `p` with a new potential -/
structure HSet.ChargedFrom (n : Nat) (p q : HSet F) : Prop where
  m : q.m = p.m
  x : q.x = p.x
  y : q.y = p.y
  z : q.z = p.z
  vx : q.vx = p.vx
  vy : q.vy = p.vy
  vz : q.vz = p.vz
  new : ∀ a ∈ [q.kineticEnergy, q.Jx, q.Jy, q.Jz] ++ q.potential.toList ++ q.totalEnergy.toList,
    n ≤ a

theorem givesOpt_kept {n : Nat} {o o' : Option Nat}
    (h : GivesOpt n (o.map HGiven.quantity : Option (HGiven F)) o') : o' = o := by
  cases o <;> cases o' <;> simp only [GivesOpt, Option.map_none, Option.map_some] at h
  · rfl
  · exact congrArg some h

theorem HSet.From.moved {n : Nat} {p q : HSet F} {x y z : List F} (h : q.From n (p.moved x y z)) :
    p.MovedFrom n q := by
  refine ⟨h.m, h.vx, h.vy, h.vz, givesOpt_kept h.potential, fun a ha => ?_⟩
  simp only [List.mem_append, List.mem_cons, List.not_mem_nil, or_false, Option.mem_toList] at ha
  rcases ha with (rfl | rfl | rfl | rfl | rfl | rfl | rfl) | ha
  · exact h.x
  · exact h.y
  · exact h.z
  · exact h.kineticEnergy
  · exact h.Jx
  · exact h.Jy
  · exact h.Jz
  · exact h.totalEnergy a ha

theorem HSet.From.turned {n : Nat} {p q : HSet F} {x y z vx vy vz : List F}
    (h : q.From n (p.turned x y z vx vy vz)) : p.TurnedFrom n q := by
  refine ⟨h.m, givesOpt_kept h.potential, fun a ha => ?_⟩
  simp only [List.mem_append, List.mem_cons, List.not_mem_nil, or_false, Option.mem_toList] at ha
  rcases ha with (rfl | rfl | rfl | rfl | rfl | rfl | rfl | rfl | rfl | rfl) | ha
  · exact h.x
  · exact h.y
  · exact h.z
  · exact h.vx
  · exact h.vy
  · exact h.vz
  · exact h.kineticEnergy
  · exact h.Jx
  · exact h.Jy
  · exact h.Jz
  · exact h.totalEnergy a ha

theorem HSet.From.charged {n : Nat} {p q : HSet F} {l : List F} (h : q.From n (p.charged l)) :
    p.ChargedFrom n q := by
  refine ⟨h.m, h.x, h.y, h.z, h.vx, h.vy, h.vz, fun a ha => ?_⟩
  simp only [List.mem_append, List.mem_cons, List.not_mem_nil, or_false, Option.mem_toList] at ha
  rcases ha with ((rfl | rfl | rfl | rfl) | ha) | ha
  · exact h.kineticEnergy
  · exact h.Jx
  · exact h.Jy
  · exact h.Jz
  · have := h.potential
    rw [ha] at this
    exact this
  · exact h.totalEnergy a ha

theorem HSet.moved_live {h : Mem F} {p : HSet F} (hp : ∀ a ∈ p.cols, a < h.length)
    (x y z : List F) : (p.moved x y z).Live h := by
  have := HSet.kept_live hp
  exact ⟨this.m, trivial, trivial, trivial, this.vx, this.vy, this.vz, this.potential⟩

theorem HSet.turned_live {h : Mem F} {p : HSet F} (hp : ∀ a ∈ p.cols, a < h.length)
    (x y z vx vy vz : List F) : (p.turned x y z vx vy vz).Live h := by
  have := HSet.kept_live hp
  exact ⟨this.m, trivial, trivial, trivial, trivial, trivial, trivial, this.potential⟩

theorem HSet.charged_live {h : Mem F} {p : HSet F} (hp : ∀ a ∈ p.cols, a < h.length)
    (l : List F) : (p.charged l).Live h := by
  have := HSet.kept_live hp
  refine ⟨this.m, this.x, this.y, this.z, this.vx, this.vy, this.vz, fun i hi => ?_⟩
  cases hi
  trivial

theorem HGalaxy.Live.sets {h : Mem F} {g : HGalaxy F} (hg : g.Live h) :
    (∀ a ∈ g.stars.cols, a < h.length) ∧ (∀ a ∈ g.darkMatter.cols, a < h.length) ∧
      ∀ a ∈ g.gas.cols, a < h.length := by
  refine ⟨fun a ha => hg a ?_, fun a ha => hg a ?_, fun a ha => hg a ?_⟩ <;>
    simp [HGalaxy.cols, ha]

theorem moved_addrs {p q : HSet F} (hq : q.potential = p.potential) (x y z : List F) :
    (HSet.entries (p.moved x y z) q).filterMap (fun e => e.1.addr) =
      [p.m, p.vx, p.vy, p.vz] ++ p.potential.toList := by
  unfold HSet.entries
  rw [hq]
  cases hp : p.potential <;> cases q.totalEnergy <;>
    simp [HSet.moved, HSet.kept, HGiven.addr, hp]

theorem turned_addrs {p q : HSet F} (hq : q.potential = p.potential) (x y z vx vy vz : List F) :
    (HSet.entries (p.turned x y z vx vy vz) q).filterMap (fun e => e.1.addr) =
      [p.m] ++ p.potential.toList := by
  unfold HSet.entries
  rw [hq]
  cases hp : p.potential <;> cases q.totalEnergy <;>
    simp [HSet.turned, HSet.moved, HSet.kept, HGiven.addr, hp]

theorem charged_addrs (p q : HSet F) (l : List F) :
    (HSet.entries (p.charged l) q).filterMap (fun e => e.1.addr) =
      [p.m, p.x, p.y, p.z, p.vx, p.vy, p.vz] := by
  unfold HSet.entries
  cases q.potential <;> cases q.totalEnergy <;>
    simp [HSet.charged, HSet.kept, HGiven.addr]

theorem HSet.cols_sublist (p : HSet F) :
    ([p.m, p.x, p.y, p.z, p.vx, p.vy, p.vz] ++ p.potential.toList).Sublist p.cols := by
  unfold HSet.cols
  rw [List.append_assoc, List.append_assoc]
  exact List.sublist_append_left _ _

theorem moved_sub {p q : HSet F} (hq : q.potential = p.potential) (x y z : List F) :
    ((HSet.entries (p.moved x y z) q).filterMap (fun e => e.1.addr)).Sublist p.cols := by
  rw [moved_addrs hq]
  refine List.Sublist.trans (List.Sublist.append_right ?_ _) p.cols_sublist
  exact .cons_cons _ (.cons _ (.cons _ (.cons _ (List.Sublist.refl _))))

theorem turned_sub {p q : HSet F} (hq : q.potential = p.potential) (x y z vx vy vz : List F) :
    ((HSet.entries (p.turned x y z vx vy vz) q).filterMap (fun e => e.1.addr)).Sublist p.cols := by
  rw [turned_addrs hq]
  refine List.Sublist.trans (List.Sublist.append_right ?_ _) p.cols_sublist
  exact .cons_cons _ (List.nil_sublist _)

theorem charged_sub (p q : HSet F) (l : List F) :
    ((HSet.entries (p.charged l) q).filterMap (fun e => e.1.addr)).Sublist p.cols := by
  rw [charged_addrs]
  exact (List.sublist_append_left _ _).trans p.cols_sublist

/-- a galaxy made from the arrays of another one, no two of which are the same -/
theorem made_nodup {h h' : Mem F} {g G : HGalaxy F} (hg : g.Live h) (hd : g.cols.Nodup)
    {a b c : HArgs F} {Q : Galaxy F} (k : HGalaxy.Made h.length a b c h' G Q)
    (h1 : ((HSet.entries a G.stars).filterMap (fun e => e.1.addr)).Sublist g.stars.cols)
    (h2 : ((HSet.entries b G.darkMatter).filterMap (fun e => e.1.addr)).Sublist g.darkMatter.cols)
    (h3 : ((HSet.entries c G.gas).filterMap (fun e => e.1.addr)).Sublist g.gas.cols) :
    G.cols.Nodup := by
  rw [← HGalaxy.entries_cols a b c]
  have hs : ((HSet.entries a G.stars ++ HSet.entries b G.darkMatter ++
      HSet.entries c G.gas).filterMap (fun e => e.1.addr)).Sublist g.cols := by
    rw [List.filterMap_append, List.filterMap_append]
    exact (h1.append h2).append h3
  refine k.stores.nodup le_rfl ?_ (hs.nodup hd)
  intro e he x hx
  exact hg x (hs.subset (List.mem_filterMap.2 ⟨e, he, hx⟩))

theorem center_runs {h : Mem F} {g : HGalaxy F} (hg : g.Live h) :
    Runs h (hcenter g) (center (g.read h)) (fun h' r R => r.Live h' ∧ r.read h' = R ∧
      g.stars.MovedFrom h.length r.stars ∧ g.darkMatter.MovedFrom h.length r.darkMatter ∧
      g.gas.MovedFrom h.length r.gas ∧
      (g.cols.Nodup → r.cols.Nodup)) := by
  obtain ⟨l1, l2, l3⟩ := hg.sets
  unfold hcenter center
  rw [show (g.read h).hasPotential = g.hasPotential from rfl]
  split
  · exact Runs.raising
  refine Runs.read_bind rfl fun df => ?_
  refine Runs.read_bind rfl fun pot => ?_
  refine Runs.read_bind rfl fun idx => ?_
  refine Runs.read_bind rfl fun row => ?_
  refine Runs.read_bind rfl fun x => ?_
  refine Runs.read_bind rfl fun y => ?_
  refine Runs.read_bind rfl fun z => ?_
  refine Runs.read_bind rfl fun types => ?_
  rw [hrebuild_moved, rebuild_moved]
  refine (mkgalaxy_runs (HSet.moved_live l1 _ _ _) (HSet.moved_live l2 _ _ _)
    (HSet.moved_live l3 _ _ _)).mono ?_
  exact fun h' r R _ k => ⟨k.live, k.val, k.stars.moved, k.darkMatter.moved, k.gas.moved,
    fun hd => made_nodup hg hd k (moved_sub k.stars.moved.potential _ _ _)
      (moved_sub k.darkMatter.moved.potential _ _ _) (moved_sub k.gas.moved.potential _ _ _)⟩

theorem starAlign_runs {h : Mem F} {g : HGalaxy F} (hg : g.Live h) (rCut : Option F) :
    Runs h (hstarAlign g rCut) (starAlign (g.read h) rCut) (fun h' r R => r.Live h' ∧
      r.read h' = R ∧ g.stars.TurnedFrom h.length r.stars ∧
      g.darkMatter.TurnedFrom h.length r.darkMatter ∧ g.gas.TurnedFrom h.length r.gas ∧
      (g.cols.Nodup → r.cols.Nodup)) := by
  obtain ⟨l1, l2, l3⟩ := hg.sets
  unfold hstarAlign starAlign
  split
  · exact Runs.raising
  refine Runs.read_bind rfl fun df => ?_
  refine Runs.read_bind rfl fun df2 => ?_
  refine Runs.read_bind rfl fun df3 => ?_
  refine Runs.read_bind rfl fun m => ?_
  refine Runs.read_bind rfl fun x => ?_
  refine Runs.read_bind rfl fun y => ?_
  refine Runs.read_bind rfl fun z => ?_
  refine Runs.read_bind rfl fun jx => ?_
  refine Runs.read_bind rfl fun jy => ?_
  refine Runs.read_bind rfl fun jz => ?_
  refine Runs.read_bind rfl fun a => ?_
  refine Runs.read_bind rfl fun b => ?_
  refine Runs.read_bind rfl fun c => ?_
  rw [hrebuild_turned, rebuild_turned]
  refine (mkgalaxy_runs (HSet.turned_live l1 _ _ _ _ _ _) (HSet.turned_live l2 _ _ _ _ _ _)
    (HSet.turned_live l3 _ _ _ _ _ _)).mono ?_
  exact fun h' r R _ k => ⟨k.live, k.val, k.stars.turned, k.darkMatter.turned, k.gas.turned,
    fun hd => made_nodup hg hd k (turned_sub k.stars.turned.potential _ _ _ _ _ _)
      (turned_sub k.darkMatter.turned.potential _ _ _ _ _ _) (turned_sub k.gas.turned.potential _ _ _ _ _ _)⟩

theorem potential_runs {S : Type} [Num S] {h : Mem F} {g : HGalaxy F} (hg : g.Live h)
    (penv : PotEnv F S) (backend : String) :
    Runs h (hpotential penv g backend) (potential penv (g.read h) backend)
      (fun h' r R => r.Live h' ∧ r.read h' = R ∧ g.stars.ChargedFrom h.length r.stars ∧
      g.darkMatter.ChargedFrom h.length r.darkMatter ∧ g.gas.ChargedFrom h.length r.gas ∧
      (g.cols.Nodup → r.cols.Nodup)) := by
  obtain ⟨l1, l2, l3⟩ := hg.sets
  unfold hpotential potential
  rw [show (g.read h).hasPotential = g.hasPotential from rfl]
  split
  · exact Runs.raising
  refine Runs.read_bind rfl fun df => ?_
  refine Runs.read_bind rfl fun x => ?_
  refine Runs.read_bind rfl fun y => ?_
  refine Runs.read_bind rfl fun z => ?_
  refine Runs.read_bind rfl fun m => ?_
  refine Runs.read_bind rfl fun soft => ?_
  refine Runs.read_bind rfl fun pot => ?_
  refine Runs.read_left rfl ?_
  refine Runs.read_left rfl ?_
  rw [hrebuild_charged, rebuild_charged]
  refine (mkgalaxy_runs (HSet.charged_live l1 _) (HSet.charged_live l2 _)
    (HSet.charged_live l3 _)).mono ?_
  exact fun h' r R _ k => ⟨k.live, k.val, k.stars.charged, k.darkMatter.charged, k.gas.charged,
    fun hd => made_nodup hg hd k (charged_sub _ _ _) (charged_sub _ _ _)
      (charged_sub _ _ _)⟩

end GChop
