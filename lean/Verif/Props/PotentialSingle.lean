import Verif.Lemmas.SummationOrder
import Verif.Lemmas.FusedScale
import Verif.Lemmas.BinarySqrt
import Verif.Lemmas.Potential

/-!
# C75, C76: `potential` in single precision

The galaxy holds IEEE-754 double precision numbers and the backends compute in single precision
with rounding after every operation, including overflow, underflow, infinities and NaN.  `sm` is the
way `np.sum` adds up an array: any order of additions in C75, any monotone one in C76.  `dt` is the way
compiled code adds up squares: rounded before they are added or fused with the additions, in any order.
-/

namespace GChop
open Pd Flt

/-! ## Distances have no minus sign -/

theorem Plus.zero_add {fmt : Fmt} {a : Flt fmt} (h : Plus a) : (Num.ofRat 0 +. a) = a := by
  rcases h with rfl | rfl | ⟨m, rfl⟩
  all_goals
    obtain ⟨m0, hv, h0⟩ := ofExact_zero (fmt := fmt) false
    show Flt.add (ofExact false 0) _ = _
    rw [h0]
  · rfl
  · rfl
  · show ofExact (false && false) (sval false m0 + sval false m) = _
    rw [sval_of_zero hv, _root_.zero_add]
    exact ofExact_sval false m

/-- the distance of the fortran loop if nothing is fused -/
theorem fortranDist_flt {fmt : Fmt} (x y z : List (Flt fmt)) (s : Flt fmt) (i j : Nat) :
    fortranDist x y z s i j = Num.sqrt (((Num.sq (x.getD i Num.nan -. x.getD j Num.nan)
      +. Num.sq (y.getD i Num.nan -. y.getD j Num.nan))
      +. Num.sq (z.getD i Num.nan -. z.getD j Num.nan)) +. s) := by
  show Num.sqrt ((((Num.ofRat 0 +. Num.sq (x.getD i Num.nan -. x.getD j Num.nan))
      +. Num.sq (y.getD i Num.nan -. y.getD j Num.nan))
      +. Num.sq (z.getD i Num.nan -. z.getD j Num.nan)) +. s) = _
  rw [Plus.zero_add (plus_sq _)]

theorem plus_numpyDist {fmt : Fmt} (x y z : List (Flt fmt)) (soft : Flt fmt) (i j : Nat) :
    Plus (numpyDist x y z soft i j) := by
  unfold numpyDist
  dsimp only
  split_ifs
  · exact plus_ofExact le_rfl
  · exact ((((plus_sq _).add (plus_sq _)).add (plus_sq _)).add (plus_sq _)).sqrt

/-- single precision with a given way to add up arrays; compiled code as without it -/
abbrev singleSumBy (sm : List Float32' → Float32') : Num Float32' :=
  Num.withSumDot inferInstance sm Num.dot

/-- single precision with a given way to add up squares in compiled code -/
abbrev singleDotBy (dt : List (Float32' × Float32') → Float32') : Num Float32' :=
  Num.withSumDot inferInstance Num.sum dt

/-- single precision with a given way to add up arrays and a given way to add up squares in compiled code -/
abbrev singleSumDot (sm : List Float32' → Float32') (dt : List (Float32' × Float32') → Float32') :
    Num Float32' := Num.withSumDot inferInstance sm dt

/-- the distance of the fortran loop -/
def distBy (dt : List (Float32' × Float32') → Float32') (x y z : List Float32') (s : Float32')
    (i j : Nat) : Float32' :=
  Num.sqrt (dt [(x.getD i nan -. x.getD j nan, x.getD i nan -. x.getD j nan),
    (y.getD i nan -. y.getD j nan, y.getD i nan -. y.getD j nan),
    (z.getD i nan -. z.getD j nan, z.getD i nan -. z.getD j nan)] +. s)

section
variable {sm : List Float32' → Float32'} {dt : List (Float32' × Float32') → Float32'}

theorem inner_succ (x y z m : List Float32') (s : Float32') (i n : Nat) :
    @fortranInner _ (singleSumDot sm dt) x y z m s i (n + 1) = if i ≠ n then
      @fortranInner _ (singleSumDot sm dt) x y z m s i n +. (m.getD n nan /. distBy dt x y z s i n)
      else @fortranInner _ (singleSumDot sm dt) x y z m s i n := rfl

theorem plus_squares (hd : ∀ l, Fused l (dt l)) (u v w : Float32') : Plus (dt [(u, u), (v, v), (w, w)]) := by
  refine (hd _).plus fun p hp => ?_
  simp only [List.mem_cons, List.not_mem_nil, or_false] at hp
  rcases hp with rfl | rfl | rfl <;> rfl

theorem plus_distBy (hd : ∀ l, Fused l (dt l)) (x y z : List Float32') (soft : Float32') (i j : Nat) :
    Plus (distBy dt x y z (Num.sq soft) i j) :=
  ((plus_squares hd _ _ _).add (plus_sq _)).sqrt

/-! ## The sums are monotone in the masses -/

theorem fortranInner_mono (hd : ∀ l, Fused l (dt l)) (x y z m m' : List Float32') (soft : Float32')
    (i : Nat) (h : ∀ j, (m'.getD j nan <. m.getD j nan) = false) (n : Nat) :
    (@fortranInner _ (singleSumDot sm dt) x y z m' (Num.sq soft) i n <.
      @fortranInner _ (singleSumDot sm dt) x y z m (Num.sq soft) i n) = false := by
  induction n with
  | zero => exact not_lt_self _
  | succ n ih =>
    rw [inner_succ, inner_succ]
    split_ifs
    · exact lt_add ih (lt_div (h n) (plus_distBy hd x y z soft i n))
    · exact ih

end

/-- one potential from the columns in single precision -/
def singlePot (sm : List Float32' → Float32') (dt : List (Float32' × Float32') → Float32') (G : Float32')
    (junk : Nat → Nat → Float32') (backend : String) (x y z m : List Float32') (soft : Float32')
    (n i : Nat) : Float64 :=
  Flt.cast (Num.neg
    ((if backend == "fortran" then @fortranInner _ (singleSumDot sm dt) x y z m (Num.sq soft) i n
      else sm ((List.range n).map fun j =>
        if !(numpyDist x y z soft i j ==. Num.ofRat 0) then
          m.getD j Num.nan /. numpyDist x y z soft i j else junk i j)) *. G))

theorem backendPot_singleDot (sm : List Float32' → Float32') (dt : List (Float32' × Float32') → Float32')
    (G : Float32') (built : Bool) (junk : Nat → Nat → Float32') (backend : String)
    (l : List (Body Float64)) (softs : List Float64) (i : Nat) :
    @backendPot _ _ _ (singleSumDot sm dt) (singleEnv G built junk) backend l softs i
      = singlePot sm dt G junk backend (l.map fun a => Flt.cast a.x) (l.map fun a => Flt.cast a.y)
        (l.map fun a => Flt.cast a.z) (l.map fun a => Flt.cast a.m) (Flt.cast (seriesMax softs))
        l.length i := rfl

/-! ## C76 -/

/-- the second particle is at the same place and not lighter -/
def NotLighter (a a' : Body Float64) : Prop :=
  a'.x = a.x ∧ a'.y = a.y ∧ a'.z = a.z ∧ (a'.m <. a.m) = false

theorem forall₂_getD {α : Type} {R : α → α → Prop} {l l' : List α} (h : List.Forall₂ R l l')
    {d : α} (hd : R d d) (j : Nat) : R (l.getD j d) (l'.getD j d) := by
  induction h generalizing j with
  | nil => simpa using hd
  | cons h _ ih => cases j with
    | zero => simpa using h
    | succ j => simpa using ih j

/-- C76: making particles heavier never makes a potential shallower, with both backends, in IEEE
arithmetic and whatever the masses, positions and softenings are.  `np.sum` may add in any
monotone way, and compiled code may fuse the squares of a distance with their sum. -/
theorem C76_mass_monotone (sm : List Float32' → Float32') (hsm : SumMono sm)
    (dt : List (Float32' × Float32') → Float32') (hd' : ∀ l, Fused l (dt l)) (G : Float32')
    (hG : (G <. Num.ofRat 0) = false) (built : Bool) (junk : Nat → Nat → Float32')
    (backend : String) (b b' : BGalaxy Float64)
    (hok : backend = "numpy" ∨ backend = "fortran" ∧ built = true)
    (hp : b.hasPot = false) (hp' : b'.hasPot = false)
    (hs : List.Forall₂ NotLighter b.stars b'.stars) (hd : List.Forall₂ NotLighter b.dm b'.dm)
    (hg : List.Forall₂ NotLighter b.gas b'.gas)
    (hsoft : b'.softS = b.softS ∧ b'.softDm = b.softDm ∧ b'.softG = b.softG) :
    ∃ p p' : Nat → Float64,
      @potential _ _ _ (singleSumDot sm dt) (singleEnv G built junk) (Galaxy.ofBodies b) backend
        = .ok (Galaxy.ofBodies (b.withPot p)) ∧
      @potential _ _ _ (singleSumDot sm dt) (singleEnv G built junk) (Galaxy.ofBodies b') backend
        = .ok (Galaxy.ofBodies (b'.withPot p')) ∧
      ∀ i, (p i <. p' i) = false := by
  refine ⟨_, _, @potential_ofBodies _ _ _ (singleSumDot sm dt) _ b backend hp hok.symm,
    @potential_ofBodies _ _ _ (singleSumDot sm dt) _ b' backend hp' hok.symm, fun i => ?_⟩
  have hall : List.Forall₂ NotLighter b.all b'.all := by
    unfold BGalaxy.all
    exact List.rel_append (List.rel_append hs hd) hg
  have hlen : b'.all.length = b.all.length := hall.length_eq.symm
  have hcol : ∀ f : Body Float64 → Float64, (∀ a a', NotLighter a a' → f a' = f a) →
      (b'.all.map fun a => (Flt.cast (f a) : Float32')) = b.all.map fun a => Flt.cast (f a) := by
    intro f hf
    generalize b.all = l at hall
    generalize b'.all = l' at hall
    induction hall with
    | nil => rfl
    | cons h _ ih => simp [hf _ _ h, ih]
  have hx := hcol (·.x) fun _ _ h => h.1
  have hy := hcol (·.y) fun _ _ h => h.2.1
  have hz := hcol (·.z) fun _ _ h => h.2.2.1
  have hm : List.Forall₂ (fun a a' => (a' <. a) = false)
      (b.all.map fun a => (Flt.cast a.m : Float32')) (b'.all.map fun a => Flt.cast a.m) := by
    rw [List.forall₂_map_left_iff, List.forall₂_map_right_iff]
    exact hall.imp fun a a' h => lt_cast h.2.2.2
  have hm' := forall₂_getD hm (d := nan) (not_lt_self _)
  have hsofts : b'.softs = b.softs := by
    unfold BGalaxy.softs
    rw [hsoft.1, hsoft.2.1, hsoft.2.2, List.map_const', List.map_const', List.map_const',
      List.map_const', List.map_const', List.map_const', hs.length_eq, hd.length_eq, hg.length_eq]
  rw [backendPot_singleDot, backendPot_singleDot, hx, hy, hz, hsofts, hlen]
  unfold singlePot
  apply lt_cast
  apply Flt.lt_neg
  apply lt_mul _ hG
  split_ifs
  · exact fortranInner_mono hd' _ _ _ _ _ _ _ hm' _
  · refine hsm _ _ ?_
    rw [List.forall₂_map_left_iff, List.forall₂_map_right_iff]
    apply List.forall₂_same.2
    intro j _
    split_ifs
    · exact lt_div (hm' j) (plus_numpyDist _ _ _ _ _ _)
    · exact not_lt_self _

/-! ## C75 -/

theorem zero_fortranInner {sm : List Float32' → Float32'} {dt : List (Float32' × Float32') → Float32'}
    (hd : ∀ l, Fused l (dt l)) (x y z m : List Float32') (soft : Float32') (i : Nat)
    (h : ∀ j, (m.getD j nan <. Num.ofRat 0) = false) (n : Nat) :
    (@fortranInner _ (singleSumDot sm dt) x y z m (Num.sq soft) i n <. Num.ofRat 0) = false := by
  induction n with
  | zero => exact not_lt_self _
  | succ n ih =>
    rw [inner_succ]
    split_ifs
    · exact add_not_neg ih (div_not_neg (h n) (plus_distBy hd x y z soft i n))
    · exact ih

/-- C75: if no mass is negative no potential is positive.  With the numpy backend this needs that
the uninitialised buffer holds no negative number.  `np.sum` may add in any order, and compiled
code may fuse the squares of a distance with their sum. -/
theorem C75_not_positive (sm : List Float32' → Float32') (hsm : ∀ l, Added l (sm l))
    (dt : List (Float32' × Float32') → Float32') (hd : ∀ l, Fused l (dt l)) (G : Float32')
    (hG : (G <. Num.ofRat 0) = false) (built : Bool) (junk : Nat → Nat → Float32')
    (backend : String) (b : BGalaxy Float64)
    (hok : (backend = "numpy" ∧ ∀ i j, (junk i j <. Num.ofRat 0) = false) ∨
      backend = "fortran" ∧ built = true)
    (hp : b.hasPot = false) (hm : ∀ a ∈ b.all, (a.m <. Num.ofRat 0) = false) :
    ∃ p : Nat → Float64,
      @potential _ _ _ (singleSumDot sm dt) (singleEnv G built junk) (Galaxy.ofBodies b) backend
        = .ok (Galaxy.ofBodies (b.withPot p)) ∧
      ∀ i, (Num.ofRat 0 <. p i) = false := by
  have hok' : backendOk (singleEnv G built junk) backend := by
    rcases hok with h | h
    · exact Or.inr h.1
    · exact Or.inl h
  refine ⟨_, @potential_ofBodies _ _ _ (singleSumDot sm dt) _ b backend hp hok', fun i => ?_⟩
  have hm' : ∀ j, ((b.all.map fun a => (Flt.cast a.m : Float32')).getD j nan <. Num.ofRat 0)
      = false := by
    intro j
    rw [List.getD_eq_getElem?_getD, List.getElem?_map]
    cases h : b.all[j]? with
    | none => exact not_neg_iff.2 (Or.inr (Or.inl rfl))
    | some a => exact cast_not_neg (hm a (List.mem_of_getElem? h))
  rw [backendPot_singleDot]
  have key : (Num.ofRat 0 <. singlePot sm dt G junk backend (b.all.map fun a => Flt.cast a.x)
      (b.all.map fun a => Flt.cast a.y) (b.all.map fun a => Flt.cast a.z)
      (b.all.map fun a => Flt.cast a.m) (Flt.cast (seriesMax b.softs)) b.all.length i)
      = false := by
    apply cast_not_pos
    apply neg_not_pos
    apply mul_not_neg _ hG
    split_ifs with hb
    · exact zero_fortranInner hd _ _ _ _ _ _ hm' _
    · have hj : ∀ i j, (junk i j <. Num.ofRat 0) = false := by
        rcases hok with h | h
        · exact h.2
        · simp [h.1] at hb
      refine (hsm _).not_neg ?_
      intro a ha
      obtain ⟨j, _, rfl⟩ := List.mem_map.1 ha
      split_ifs
      · exact div_not_neg (hm' j) (plus_numpyDist _ _ _ _ _ _)
      · exact hj i j
  exact key

/-! ## Examples -/

/-- a particle at rest on the x axis -/
def onAxis (m x : ℚ) : Body Float64 :=
  ⟨.ofExact false m, .ofExact false x, .ofExact false 0, .ofExact false 0, .ofExact false 0,
    .ofExact false 0, .ofExact false 0, .ofExact false 0⟩

/-- stars on the x axis, without softening -/
def axisGalaxy (l : List (ℚ × ℚ)) : BGalaxy Float64 :=
  ⟨l.map fun a => onAxis a.1 a.2, [], [], false, .ofExact false 0, .ofExact false 0, .ofExact false 0⟩

/-- C75: the condition on the buffer is needed.  With `-1` in memory both stars of a pair get a
positive potential from the numpy backend. -/
theorem C75_numpy_positive :
    let g := axisGalaxy [(1, 0), (1, 2)]
    ∃ p, potential (singleEnv (.ofExact false 1) true fun _ _ => .ofExact false (-1))
        (Galaxy.ofBodies g) "numpy" = .ok (Galaxy.ofBodies (g.withPot p)) ∧
      (Num.ofRat 0 <. p 0) = true ∧ (Num.ofRat 0 <. p 1) = true := by
  refine ⟨_, potential_ofBodies _ _ _ rfl (Or.inr rfl), ?_, ?_⟩ <;> decide +kernel

/-- C76: a heavier particle need not deepen a potential.  Masses `1` and `1 + 2^-30` differ in double
precision and give the same potentials. -/
theorem C76_not_strict :
    let g := axisGalaxy [(1, 0), (1, 2)]
    let g' := axisGalaxy [(1, 0), (1 + 1 / 2 ^ 30, 2)]
    let env := singleEnv (.ofExact false 1) true fun _ _ => .ofExact false 0
    ((g.all[1]).m <. (g'.all[1]).m) = true ∧
    ∃ p p', potential env (Galaxy.ofBodies g) "fortran" = .ok (Galaxy.ofBodies (g.withPot p)) ∧
      potential env (Galaxy.ofBodies g') "fortran" = .ok (Galaxy.ofBodies (g'.withPot p')) ∧
      toExt (p 0) = .fin (-1 / 2) ∧ toExt (p' 0) = .fin (-1 / 2) := by
  refine ⟨by decide +kernel, _, _, potential_ofBodies _ _ _ rfl (Or.inl ⟨rfl, rfl⟩),
    potential_ofBodies _ _ _ rfl (Or.inl ⟨rfl, rfl⟩), ?_, ?_⟩ <;> decide +kernel

/-- C75 and C76 are about something: the potentials are negative, and deeper for a heavier pair -/
example :
    let env := singleEnv (.ofExact false 1) true fun _ _ => .ofExact false 0
    let g := axisGalaxy [(1, 0), (1, 2)]
    let g' := axisGalaxy [(1, 0), (2, 2)]
    toExt (backendPot env "fortran" g.all g.softs 0) = .fin (-1 / 2) ∧
      toExt (backendPot env "fortran" g'.all g'.softs 0) = .fin (-1) := by decide +kernel

/-- C75 and C76 hold for the order numpy uses, for squares that are rounded before they are added and for a
chain of fused multiply-adds -/
example : (∀ l : List Float32', Added l (npSum l)) ∧ SumMono (npSum : List Float32' → Float32') ∧
    (∀ l : List (Float32' × Float32'), Fused l (Num.dot l)) ∧
    (∀ l : List (Float32' × Float32'), Fused l (fmaChain l)) ∧
    singleSumDot Num.sum Num.dot = (inferInstance : Num Float32') :=
  ⟨added_npSum, sumMono_npSum, fused_leftFold, fused_fmaChain, rfl⟩

example : List.Forall₂ NotLighter (axisGalaxy [(1, 0), (1, 2)]).stars
    (axisGalaxy [(1, 0), (2, 2)]).stars := by
  refine .cons ?_ (.cons ?_ .nil) <;> exact ⟨rfl, rfl, rfl, by decide +kernel⟩

end GChop
