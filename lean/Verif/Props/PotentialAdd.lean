import Verif.Props.PotentialSingle
import Verif.Lemmas.FltAnti
import Verif.Lemmas.Order
import Mathlib.Data.List.NodupEquivFin

/-!
# C85: more particles and smaller softenings in single precision

The compiled backend adds the contributions one after the other, so a contribution that is not
negative, wherever it is inserted, does not make the result smaller, in spite of the rounding.
-/

namespace GChop
open Pd Flt

/-! ## `Series.max()` of the softenings -/

section seriesMax
variable {F : Type} [Num F]

/-- one step of `Series.max()` -/
def maxStep (o : Option F) (b : F) : Option F :=
  if Num.isNaN b then o else
    match o with
    | none => some b
    | some a => some (if a <. b then b else a)

theorem foldl_maxStep_some (l : List F) (a : F) :
    l.foldl maxStep (some a)
      = some ((l.filter fun a => !Num.isNaN a).foldl (fun a b => if a <. b then b else a) a) := by
  induction l generalizing a with
  | nil => rfl
  | cons b l ih =>
    by_cases hb : Num.isNaN b = true
    · simp [maxStep, hb, ih]
    · simp [maxStep, hb, ih]

theorem seriesMax_eq (l : List F) : seriesMax l = (l.foldl maxStep none).getD Num.nan := by
  induction l with
  | nil => rfl
  | cons b l ih =>
    by_cases hb : Num.isNaN b = true
    · have e : maxStep none b = none := by simp [maxStep, hb]
      rw [List.foldl_cons, e, ← ih]
      simp [seriesMax, hb]
    · have e : maxStep none b = some b := by simp [maxStep, hb]
      rw [List.foldl_cons, e, foldl_maxStep_some]
      simp [seriesMax, hb]

theorem maxStep_idem [NumOrd F] (o : Option F) (b : F) :
    maxStep (maxStep o b) b = maxStep o b := by
  have hbb : (b <. b) = false := by rw [NumOrd.lt_def]; cases (b <=. b) <;> rfl
  unfold maxStep
  by_cases hb : Num.isNaN b = true
  · simp [hb]
  · simp only [hb, Bool.false_eq_true, if_false]
    cases o with
    | none => simp [hbb]
    | some a =>
      cases h : (a <. b) <;> simp [h, hbb]

theorem foldl_maxStep_replicate [NumOrd F] (n : Nat) (o : Option F) (b : F) :
    (List.replicate n b).foldl maxStep o = if n = 0 then o else maxStep o b := by
  induction n generalizing o with
  | zero => rfl
  | succ n ih =>
    rw [List.replicate_succ, List.foldl_cons, ih, if_neg (Nat.succ_ne_zero n)]
    split_ifs
    · rfl
    · exact maxStep_idem o b

/-- the largest softening depends on which types have particles, not on how many -/
theorem seriesMax_softs [NumOrd F] {b b' : BGalaxy F} (h1 : b'.stars = [] ↔ b.stars = [])
    (h2 : b'.dm = [] ↔ b.dm = []) (h3 : b'.gas = [] ↔ b.gas = [])
    (hsoft : b'.softS = b.softS ∧ b'.softDm = b.softDm ∧ b'.softG = b.softG) :
    seriesMax b'.softs = seriesMax b.softs := by
  rw [seriesMax_eq, seriesMax_eq]
  unfold BGalaxy.softs
  simp only [List.map_const', List.foldl_append, foldl_maxStep_replicate, List.length_eq_zero_iff,
    h1, h2, h3, hsoft]

end seriesMax

theorem maxStep_mono {fmt : Fmt} {l l' : List (Flt fmt)}
    (h : List.Forall₂ (fun s s' => (Num.ofRat 0 <=. s') = true ∧ (s' <=. s) = true) l l')
    (o o' : Option (Flt fmt))
    (ho : (o = none ∧ o' = none) ∨ ∃ a a', o = some a ∧ o' = some a' ∧
      (Num.ofRat 0 <=. a') = true ∧ (a' <=. a) = true) :
    (l.foldl maxStep o = none ∧ l'.foldl maxStep o' = none) ∨
      ∃ a a', l.foldl maxStep o = some a ∧ l'.foldl maxStep o' = some a' ∧
        (Num.ofRat 0 <=. a') = true ∧ (a' <=. a) = true := by
  induction h generalizing o o' with
  | nil => exact ho
  | @cons s s' l l' hs _ ih =>
    rw [List.foldl_cons, List.foldl_cons]
    refine ih _ _ (Or.inr ?_)
    obtain ⟨hn', hn⟩ := NumOrd.not_nan_of_le hs.2
    rcases ho with ⟨rfl, rfl⟩ | ⟨a, a', rfl, rfl, h0, hle⟩
    · exact ⟨s, s', by simp [maxStep, hn], by simp [maxStep, hn'], hs⟩
    · refine ⟨_, _, by simp [maxStep, hn]; rfl, by simp [maxStep, hn']; rfl, ?_, ?_⟩
      · split_ifs
        · exact hs.1
        · exact h0
      · by_cases c' : (a' <. s') = true
        · rw [if_pos c']
          by_cases c : (a <. s) = true
          · rw [if_pos c]; exact hs.2
          · rw [if_neg c]
            refine NumOrd.le_trans hs.2 ?_
            rw [NumOrd.lt_def] at c
            rcases NumOrd.le_total hn (NumOrd.not_nan_of_le hle).2 with h | h
            · exact h
            · by_contra hh
              simp [h, hh] at c
        · rw [if_neg c']
          by_cases c : (a <. s) = true
          · rw [if_pos c]; exact NumOrd.le_trans hle (lt_iff.1 c).1
          · rw [if_neg c]; exact hle

/-! ## Inserting contributions -/

section
variable {dt : List (Float32' × Float32') → Float32'}

theorem distBy_congr {x y z x' y' z' : List Float32'} {i j i' j' : Nat} (s : Float32')
    (h1 : x'.getD i' nan = x.getD i nan) (h2 : y'.getD i' nan = y.getD i nan)
    (h3 : z'.getD i' nan = z.getD i nan) (h4 : x'.getD j' nan = x.getD j nan)
    (h5 : y'.getD j' nan = y.getD j nan) (h6 : z'.getD j' nan = z.getD j nan) :
    distBy dt x' y' z' s i' j' = distBy dt x y z s i j := by
  unfold distBy
  rw [h1, h2, h3, h4, h5, h6]

theorem fortranInner_insert (hd : ∀ l, Fused l (dt l)) {x y z m x' y' z' m' : List Float32'} (soft : Float32')
    (f : ℕ ↪o ℕ) (hx : ∀ j, x'.getD (f j) nan = x.getD j nan)
    (hy : ∀ j, y'.getD (f j) nan = y.getD j nan) (hz : ∀ j, z'.getD (f j) nan = z.getD j nan)
    (hm : ∀ j, m'.getD (f j) nan = m.getD j nan)
    (hpos : ∀ k, (∀ j, f j ≠ k) → (m'.getD k nan <. Num.ofRat 0) = false) (i n' : Nat) :
    ∀ n, (∀ j < n, f j < n') → (∀ j, n ≤ j → n' ≤ f j) →
      (@fortranInner _ (singleDotBy dt) x' y' z' m' (Num.sq soft) (f i) n' <.
        @fortranInner _ (singleDotBy dt) x y z m (Num.sq soft) i n) = false := by
  induction n' with
  | zero =>
    intro n h1 _
    cases n with
    | zero => exact not_lt_self _
    | succ n => exact absurd (h1 n (Nat.lt_succ_self n)) (Nat.not_lt_zero _)
  | succ k ih =>
    intro n h1 h2
    by_cases hk : ∃ j, f j = k
    · obtain ⟨j, hj⟩ := hk
      -- the particle `k` is the last old one
      have hjn : j < n := by
        by_contra hc
        have := h2 j (not_lt.1 hc)
        omega
      obtain ⟨p, rfl⟩ : ∃ p, n = p + 1 := ⟨n - 1, by omega⟩
      have hjp : j = p := by
        by_contra hne
        have hlt : j < p := by omega
        have := f.strictMono hlt
        have := h1 p (Nat.lt_succ_self p)
        omega
      subst hjp
      have := ih j (fun q hq => by have := f.strictMono hq; omega)
        (fun q hq => by have := f.monotone hq; omega)
      rw [inner_succ, inner_succ]
      by_cases hij : i = j
      · subst hij
        rw [if_neg (by omega), if_neg (by omega)]
        exact this
      · have hne : f i ≠ k := fun h => hij (f.injective (h.trans hj.symm))
        rw [if_pos hne, if_pos hij]
        refine lt_add this ?_
        rw [← hj, distBy_congr _ (hx i) (hy i) (hz i) (hx j) (hy j) (hz j)]
        show ((m'.getD (f j) nan /. _) <. (m.getD j nan /. _)) = false
        rw [hm j]
        exact not_lt_self _
    · -- an added particle
      have hk' : ∀ j, f j ≠ k := fun j h => hk ⟨j, h⟩
      have := ih n (fun q hq => by have := h1 q hq; have := hk' q; omega)
        (fun q hq => by have := h2 q hq; omega)
      rw [inner_succ, if_pos (hk' i)]
      exact lt_add_right this (div_not_neg (hpos k hk') (plus_distBy hd _ _ _ _ _ _))

end

/-- C85: adding particles without negative mass anywhere in a galaxy never makes the potential of
the particles that were there shallower, with the compiled backend, in IEEE arithmetic and whatever
the other masses and the positions are.  `f` says where the particles went; the two galaxies have the same
softenings and the same types present.  The compiler may fuse the squares of a distance with their sum. -/
theorem C85_added (dt : List (Float32' × Float32') → Float32') (hd : ∀ l, Fused l (dt l))
    (G : Float32') (hG : (G <. Num.ofRat 0) = false) (junk : Nat → Nat → Float32')
    (b b' : BGalaxy Float64) (hp : b.hasPot = false) (hp' : b'.hasPot = false) (f : ℕ ↪o ℕ)
    (hf : ∀ i, b.all[i]? = b'.all[f i]?)
    (hnew : ∀ k a, b'.all[k]? = some a → (∀ i, f i ≠ k) → (a.m <. Num.ofRat 0) = false)
    (h1 : b'.stars = [] ↔ b.stars = []) (h2 : b'.dm = [] ↔ b.dm = [])
    (h3 : b'.gas = [] ↔ b.gas = [])
    (hsoft : b'.softS = b.softS ∧ b'.softDm = b.softDm ∧ b'.softG = b.softG) :
    ∃ p p' : Nat → Float64,
      @potential _ _ _ (singleDotBy dt) (singleEnv G true junk) (Galaxy.ofBodies b) "fortran"
        = .ok (Galaxy.ofBodies (b.withPot p)) ∧
      @potential _ _ _ (singleDotBy dt) (singleEnv G true junk) (Galaxy.ofBodies b') "fortran"
        = .ok (Galaxy.ofBodies (b'.withPot p')) ∧
      ∀ i, (p i <. p' (f i)) = false := by
  refine ⟨_, _, @potential_ofBodies _ _ _ (singleDotBy dt) _ b "fortran" hp (Or.inl ⟨rfl, rfl⟩),
    @potential_ofBodies _ _ _ (singleDotBy dt) _ b' "fortran" hp' (Or.inl ⟨rfl, rfl⟩), fun i => ?_⟩
  rw [backendPot_singleDot, backendPot_singleDot, seriesMax_softs h1 h2 h3 hsoft]
  unfold singlePot
  rw [if_pos (by rfl), if_pos (by rfl)]
  apply lt_cast
  apply Flt.lt_neg
  apply lt_mul _ hG
  have hcol : ∀ (g : Body Float64 → Float64) (j : Nat),
      (b'.all.map fun a => (Flt.cast (g a) : Float32')).getD (f j) nan
        = (b.all.map fun a => Flt.cast (g a)).getD j nan := by
    intro g j
    rw [List.getD_eq_getElem?_getD, List.getD_eq_getElem?_getD, List.getElem?_map,
      List.getElem?_map, hf j]
  refine fortranInner_insert hd _ f (hcol _) (hcol _) (hcol _) (hcol _) ?_ i _ _ ?_ ?_
  · intro k hk
    rw [List.getD_eq_getElem?_getD, List.getElem?_map]
    cases h : b'.all[k]? with
    | none => exact not_neg_iff.2 (Or.inr (Or.inl rfl))
    | some a => exact cast_not_neg (hnew k a h hk)
  · intro j hj
    have := hf j
    rw [List.getElem?_eq_getElem hj] at this
    exact (List.getElem?_eq_some_iff.1 this.symm).1
  · intro j hj
    have := hf j
    rw [List.getElem?_eq_none hj] at this
    exact List.getElem?_eq_none_iff.1 this.symm

/-! ## Smaller softenings -/

theorem lt_sq {fmt : Fmt} {a a' : Flt fmt} (h0 : (a' <. Num.ofRat 0) = false)
    (h : (a <. a') = false) : (Num.sq a <. Num.sq a') = false := by
  rw [not_neg_iff] at h0
  rw [lt_false_iff] at *
  unfold Num.sq
  rw [toExt_mul_rnd, toExt_mul_rnd]
  apply rnd_mono
  generalize toExt a = a at *
  generalize toExt a' = a' at *
  cases a' with
  | nan => left; rfl
  | ninf => simp [Ext.NotGt, Ext.le] at h0
  | pinf =>
    cases a with
    | nan => right; left; rfl
    | pinf => right; right; rfl
    | _ => simp [Ext.NotGt, Ext.le] at h
  | fin x =>
    have hx : 0 ≤ x := by simpa [Ext.NotGt, Ext.le] using h0
    cases a with
    | nan => right; left; rfl
    | ninf => simp [Ext.NotGt, Ext.le] at h
    | pinf => right; right; rfl
    | fin y =>
      have hxy : x ≤ y := by simpa [Ext.NotGt, Ext.le] using h
      right; right
      exact decide_eq_true (mul_self_le_mul_self hx hxy)

theorem fortranInner_soft {dt : List (Float32' × Float32') → Float32'} (hd : ∀ l, Fused l (dt l))
    (x y z m : List Float32') {s s' : Float32'} (i : Nat)
    (h0 : (s' <. Num.ofRat 0) = false) (h : (s <. s') = false)
    (hm : ∀ j, (m.getD j nan <. Num.ofRat 0) = false) (n : Nat) :
    (@fortranInner _ (singleDotBy dt) x y z m (Num.sq s') i n <.
      @fortranInner _ (singleDotBy dt) x y z m (Num.sq s) i n) = false := by
  induction n with
  | zero => exact not_lt_self _
  | succ n ih =>
    rw [inner_succ, inner_succ]
    split_ifs
    · exact lt_add ih (lt_div_anti (hm n) (plus_distBy hd x y z s i n) (plus_distBy hd x y z s' i n)
        (lt_sqrt ((plus_squares hd _ _ _).add (plus_sq _)) ((plus_squares hd _ _ _).add (plus_sq _))
          (lt_add (not_lt_self _) (lt_sq h0 h))))
    · exact ih

/-- C85: smaller softenings never make a potential shallower, with the compiled backend, if no mass
is negative, whether or not squares are fused with their sum. -/
theorem C85_softening (dt : List (Float32' × Float32') → Float32') (hd : ∀ l, Fused l (dt l))
    (G : Float32') (hG : (G <. Num.ofRat 0) = false) (junk : Nat → Nat → Float32') (b : BGalaxy Float64) (hp : b.hasPot = false)
    (hm : ∀ a ∈ b.all, (a.m <. Num.ofRat 0) = false) (sS sDm sG : Float64)
    (h1 : (Num.ofRat 0 <=. sS) = true ∧ (sS <=. b.softS) = true)
    (h2 : (Num.ofRat 0 <=. sDm) = true ∧ (sDm <=. b.softDm) = true)
    (h3 : (Num.ofRat 0 <=. sG) = true ∧ (sG <=. b.softG) = true) :
    let b' := { b with softS := sS, softDm := sDm, softG := sG }
    ∃ p p' : Nat → Float64,
      @potential _ _ _ (singleDotBy dt) (singleEnv G true junk) (Galaxy.ofBodies b) "fortran"
        = .ok (Galaxy.ofBodies (b.withPot p)) ∧
      @potential _ _ _ (singleDotBy dt) (singleEnv G true junk) (Galaxy.ofBodies b') "fortran"
        = .ok (Galaxy.ofBodies (b'.withPot p')) ∧
      ∀ i, (p i <. p' i) = false := by
  intro b'
  refine ⟨_, _, @potential_ofBodies _ _ _ (singleDotBy dt) _ b "fortran" hp (Or.inl ⟨rfl, rfl⟩),
    @potential_ofBodies _ _ _ (singleDotBy dt) _ b' "fortran" hp (Or.inl ⟨rfl, rfl⟩), fun i => ?_⟩
  rw [backendPot_singleDot, backendPot_singleDot]
  unfold singlePot
  rw [if_pos (by rfl), if_pos (by rfl)]
  apply lt_cast
  apply Flt.lt_neg
  apply lt_mul _ hG
  have hs : List.Forall₂ (fun s s' => (Num.ofRat 0 <=. s') = true ∧ (s' <=. s) = true)
      b.softs b'.softs := by
    unfold BGalaxy.softs
    refine List.rel_append (List.rel_append ?_ ?_) ?_
    · exact List.forall₂_map_left_iff.2 (List.forall₂_map_right_iff.2
        (List.forall₂_same.2 fun _ _ => h1))
    · exact List.forall₂_map_left_iff.2 (List.forall₂_map_right_iff.2
        (List.forall₂_same.2 fun _ _ => h2))
    · exact List.forall₂_map_left_iff.2 (List.forall₂_map_right_iff.2
        (List.forall₂_same.2 fun _ _ => h3))
  have hmax : (seriesMax b'.softs <. Num.ofRat 0) = false ∧
      (seriesMax b.softs <. seriesMax b'.softs) = false := by
    rw [seriesMax_eq, seriesMax_eq]
    rcases maxStep_mono hs none none (Or.inl ⟨rfl, rfl⟩) with ⟨e, e'⟩ | ⟨a, a', e, e', h0, hle⟩
    · rw [e, e']
      exact ⟨not_neg_iff.2 (Or.inr (Or.inl rfl)), not_lt_self _⟩
    · rw [e, e']
      exact ⟨not_lt_of_le h0, not_lt_of_le hle⟩
  refine fortranInner_soft hd _ _ _ _ _ (cast_not_neg hmax.1) (lt_cast hmax.2) ?_ _
  intro j
  rw [show b'.all = b.all from rfl, List.getD_eq_getElem?_getD, List.getElem?_map]
  cases h : b.all[j]? with
  | none => exact not_neg_iff.2 (Or.inr (Or.inl rfl))
  | some a => exact cast_not_neg (hm a (List.mem_of_getElem? h))

/-! ## What does not hold -/

/-- seven stars, the first at the origin and six at distance one -/
def sevenStars (extra : List (ℚ × ℚ)) : BGalaxy Float64 :=
  axisGalaxy ([(1, 0), (1, 1)] ++ List.replicate 5 (3 / 2 ^ 25, 1) ++ extra)

/-- C85 (limits): with the numpy backend an eighth particle without mass changes the order of the
additions, and with it a potential becomes shallower. -/
theorem C85_numpy_added :
    let env := singleEnv (.ofExact false 1) true fun _ _ => .ofExact false 0
    let g := sevenStars []
    let g' := sevenStars [(0, 1)]
    ∃ p p', @potential _ _ _ (singleSumBy npSum) env (Galaxy.ofBodies g) "numpy"
        = .ok (Galaxy.ofBodies (g.withPot p)) ∧
      @potential _ _ _ (singleSumBy npSum) env (Galaxy.ofBodies g') "numpy"
        = .ok (Galaxy.ofBodies (g'.withPot p')) ∧
      toExt (p 0) = .fin (-1 - 5 / 2 ^ 23) ∧ toExt (p' 0) = .fin (-1 - 4 / 2 ^ 23) := by
  refine ⟨_, _, @potential_ofBodies _ _ _ (singleSumBy npSum) _ _ _ rfl (Or.inr rfl),
    @potential_ofBodies _ _ _ (singleSumBy npSum) _ _ _ rfl (Or.inr rfl), ?_, ?_⟩
  · rw [backendPot_singleDot]; decide +kernel
  · rw [backendPot_singleDot]; decide +kernel

/-- C85 (limits): the first particle of a type brings its softening, which makes the other
potentials shallower. -/
theorem C85_first_of_type :
    let env := singleEnv (.ofExact false 1) true fun _ _ => .ofExact false 0
    let g := { axisGalaxy [(1, 0), (1, 2)] with softG := .ofExact false 3 }
    let g' := { g with gas := [onAxis 0 5] }
    ∃ p p', potential env (Galaxy.ofBodies g) "fortran" = .ok (Galaxy.ofBodies (g.withPot p)) ∧
      potential env (Galaxy.ofBodies g') "fortran" = .ok (Galaxy.ofBodies (g'.withPot p')) ∧
      (p 0 <. p' 0) = true ∧ (p 1 <. p' 1) = true := by
  refine ⟨_, _, potential_ofBodies _ _ _ rfl (Or.inl ⟨rfl, rfl⟩),
    potential_ofBodies _ _ _ rfl (Or.inl ⟨rfl, rfl⟩), ?_, ?_⟩ <;> decide +kernel

/-- C85 (limits): with the numpy backend two particles at the same place attract each other with
softening one but not without softening. -/
theorem C85_numpy_softening :
    let env := singleEnv (.ofExact false 1) true fun _ _ => .ofExact false 0
    let g := { axisGalaxy [(1, 0), (1, 0)] with softS := .ofExact false 1 }
    let g' := axisGalaxy [(1, 0), (1, 0)]
    ∃ p p', potential env (Galaxy.ofBodies g) "numpy" = .ok (Galaxy.ofBodies (g.withPot p)) ∧
      potential env (Galaxy.ofBodies g') "numpy" = .ok (Galaxy.ofBodies (g'.withPot p')) ∧
      toExt (p 0) = .fin (-1) ∧ toExt (p' 0) = .fin 0 := by
  refine ⟨_, _, potential_ofBodies _ _ _ rfl (Or.inr rfl),
    potential_ofBodies _ _ _ rfl (Or.inr rfl), ?_, ?_⟩ <;> decide +kernel

/-- C85 is about something: a third star inserted between two deepens the potential of both, and a
smaller softening does so too -/
example :
    let env := singleEnv (.ofExact false 1) true fun _ _ => .ofExact false 0
    let g := axisGalaxy [(1, 0), (1, 2)]
    let g' := axisGalaxy [(1, 0), (1, 1), (1, 2)]
    toExt (backendPot env "fortran" g.all g.softs 0) = .fin (-1 / 2) ∧
      toExt (backendPot env "fortran" g'.all g'.softs 0) = .fin (-3 / 2) ∧
      toExt (backendPot env "fortran" g'.all g'.softs 2) = .fin (-3 / 2) := by decide +kernel

/-- wherever particles are added there is such an `f` -/
example (l l' : List (Body Float64)) (h : List.Sublist l l') :
    ∃ f : ℕ ↪o ℕ, ∀ i, l[i]? = l'[f i]? := List.sublist_iff_exists_orderEmbedding_getElem?_eq.1 h

end GChop
