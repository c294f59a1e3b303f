import Verif.Props.DoubleUnitsAlign
import Verif.Props.PotentialSingle
import Verif.Props.PotentialError

/-!
# C90: `potential` in units that differ by powers of two, in single and double precision
-/

namespace GChop
open Pd Flt

theorem nrm32 : Fmt.binary32.nrm = -126 := by decide
theorem emax32 : Fmt.binary32.emax = 127 := rfl
theorem prec32 : (Fmt.binary32.prec : ℤ) - 1 = 23 := rfl

/-! ## Conversions -/

/-- a double precision number converted to single precision -/
theorem pair_down {k p : ℤ} {a : Float64} (h : Flt.InRange k p a) (hk : |k| ≤ 400) (h0 : 0 ≤ p)
    (hp : p ≤ 126) : Pair k (-p - 23) p (Flt.cast a : Float32') (Flt.cast (Num.ofRat (2 ^ k) *. a)) ∧
      Sized (-p) (Flt.cast a : Float32') ∧ Sized (-p) (Flt.cast (Num.ofRat (2 ^ k) *. a) : Float32') := by
  rw [abs_le] at hk
  have q := h.pair (by rw [nrm64]; omega) (by rw [emax64]; omega) (by rw [nrm64, prec64]; omega) h0
    (by rw [emax64]; omega)
  obtain ⟨s, m, rfl, h⟩ := h
  obtain ⟨s', m1, m2, e1, e2, hm, -, -, l, l'⟩ := q.dest
  cases e1
  rw [e2]
  have hkp : (0 : ℚ) < 2 ^ k := zpow_pos (by norm_num) _
  have hpp : (0 : ℚ) < 2 ^ (-p) := zpow_pos (by norm_num) _
  show Pair k _ p (ofExact s (sval s m) : Float32') (ofExact s (sval s m2)) ∧
    Sized _ (ofExact s (sval s m) : Float32') ∧ Sized _ (ofExact s (sval s m2) : Float32')
  have hr : Fmt.binary32.roundPos (2 ^ (-p)) = 2 ^ (-p) := by
    have := roundPos_small (fmt := Fmt.binary32) (c := 1) (h := -p) (by decide)
      (by show (-149 : ℤ) ≤ -p; omega)
    simpa using this
  have sz : ∀ x : ℚ, x = 0 ∨ 2 ^ (-p) ≤ |x| → Sized (-p) (ofExact s x : Float32') := by
    intro x hx
    unfold ofExact
    dsimp only
    split
    · show Fmt.binary32.roundPos |x| = 0 ∨ 2 ^ (-p) ≤ Fmt.binary32.roundPos |x|
      rcases hx with rfl | hx
      · left; simp [Fmt.roundPos_zero]
      · right
        rw [← hr]
        exact Fmt.binary32.roundPos_mono hpp.le hx
    · trivial
  have b1 : sval s m = 0 ∨ 2 ^ (-p) ≤ |sval s m| ∧ 2 ^ (-p) ≤ |2 ^ k * sval s m| := by
    rcases h with h | ⟨a1, a2, a3, a4⟩
    · left; cases s <;> simp [sval, h]
    · right
      rw [abs_mul, abs_sval, abs_of_pos hkp]
      exact ⟨a1, a3⟩
  rw [sval_scaled hm]
  refine ⟨?_, sz _ (b1.imp_right And.left), sz _ (b1.imp (fun h => by rw [h, mul_zero]) And.right)⟩
  have := pair_of_size (fmt := Fmt.binary32) (z := s) (q := -p) (h := p) b1 (by rwa [abs_sval])
    (by rwa [abs_mul, abs_sval, abs_of_pos hkp, ← hm]) (by rw [nrm32]; omega) (by rw [nrm32]; omega)
    (by rw [emax32]; omega)
  rwa [prec32] at this

/-- a single precision number converted to double precision -/
theorem pair_up {k e h : ℤ} {a a' : Float32'} (p : Pair k e h a a') (he : -1022 ≤ e) (h1 : -1022 ≤ h)
    (h2 : h ≤ 1023) : Pair k e h (Flt.cast a : Float64) (Flt.cast a') := by
  obtain ⟨s, m, m', rfl, rfl, hm, ⟨n, hn⟩, ⟨n', hn'⟩, l, l'⟩ := p.dest
  show Pair k e h (ofExact s (sval s m) : Float64) (ofExact s (sval s m'))
  obtain ⟨j, hj⟩ := sval_multiple (s := s) hn
  obtain ⟨j', hj'⟩ := sval_multiple (s := s) hn'
  have hx : |sval s m| ≤ (2 : ℚ) ^ h := by rwa [abs_sval]
  have hx' : |sval s m'| ≤ (2 : ℚ) ^ h := by rwa [abs_sval]
  rw [sval_scaled hm] at hj' hx' ⊢
  exact pair_ofExact hj hj' hx hx' (by rw [nrm64]; omega) (by rw [nrm64]; omega) (by rw [emax64]; omega)

/-- a number on the grid is in the range of `C89_center` -/
theorem inRange_of_pair {k e h : ℤ} {a a' : Float64} (p : Pair k e h a a') (he : -400 ≤ e)
    (hh : h ≤ 400) : Flt.InRange k 400 a := by
  obtain ⟨s, m, m', rfl, rfl, hm, g, g', l, l'⟩ := p.dest
  have w1 : (2 : ℚ) ^ (-400 : ℤ) ≤ 2 ^ e := zpow_le_zpow_right₀ (by norm_num) he
  have w2 : (2 : ℚ) ^ h ≤ 2 ^ (400 : ℤ) := zpow_le_zpow_right₀ (by norm_num) hh
  refine ⟨s, m, rfl, ?_⟩
  rcases sized_of_multiple g with h0 | h1
  · exact Or.inl h0
  · rcases sized_of_multiple g' with h0 | h2
    · left
      rw [hm] at h0
      exact (mul_eq_zero.1 h0).resolve_left (zpow_pos (by norm_num) _).ne'
    · rw [hm] at h2 l'
      exact Or.inr ⟨w1.trans h1, l.trans w2, w1.trans h2, l'.trans w2⟩

/-! ## One potential -/

section
variable {l i : ℤ}

/-- coordinates and masses of `n` particles in both units, in single precision -/
structure Cols (l i : ℤ) (n : ℕ) (x y z m x' y' z' m' : List Float32') : Prop where
  x : ∀ j < n, Pair i (-43) 20 (x.getD j Num.nan) (x'.getD j Num.nan)
  y : ∀ j < n, Pair i (-43) 20 (y.getD j Num.nan) (y'.getD j Num.nan)
  z : ∀ j < n, Pair i (-43) 20 (z.getD j Num.nan) (z'.getD j Num.nan)
  m : ∀ j < n, Pair l (-58) 35 (m.getD j Num.nan) (m'.getD j Num.nan) ∧
    Sized (-35) (m.getD j Num.nan) ∧ Sized (-35) (m'.getD j Num.nan)

theorem pair_dist {a a' b b' c c' d d' e e' f f' s s' : Float32'} (ha : Pair i (-43) 20 a a')
    (hb : Pair i (-43) 20 b b') (hc : Pair i (-43) 20 c c') (hd : Pair i (-43) 20 d d')
    (he : Pair i (-43) 20 e e') (hf : Pair i (-43) 20 f f') (hs : Pair i (-43) 20 s s') :
    Pair i (-66) 23
      (Num.sqrt (((Num.sq (a -. b) +. Num.sq (c -. d)) +. Num.sq (e -. f)) +. Num.sq s))
      (Num.sqrt (((Num.sq (a' -. b') +. Num.sq (c' -. d')) +. Num.sq (e' -. f')) +. Num.sq s')) := by
  have sq : ∀ {u u' w w' : Float32'}, Pair i (-43) 20 u u' → Pair i (-43) 20 w w' →
      Pair (2 * i) (-86) 42 (Num.sq (u -. w)) (Num.sq (u' -. w')) := by
    intro u u' w w' hu hw
    exact (hu.sub hw (by rw [nrm32]; omega) (by rw [nrm32]; omega) (by rw [emax32]; omega)).sq
      (by rw [nrm32]; omega) (by rw [nrm32]; omega) (by rw [emax32]; omega)
  have h1 := (sq ha hb).add (sq hc hd) (by rw [nrm32]; omega) (by rw [nrm32]; omega)
    (by rw [emax32]; omega)
  have h2 := h1.add ((sq he hf).weaken le_rfl (by omega)) (by rw [nrm32]; omega) (by rw [nrm32]; omega)
    (by rw [emax32]; omega)
  have h3 := h2.add ((hs.sq (by rw [nrm32]; omega) (by rw [nrm32]; omega)
    (by rw [emax32]; omega)).weaken (e' := -86) (by omega) (by omega)) (by rw [nrm32]; omega)
    (by rw [nrm32]; omega) (by rw [emax32]; omega)
  have h4 := h3.sqrt_plus ((((plus_sq _).add (plus_sq _)).add (plus_sq _)).add (plus_sq _))
    (by rw [nrm32]; omega) (by rw [nrm32]; omega) (by rw [emax32]; omega)
  rw [prec32] at h4
  exact h4.weaken (by omega) (by omega)

/-- the distance of the compiled backend -/
theorem pair_distBy {dt : List (Float32' × Float32') → Float32'} (hd : SameDot dt)
    {a a' b b' c c' d d' e e' f f' s s' : Float32'} (ha : Pair i (-43) 20 a a')
    (hb : Pair i (-43) 20 b b') (hc : Pair i (-43) 20 c c') (hd' : Pair i (-43) 20 d d')
    (he : Pair i (-43) 20 e e') (hf : Pair i (-43) 20 f f') (hs : Pair i (-43) 20 s s') :
    Pair i (-66) 23
      (Num.sqrt (dt [(a -. b, a -. b), (c -. d, c -. d), (e -. f, e -. f)] +. Num.sq s))
      (Num.sqrt (dt [(a' -. b', a' -. b'), (c' -. d', c' -. d'), (e' -. f', e' -. f')] +. Num.sq s')) := by
  have df : ∀ {u u' w w' : Float32'}, Pair i (-43) 20 u u' → Pair i (-43) 20 w w' →
      Pair i (-43) 21 (u -. w) (u' -. w') := by
    intro u u' w w' hu hw
    exact hu.sub hw (by rw [nrm32]; omega) (by rw [nrm32]; omega) (by rw [emax32]; omega)
  have h1 := fused2_pairs (hd [((a -. b, a -. b), (a' -. b', a' -. b')),
      ((c -. d, c -. d), (c' -. d', c' -. d')), ((e -. f, e -. f), (e' -. f', e' -. f'))])
    (j := i) (k := i) (e := -43) (h := 21) (e' := -43) (h' := 21) (by
      intro q hq
      simp only [List.mem_cons, List.not_mem_nil, or_false] at hq
      rcases hq with rfl | rfl | rfl
      exacts [⟨df ha hb, df ha hb⟩, ⟨df hc hd', df hc hd'⟩, ⟨df he hf, df he hf⟩])
    (by rw [nrm32]; omega) (by rw [nrm32]; omega) (by rw [emax32]; omega) (by decide) (by
      show 3 ≤ _
      decide) (by
      refine le_trans ?_ (Fmt.binary32.pow_le_maxFin (e := 44) (by rw [emax32]; omega))
      show ((3 : ℕ) : ℚ) * _ ≤ _
      norm_num)
  have h2 := h1.pair (h := 44) (by
    show ((3 : ℕ) : ℚ) * _ ≤ _
    norm_num)
  rw [← two_mul] at h2
  have h3 := h2.add ((hs.sq (by rw [nrm32]; omega) (by rw [nrm32]; omega)
    (by rw [emax32]; omega)).weaken (e' := -43 + -43) (h' := 44) (by omega) (by omega))
    (by rw [nrm32]; omega) (by rw [nrm32]; omega) (by rw [emax32]; omega)
  have h4 := h3.sqrt_plus ((plus_squares hd.fused _ _ _).add (plus_sq _))
    (by rw [nrm32]; omega) (by rw [nrm32]; omega) (by rw [emax32]; omega)
  rw [prec32] at h4
  exact h4.weaken (by omega) (by omega)

/-- one term of the sums -/
theorem sums_term {m m' d d' : Float32'} (hm : Pair l (-58) 35 m m' ∧ Sized (-35) m ∧ Sized (-35) m')
    (hd : Pair i (-66) 23 d d') : Sums (l - i) (-81) (2 ^ (101 : ℤ)) (m /. d) (m' /. d') := by
  have := hm.1.div_sized hm.2.1 hm.2.2 hd (by rw [nrm32]; omega) (by rw [nrm32]; omega)
    (by rw [emax32]; omega)
  rw [prec32] at this
  rcases this with p | p
  · exact Or.inl (p.weaken (e' := -81) (h' := 101) (by omega) (by omega)).dest
  · exact Or.inr p

variable {n : ℕ} {x y z m x' y' z' m' : List Float32'} {s s' : Float32'}

theorem bound32 {c : ℕ} (hc : c < 2 ^ 24) : (c : ℚ) * 2 ^ (101 : ℤ) ≤ 2 ^ (125 : ℤ) := by
  have : (c : ℚ) ≤ 2 ^ 24 := by exact_mod_cast hc.le
  calc _ ≤ (2 : ℚ) ^ 24 * 2 ^ (101 : ℤ) :=
        mul_le_mul_of_nonneg_right this (zpow_pos (by norm_num) _).le
    _ = 2 ^ (125 : ℤ) := by norm_num

theorem max32 {c : ℕ} (hc : c < 2 ^ 24) : (c : ℚ) * 2 ^ (101 : ℤ) ≤ Fmt.binary32.maxFin :=
  (bound32 hc).trans (Fmt.binary32.pow_le_maxFin (by rw [emax32]; omega))

/-- the sum of the fortran loop -/
theorem sums_fortran {sm : List Float32' → Float32'} {dt : List (Float32' × Float32') → Float32'}
    (hd : SameDot dt) (h : Cols l i n x y z m x' y' z' m') (hs : Pair i (-43) 20 s s') {k : ℕ}
    (hk : k < n) {c : ℕ} (hc : c ≤ n) (hn : n < 2 ^ 24) :
    Sums (l - i) (-81) (c * 2 ^ (101 : ℤ)) (@fortranInner _ (singleSumDot sm dt) x y z m (Num.sq s) k c)
      (@fortranInner _ (singleSumDot sm dt) x' y' z' m' (Num.sq s') k c) := by
  have hp : (0 : ℚ) < 2 ^ (101 : ℤ) := zpow_pos (by norm_num) _
  induction c with
  | zero => exact Or.inl (zero_pairQ _ _ (by simp))
  | succ c ih =>
    have ih := ih (by omega)
    have hq : ((c + 1 : ℕ) : ℚ) * 2 ^ (101 : ℤ) = c * 2 ^ (101 : ℤ) + 2 ^ (101 : ℤ) := by
      push_cast; ring
    by_cases hkc : k ≠ c
    · rw [inner_succ, inner_succ, if_pos hkc, if_pos hkc, hq]
      refine ih.add (sums_term (h.m c (by omega)) ?_) (by rw [nrm32]; omega) ?_ ?_
      · exact pair_distBy hd (h.x k hk) (h.x c (by omega)) (h.y k hk) (h.y c (by omega)) (h.z k hk)
          (h.z c (by omega)) hs
      · rw [← hq, roundPos_small (by show c + 1 ≤ 2 ^ 24 - 1; omega) (by decide)]
      · rw [← hq]
        exact max32 (by omega)
    · rw [inner_succ, inner_succ, if_neg hkc, if_neg hkc]
      rcases ih with ⟨t, a, a', h1, h2, h3, g, g', b, b'⟩ | ih
      · refine Or.inl ⟨t, a, a', h1, h2, h3, g, g', ?_, ?_⟩ <;> rw [hq] <;> linarith
      · exact Or.inr ih

theorem Flt.Scaled.eq_zero {fmt : Fmt} {k : ℤ} {a b : Flt fmt} (h : Scaled k a b) :
    (b ==. Num.ofRat 0) = (a ==. Num.ofRat 0) := by
  have hk : (0 : ℚ) < 2 ^ k := zpow_pos (by norm_num) _
  show Ext.eq (Flt.toExt b) (Flt.toExt (ofExact false 0)) = Ext.eq (Flt.toExt a) (Flt.toExt (ofExact false 0))
  rw [toExt_zero, h.toExt]
  cases Flt.toExt a with
  | fin x =>
    have h1 : 2 ^ k * x ≤ 0 ↔ x ≤ 0 := by rw [mul_nonpos_iff]; simp [hk.le, hk.not_ge]
    have h2 : 0 ≤ 2 ^ k * x ↔ 0 ≤ x := by rw [mul_nonneg_iff]; simp [hk.le, hk.not_ge]
    simp only [Ext.eq, Ext.le, h1, h2]
  | pinf => rfl
  | ninf => rfl
  | nan => rfl

/-- the sum of the numpy backend on memory that holds zeros -/
theorem sums_numpy {sm : List Float32' → Float32'} (hsm : SameOrder sm)
    (h : Cols l i n x y z m x' y' z' m') (hs : Pair i (-43) 20 s s') {k : ℕ}
    (hk : k < n) (hn : n < 2 ^ 24) :
    Sums (l - i) (-81) (n * 2 ^ (101 : ℤ))
      (sm ((List.range n).map fun j => if !(numpyDist x y z s k j ==. Num.ofRat 0) then
          m.getD j Num.nan /. numpyDist x y z s k j else Num.ofRat 0))
      (sm ((List.range n).map fun j => if !(numpyDist x' y' z' s' k j ==. Num.ofRat 0) then
          m'.getD j Num.nan /. numpyDist x' y' z' s' k j else Num.ofRat 0)) := by
  have ha := hsm ((List.range n).map fun j =>
    (if !(numpyDist x y z s k j ==. Num.ofRat 0) then
        m.getD j Num.nan /. numpyDist x y z s k j else Num.ofRat 0,
      if !(numpyDist x' y' z' s' k j ==. Num.ofRat 0) then
        m'.getD j Num.nan /. numpyDist x' y' z' s' k j else Num.ofRat 0))
  rw [List.map_map, List.map_map] at ha
  have hlen : ∀ f : ℕ → Float32' × Float32', ((List.range n).map f).length = n := by simp
  have := added2_sums ha (k := l - i) (e := -81) (h := 101) ?_ (by rw [nrm32]; omega) (by decide)
    (by rw [hlen]; show n ≤ 2 ^ 24 - 1; omega) (by rw [hlen]; exact max32 hn)
  · rwa [hlen] at this
  · simp only [List.mem_map, List.mem_range]
    rintro _ ⟨j, hj, rfl⟩
    have hz : Sums (l - i) (-81) (2 ^ (101 : ℤ)) (Num.ofRat 0 : Float32') (Num.ofRat 0) :=
      Or.inl (zero_pairQ _ _ (zpow_pos (by norm_num) _).le)
    dsimp only
    by_cases hkj : k = j
    · have e0 : ∀ (x y z : List Float32') (s : Float32'), numpyDist x y z s k j = Num.ofRat 0 := by
        intro x y z s
        simp [numpyDist, hkj]
      have e1 : ((Num.ofRat 0 : Float32') ==. Num.ofRat 0) = true := by decide +kernel
      rw [e0, e0, e1]
      exact hz
    · have hd : Pair i (-66) 23 (numpyDist x y z s k j) (numpyDist x' y' z' s' k j) := by
        unfold numpyDist
        dsimp only
        rw [if_neg hkj, if_neg hkj]
        exact pair_dist (h.x j hj) (h.x k hk) (h.y j hj) (h.y k hk) (h.z j hj) (h.z k hk) hs
      rw [hd.scaled.eq_zero]
      split
      · exact sums_term (h.m j hj) hd
      · exact hz

/-- the stored potential: on a grid, or the same infinity or NaN -/
theorem stored {G a a' : Float32'} (hG : Grid (-43) 0 G) (hn : n < 2 ^ 24)
    (h : Sums (l - i) (-81) (n * 2 ^ (101 : ℤ)) a a') :
    Pair (l - i) (-124) 125 (Flt.cast (Num.neg (a *. G)) : Float64) (Flt.cast (Num.neg (a' *. G))) ∨
      ((Flt.cast (Num.neg (a *. G)) : Float64) = Flt.cast (Num.neg (a' *. G)) ∧
        Num.isFinite (Flt.cast (Num.neg (a *. G)) : Float64) = false) := by
  rcases h with h | ⟨rfl, h⟩
  · left
    have hG0 : Pair 0 (-43) 0 G G := by
      refine ⟨?_, hG, hG⟩
      obtain ⟨t, u, rfl, -⟩ := hG
      exact ⟨rfl, by simp⟩
    have := (h.pair (bound32 hn)).mul hG0 (by rw [nrm32]; omega) (by rw [nrm32]; omega)
      (by rw [emax32]; omega)
    rw [add_zero] at this
    exact pair_up (this.neg.weaken (by omega) (by omega)) (by omega) (by omega) (by omega)
  · refine Or.inr ⟨rfl, ?_⟩
    obtain ⟨t, u, rfl, -⟩ := hG
    cases a with
    | fin s m => cases h
    | nan => rfl
    | inf s =>
      show Num.isFinite (Flt.cast (Flt.neg (Flt.mul (inf s) (fin t u))) : Float64) = false
      simp only [Flt.mul]
      split
      · rfl
      · cases (s != t) <;> rfl

end

/-! ## The galaxy -/

/-- the largest element of a series in other units -/
theorem seriesMax_scaled {k : ℤ} (l : List Float64) (f : Float64 → Float64)
    (h : ∀ a ∈ l, Scaled k a (f a)) : Scaled k (seriesMax l) (seriesMax (l.map f)) := by
  have hf : (l.map f).filter (fun a => !Num.isNaN a) = (l.filter fun a => !Num.isNaN a).map f := by
    rw [List.filter_map]
    congr 1
    refine List.filter_congr fun a ha => ?_
    simp [(h a ha).isNaN]
  have h' : ∀ a ∈ l.filter fun a => !Num.isNaN a, Scaled k a (f a) := fun a ha =>
    h a (List.mem_filter.1 ha).1
  unfold seriesMax
  rw [hf]
  generalize l.filter (fun a => !Num.isNaN a) = l at h'
  cases l with
  | nil => trivial
  | cons a l =>
    show Scaled k (l.foldl _ a) ((l.map f).foldl _ (f a))
    have ha := h' a List.mem_cons_self
    have hl : ∀ c ∈ l, Scaled k c (f c) := fun c hc => h' c (List.mem_cons_of_mem _ hc)
    clear h' h hf
    generalize f a = a' at ha
    induction l generalizing a a' with
    | nil => exact ha
    | cons c l ih =>
      have hc := hl c List.mem_cons_self
      simp only [List.map_cons, List.foldl_cons]
      rw [ha.lt hc]
      refine ih _ (fun d hd => hl d (List.mem_cons_of_mem _ hd)) _ ?_
      split
      · exact hc
      · exact ha

theorem seriesMax_mem {l : List Float64} (hne : l ≠ []) (h : ∀ a ∈ l, Num.isNaN a = false) :
    seriesMax l ∈ l := by
  have hf : l.filter (fun a => !Num.isNaN a) = l := by
    apply List.filter_eq_self.2
    intro a ha
    rw [h a ha]
    rfl
  unfold seriesMax
  rw [hf]
  cases l with
  | nil => exact absurd rfl hne
  | cons a l =>
    exact (foldl_max_spec l a (h a List.mem_cons_self) fun c hc => h c (List.mem_cons_of_mem _ hc)).1

/-- Coordinates are 0 or between `2^-20` and `2^20`, masses are 0 or between `2^-35` and `2^35`, in both
units. -/
structure Body.Near (l i : ℤ) (a : Body Float64) : Prop where
  m : Flt.InRange l 35 a.m
  x : Flt.InRange i 20 a.x
  y : Flt.InRange i 20 a.y
  z : Flt.InRange i 20 a.z

section
variable {l i j p : ℤ}

theorem rescale_softs (b : BGalaxy Float64) :
    (b.rescale l i j p).softs = b.softs.map (Num.ofRat (2 ^ i) *. ·) := by
  simp [BGalaxy.softs, BGalaxy.rescale, BGalaxy.mapBodies, Function.comp_def]

theorem withPot_congr64 {b : BGalaxy Float64} {f g : Nat → Float64} (h : ∀ k < b.all.length, f k = g k) :
    b.withPot f = b.withPot g := by
  have hlen : b.all.length = b.stars.length + b.dm.length + b.gas.length := by
    simp [BGalaxy.all, Nat.add_assoc]
  have e : ∀ (s : List (Body Float64)) (c : ℕ), c + s.length ≤ b.all.length →
      (s.mapIdx fun k a => { a with pot := f (c + k) }) = s.mapIdx fun k a => { a with pot := g (c + k) } := by
    intro s c hc
    apply List.ext_getElem?
    intro k
    simp only [List.getElem?_mapIdx]
    by_cases hk : k < s.length
    · rw [h (c + k) (by omega)]
    · rw [List.getElem?_eq_none (by omega)]; rfl
  unfold BGalaxy.withPot
  have e0 := e b.stars 0 (by omega)
  simp only [Nat.zero_add] at e0
  rw [e0, e b.dm b.stars.length (by omega), e b.gas (b.stars.length + b.dm.length) (by omega)]

theorem rescale_withPot (b : BGalaxy Float64) (f : Nat → Float64) :
    (b.withPot f).rescale l i j p = (b.rescale l i j p).withPot fun k => Num.ofRat (2 ^ p) *. f k := by
  unfold BGalaxy.withPot BGalaxy.rescale BGalaxy.mapBodies
  simp only [BGalaxy.mk.injEq, and_true, List.length_map]
  refine ⟨?_, ?_, ?_⟩ <;>
  · apply List.ext_getElem?
    intro k
    simp only [List.getElem?_map, List.getElem?_mapIdx, Option.map_map]
    rfl

end

/-- C90: with the compiled backend, and with the numpy one where fresh memory holds zeros, `potential`
commutes with a change of units by powers of two, bit for bit: the potentials are multiplied by
`2^(l - i)`.  The result can be centred.  The compiler may fuse the squares of the differences with their
sum, in the same way for all particles. -/
theorem C90_potential (sm : List Float32' → Float32') (hs : SameOrder sm)
    (dt : List (Float32' × Float32') → Float32') (hd : SameDot dt) (G : Float32')
    (hG : Grid (-43) 0 G) (built : Bool) (junk : Nat → Nat → Float32') (backend : String)
    (hb : backend = "fortran" ∧ built = true ∨ backend = "numpy" ∧ ∀ k k', junk k k' = Num.ofRat 0)
    (b : BGalaxy Float64) (l i j : ℤ) (hl : |l| ≤ 400) (hi : |i| ≤ 400) (hp : b.hasPot = false)
    (h : ∀ a ∈ b.all, a.Near l i) (hS : Flt.InRange i 20 b.softS) (hD : Flt.InRange i 20 b.softDm)
    (hGs : Flt.InRange i 20 b.softG) (hn : b.all.length < 2 ^ 24) (p : ℤ) :
    ∃ b' : BGalaxy Float64,
      @potential _ _ _ (singleSumDot sm dt) (singleEnv G built junk) (Galaxy.ofBodies b) backend
        = .ok (Galaxy.ofBodies b') ∧
      @potential _ _ _ (singleSumDot sm dt) (singleEnv G built junk)
        (Galaxy.ofBodies (b.rescale l i j p)) backend
        = .ok (Galaxy.ofBodies (b'.rescale l i j (l - i))) ∧
      (∀ a ∈ b'.all, a.PotFits (l - i)) ∧
      ∃ pots : Nat → Float64, b' = b.withPot pots := by
  set P := @backendPot _ _ _ (singleSumDot sm dt) (singleEnv G built junk) backend b.all b.softs with hP
  set P' := @backendPot _ _ _ (singleSumDot sm dt) (singleEnv G built junk) backend
    (b.rescale l i j p).all (b.rescale l i j p).softs with hP'
  have hok : backendOk (singleEnv G built junk) backend := by
    rcases hb with ⟨rfl, h⟩ | ⟨rfl, -⟩
    · exact Or.inl ⟨rfl, h⟩
    · exact Or.inr rfl
  have key : ∀ k < b.all.length, Pair (l - i) (-124) 125 (P k) (P' k) ∨
      (P k = P' k ∧ Num.isFinite (P k) = false) := by
    intro k hk
    have hsoft : ∀ e ∈ b.softs, Flt.InRange i 20 e := by
      intro e he
      simp only [BGalaxy.softs, List.mem_append, List.mem_map] at he
      rcases he with (⟨_, _, rfl⟩ | ⟨_, _, rfl⟩) | ⟨_, _, rfl⟩
      exacts [hS, hD, hGs]
    have hne : b.softs ≠ [] := by
      have : b.softs.length = b.all.length := by simp [BGalaxy.softs, BGalaxy.all]
      intro h0
      rw [h0] at this
      simp only [List.length_nil] at this
      omega
    have hmax := hsoft _ (seriesMax_mem hne fun a ha => by
      obtain ⟨s, m, rfl, -⟩ := hsoft a ha
      rfl)
    have hsc : seriesMax (b.rescale l i j p).softs = Num.ofRat (2 ^ i) *. seriesMax b.softs := by
      rw [rescale_softs]
      refine ((seriesMax_scaled b.softs _ fun a ha => ?_).mul_eq64 hi).symm
      rw [abs_le] at hi
      exact ((hsoft a ha).pair (by rw [nrm64]; omega) (by rw [emax64]; omega)
        (by rw [nrm64, prec64]; omega) (by omega) (by rw [emax64]; omega)).scaled
    have hs2 := (pair_down hmax hi (by omega) (by omega)).1
    have col : ∀ (f : Body Float64 → Float64) (k : ℕ), k < b.all.length →
        ∃ a ∈ b.all, (b.all.map fun a => (Flt.cast (f a) : Float32')).getD k Num.nan = Flt.cast (f a) ∧
          ((b.rescale l i j p).all.map fun a => (Flt.cast (f a) : Float32')).getD k Num.nan
            = Flt.cast (f (a.rescale l i j p)) := by
      intro f k hk
      refine ⟨b.all[k], List.getElem_mem hk, ?_, ?_⟩
      · simp [List.getD_eq_getElem?_getD, hk]
      · rw [rescale_all]
        simp [List.getD_eq_getElem?_getD, hk]
    have hcols : Cols l i b.all.length (b.all.map fun a => Flt.cast a.x) (b.all.map fun a => Flt.cast a.y)
        (b.all.map fun a => Flt.cast a.z) (b.all.map fun a => Flt.cast a.m)
        ((b.rescale l i j p).all.map fun a => Flt.cast a.x)
        ((b.rescale l i j p).all.map fun a => Flt.cast a.y)
        ((b.rescale l i j p).all.map fun a => Flt.cast a.z)
        ((b.rescale l i j p).all.map fun a => Flt.cast a.m) := by
      refine ⟨fun k hk => ?_, fun k hk => ?_, fun k hk => ?_, fun k hk => ?_⟩
      · obtain ⟨a, ha, e1, e2⟩ := col (·.x) k hk
        rw [e1, e2]
        exact (pair_down (h a ha).x hi (by omega) (by omega)).1
      · obtain ⟨a, ha, e1, e2⟩ := col (·.y) k hk
        rw [e1, e2]
        exact (pair_down (h a ha).y hi (by omega) (by omega)).1
      · obtain ⟨a, ha, e1, e2⟩ := col (·.z) k hk
        rw [e1, e2]
        exact (pair_down (h a ha).z hi (by omega) (by omega)).1
      · obtain ⟨a, ha, e1, e2⟩ := col (·.m) k hk
        rw [e1, e2]
        exact pair_down (h a ha).m hl (by omega) (by omega)
    have hlen : (b.rescale l i j p).all.length = b.all.length := by rw [rescale_all, List.length_map]
    rw [hP, hP', backendPot_singleDot, backendPot_singleDot, hsc, hlen]
    unfold singlePot
    rcases hb with ⟨rfl, -⟩ | ⟨rfl, hj⟩
    · exact stored hG hn (sums_fortran hd hcols hs2 hk le_rfl hn)
    · have := stored hG hn (sums_numpy hs hcols hs2 hk hn)
      simpa only [hj, show ("numpy" == "fortran") = false by decide, Bool.false_eq_true, if_false]
        using this
  have hli : |l - i| ≤ 800 := by
    rw [abs_le] at *
    omega
  refine ⟨b.withPot P, @potential_ofBodies _ _ _ (singleSumDot sm dt) _ b backend hp hok, ?_, ?_, P, rfl⟩
  · refine (@potential_ofBodies _ _ _ (singleSumDot sm dt) _ (b.rescale l i j p) backend hp hok).trans ?_
    rw [rescale_withPot]
    congr 2
    have e : ∀ f, (b.rescale l i j p).withPot f = (b.rescale l i j (l - i)).withPot f := by
      intro f
      unfold BGalaxy.withPot BGalaxy.rescale BGalaxy.mapBodies
      simp only [BGalaxy.mk.injEq, and_true, List.length_map]
      refine ⟨?_, ?_, ?_⟩ <;>
      · apply List.ext_getElem?
        intro k
        simp only [List.getElem?_map, List.getElem?_mapIdx, Option.map_map]
        rfl
    rw [e]
    apply withPot_congr64
    intro k hk
    rw [rescale_all, List.length_map] at hk
    rw [abs_le] at hli
    rcases key k hk with q | ⟨q1, q2⟩
    · exact (q.scaled.mul_eq (by rw [nrm64]; omega) (by rw [emax64]; omega)).symm
    · have := (Scaled.of_not_finite (k := l - i) q2).mul_eq (by rw [nrm64]; omega) (by rw [emax64]; omega)
      rw [this]
      exact q1.symm
  · intro a ha
    rw [withPot_all] at ha
    obtain ⟨k, hk, rfl⟩ := List.mem_mapIdx.1 ha
    rcases key k hk with q | ⟨q1, q2⟩
    · exact Or.inl (inRange_of_pair q (by omega) (by omega))
    · exact Or.inr q2

/-- C90 for the model as it stands, and for squares that are fused with their sum -/
theorem C90_orders : SameOrder (Num.sum : List Float32' → Float32') ∧
    SameOrder (npSum : List Float32' → Float32') ∧ SameDot (Num.dot : List (Float32' × Float32') → Float32') ∧
    singleSumDot Num.sum Num.dot = (inferInstance : Num Float32') ∧
    SameDot (fmaChain : List (Float32' × Float32') → Float32') :=
  ⟨sameOrder_leftFold, sameOrder_npSum, sameDot_dot, rfl, sameDot_fmaChain⟩

/-! ## Other factors, overflow -/

/-- two stars of mass 1 at distance 1 -/
def exTwo : BGalaxy Float64 :=
  { starsOnly [starAt (dv 0 0 0) (dv 0 0 0), starAt (dv 1 0 0) (dv 0 0 0)] with hasPot := false }

/-- C90 (negation for other factors): with lengths multiplied by three the potentials are not divided by
three. -/
theorem C90_other_factor : ∃ b' b'' : BGalaxy Float64,
    potential (singleEnv (Num.ofRat 1) true fun _ _ => Num.ofRat 0) (Galaxy.ofBodies exTwo) "fortran"
      = .ok (Galaxy.ofBodies b') ∧
    potential (singleEnv (Num.ofRat 1) true fun _ _ => Num.ofRat 0)
      (Galaxy.ofBodies (exTwo.mapBodies (Body.stretch (Num.ofRat 3)))) "fortran"
      = .ok (Galaxy.ofBodies b'') ∧
    b''.stars.map (·.pot) ≠ b'.stars.map (·.pot /. Num.ofRat 3) :=
  ⟨_, _, potential_ofBodies _ _ _ rfl (Or.inl ⟨rfl, rfl⟩),
    potential_ofBodies _ _ _ rfl (Or.inl ⟨rfl, rfl⟩), by decide +kernel⟩

/-- C90 (negation without the bounds): in units of length `2^70` times smaller (a centimetre is about
`2^-71` kiloparsec) the squared distances overflow and all potentials are zero. -/
theorem C90_overflow : ∃ b' b'' : BGalaxy Float64,
    potential (singleEnv (Num.ofRat 1) true fun _ _ => Num.ofRat 0) (Galaxy.ofBodies exTwo) "fortran"
      = .ok (Galaxy.ofBodies b') ∧
    potential (singleEnv (Num.ofRat 1) true fun _ _ => Num.ofRat 0)
      (Galaxy.ofBodies (exTwo.rescale 0 70 0 0)) "fortran" = .ok (Galaxy.ofBodies b'') ∧
    (∀ a ∈ b'.all, a.pot = Num.ofRat (-1)) ∧ ∀ a ∈ b''.all, (a.pot ==. Num.ofRat 0) = true :=
  ⟨_, _, potential_ofBodies _ _ _ rfl (Or.inl ⟨rfl, rfl⟩),
    potential_ofBodies _ _ _ rfl (Or.inl ⟨rfl, rfl⟩), by decide +kernel, by decide +kernel⟩

/-- C90: any gravitational constant between `2^-20` and 1 will do, in single precision; that of the
package is 4.30091e-6. -/
theorem C90_constant {q : ℚ} (h1 : 2 ^ (-20 : ℤ) ≤ q) (h2 : q ≤ 1) :
    Grid (-43) 0 (Num.ofRat q : Float32') := by
  have h0 : (0 : ℚ) < 2 ^ (-20 : ℤ) := zpow_pos (by norm_num) _
  have hq : |q| = q := abs_of_nonneg (h0.le.trans h1)
  have := grid_of_size (fmt := Fmt.binary32) (z := false) (x := q) (q := -20) (h := 0)
    (Or.inr (by rwa [hq])) (by simpa [hq] using h2) (by rw [nrm32]; omega) (by rw [emax32]; omega)
  rwa [prec32] at this

/-- the hypotheses hold for the galaxy of the counterexamples, masses times 8 and lengths divided by 32 -/
example : Grid (-43) 0 (Num.ofRat (430091 / 100000000000) : Float32') ∧ exTwo.hasPot = false ∧
    (∀ a ∈ exTwo.all, a.Near 3 (-5)) ∧ Flt.InRange (-5) 20 exTwo.softS ∧
    Flt.InRange (-5) 20 exTwo.softDm ∧ Flt.InRange (-5) 20 exTwo.softG := by
  refine ⟨C90_constant (by norm_num) (by norm_num), rfl, ?_, inRange_of (by decide +kernel),
    inRange_of (by decide +kernel), inRange_of (by decide +kernel)⟩
  intro a ha
  simp only [exTwo, starsOnly, BGalaxy.all, List.append_nil, List.mem_cons, List.not_mem_nil,
    or_false] at ha
  rcases ha with rfl | rfl <;>
    exact ⟨inRange_of (by decide +kernel), inRange_of (by decide +kernel), inRange_of (by decide +kernel),
      inRange_of (by decide +kernel)⟩

end GChop
