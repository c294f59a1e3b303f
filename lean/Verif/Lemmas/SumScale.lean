import Verif.Lemmas.SummationOrder
import Verif.Lemmas.FltScale

/-!
# Sums and powers of two
-/

namespace GChop
open Flt

/-! ## Orders that depend on the length only -/

section
variable {F : Type} [Num F]

/-- pairs, with the operations of a sum -/
abbrev pairNum : Num (F × F) where
  ofRat q := (Num.ofRat q, Num.ofRat q)
  nan := (Num.nan, Num.nan)
  ninf := (Num.ninf, Num.ninf)
  add a b := (a.1 +. b.1, a.2 +. b.2)
  sub a b := (a.1 -. b.1, a.2 -. b.2)
  mul a b := (a.1 *. b.1, a.2 *. b.2)
  div a b := (a.1 /. b.1, a.2 /. b.2)
  neg a := (Num.neg a.1, Num.neg a.2)
  abs a := (Num.abs a.1, Num.abs a.2)
  sqrt a := (Num.sqrt a.1, Num.sqrt a.2)
  sum l := (Num.sum (l.map (·.1)), Num.sum (l.map (·.2)))
  le a b := a.1 <=. b.1
  lt a b := a.1 <. b.1
  eq a b := a.1 ==. b.1
  isNaN a := Num.isNaN a.1
  isFinite a := Num.isFinite a.1
  roundDec i a := (Num.roundDec i a.1, Num.roundDec i a.2)
  arangeLen a b c := Num.arangeLen a.1 b.1 c.1

theorem Added2.of_pairs {l : List (F × F)} {s : F × F} (h : @Added _ pairNum l s) :
    Added2 l s.1 s.2 := by
  induction h with
  | nil => exact .nil
  | one a => exact .one a.1 a.2
  | zero _ ih => exact .zero ih
  | add h1 h2 h3 _ _ ih1 ih2 => exact .add h1 h2 h3 ih1 ih2

theorem sameOrder_of (sm : List F → F) (sm2 : List (F × F) → F × F)
    (h : ∀ l, @Added _ pairNum l (sm2 l)) (h1 : ∀ l, (sm2 l).1 = sm (l.map (·.1)))
    (h2 : ∀ l, (sm2 l).2 = sm (l.map (·.2))) : SameOrder sm := by
  intro l
  rw [← h1, ← h2]
  exact .of_pairs (h l)

omit [Num F] in
theorem forall₂_map_fst (l : List (F × F)) : List.Forall₂ (fun p a => p.1 = a) l (l.map (·.1)) := by
  induction l with
  | nil => exact .nil
  | cons p l ih => exact .cons rfl ih

omit [Num F] in
theorem forall₂_map_snd (l : List (F × F)) : List.Forall₂ (fun p a => p.2 = a) l (l.map (·.2)) := by
  induction l with
  | nil => exact .nil
  | cons p l ih => exact .cons rfl ih

theorem sameOrder_leftFold : SameOrder fun l : List F => l.foldl (· +. ·) (Num.ofRat 0) := by
  refine sameOrder_of _ _ (@added_leftFold _ pairNum) (fun l => ?_) fun l => ?_
  · exact @foldl_rel _ _ pairNum _ (fun p a => p.1 = a) (by rintro _ _ _ _ rfl rfl; rfl) _ _
      (forall₂_map_fst l) _ _ rfl
  · exact @foldl_rel _ _ pairNum _ (fun p a => p.2 = a) (by rintro _ _ _ _ rfl rfl; rfl) _ _
      (forall₂_map_snd l) _ _ rfl

/-- numpy's order depends on the length only -/
theorem sameOrder_npSum : SameOrder (npSum : List F → F) := by
  refine sameOrder_of _ _ (@added_npSum _ pairNum) (fun l => ?_) fun l => ?_
  · exact @npSum_rel _ _ pairNum _ (fun p a => p.1 = a) rfl (by rintro _ _ _ _ rfl rfl; rfl) _ _
      (forall₂_map_fst l)
  · exact @npSum_rel _ _ pairNum _ (fun p a => p.2 = a) rfl (by rintro _ _ _ _ rfl rfl; rfl) _ _
      (forall₂_map_snd l)

end

namespace Flt
variable {fmt : Fmt}

/-! ## Bounds that are not powers of two -/

/-- `b` is `2^k` times `a`, both are multiples of `2^e` and at most `B` -/
def PairQ (k e : ℤ) (B : ℚ) (a b : Flt fmt) : Prop :=
  ∃ s m m', a = fin s m ∧ b = fin s m' ∧ m'.val = 2 ^ k * m.val ∧ (∃ n : ℤ, m.val = n * 2 ^ e) ∧
    (∃ n : ℤ, m'.val = n * 2 ^ e) ∧ m.val ≤ B ∧ m'.val ≤ B

theorem PairQ.pair {k e h : ℤ} {B : ℚ} {a b : Flt fmt} (p : PairQ k e B a b) (hB : B ≤ 2 ^ h) :
    Pair k e h a b := by
  obtain ⟨s, m, m', rfl, rfl, hm, g, g', l, l'⟩ := p
  exact ⟨⟨rfl, hm⟩, ⟨_, _, rfl, g, l.trans hB⟩, ⟨_, _, rfl, g', l'.trans hB⟩⟩

theorem PairQ.add {k e : ℤ} {A B : ℚ} {a a' b b' : Flt fmt} (p : PairQ k e A a a')
    (q : PairQ k e B b b') (he : fmt.nrm ≤ e) (hr : fmt.roundPos (A + B) ≤ A + B)
    (hM : A + B ≤ fmt.maxFin) : PairQ k e (A + B) (a +. b) (a' +. b') := by
  obtain ⟨s, m, m', rfl, rfl, hm, ⟨x, hx⟩, ⟨x', hx'⟩, l, l'⟩ := p
  obtain ⟨t, n, n', rfl, rfl, hn, ⟨y, hy⟩, ⟨y', hy'⟩, r, r'⟩ := q
  show PairQ _ _ _ (Flt.add (fin s m) (fin t n)) (Flt.add (fin s m') (fin t n'))
  rw [add_fin, add_fin]
  have hk : (0 : ℚ) < 2 ^ k := zpow_pos (by norm_num) _
  have key : sval s m' + sval t n' = 2 ^ k * (sval s m + sval t n) := by
    rw [sval_scaled hm, sval_scaled hn]
    ring
  have b2 : ∀ u w : fmt.Mag, u.val ≤ A → w.val ≤ B → fmt.roundPos |sval s u + sval t w| ≤ A + B := by
    intro u w hu hw
    refine (fmt.roundPos_mono (_root_.abs_nonneg _) ?_).trans hr
    refine (abs_add_le _ _).trans ?_
    rw [abs_sval, abs_sval]
    linarith
  have grid : ∀ (u w : fmt.Mag) (f g : ℤ), u.val = f * 2 ^ e → w.val = g * 2 ^ e →
      ∃ i : ℤ, sval s u + sval t w = i * 2 ^ e := by
    intro u w f g hu hw
    obtain ⟨f', hf⟩ := sval_multiple (s := s) hu
    obtain ⟨g', hg⟩ := sval_multiple (s := t) hw
    exact ⟨f' + g', by rw [hf, hg]; push_cast; ring⟩
  obtain ⟨i, hi⟩ := grid m n x y hx hy
  obtain ⟨i', hi'⟩ := grid m' n' x' y' hx' hy'
  have B1 := b2 m n l r
  have B2 := b2 m' n' l' r'
  rw [key] at hi' B2 ⊢
  have hpow : (2 : ℚ) ^ fmt.nrm ≤ 2 ^ e := zpow_le_zpow_right₀ (by norm_num) he
  have hs : Scaled k (ofExact (s && t) (sval s m + sval t n) : Flt fmt)
      (ofExact (s && t) (2 ^ k * (sval s m + sval t n))) := by
    refine scaled_ofExact (B1.trans hM) (B2.trans hM) ?_
    by_cases h0 : sval s m + sval t n = 0
    · exact Or.inl h0
    · exact Or.inr ⟨hpow.trans (big_of_multiple hi h0),
        hpow.trans (big_of_multiple hi' (mul_ne_zero hk.ne' h0))⟩
  have abs_mul' : ∀ {v : ℚ} {j : ℤ}, v = j * 2 ^ e → |v| = (|j| : ℤ) * 2 ^ e := by
    rintro v j rfl
    rw [abs_mul, abs_of_pos (zpow_pos (by norm_num : (0 : ℚ) < 2) e)]
    push_cast
    rfl
  unfold ofExact at hs ⊢
  dsimp only at hs ⊢
  rw [dif_pos (B1.trans hM), dif_pos (B2.trans hM)] at hs ⊢
  obtain ⟨h1, h2⟩ := hs
  rw [← h1]
  exact ⟨_, _, _, rfl, rfl, h2, fmt.roundPos_multiple (abs_mul' hi), fmt.roundPos_multiple (abs_mul' hi'),
    B1, B2⟩

/-! ## Sums -/

/-- `b` is `2^k` times `a` and both are on the grid, or both are the same infinity or NaN -/
def Sums (k e : ℤ) (B : ℚ) (a b : Flt fmt) : Prop :=
  PairQ k e B a b ∨ (a = b ∧ Num.isFinite a = false)

theorem Sums.scaled {k e : ℤ} {B : ℚ} {a b : Flt fmt} (h : Sums k e B a b) : Scaled k a b := by
  rcases h with ⟨s, m, m', rfl, rfl, hm, _⟩ | ⟨rfl, h⟩
  · exact ⟨rfl, hm⟩
  · cases a with
    | fin s m => cases h
    | inf s => rfl
    | nan => trivial

theorem Sums.add {k e : ℤ} {A B : ℚ} {a a' b b' : Flt fmt} (p : Sums k e A a a')
    (q : Sums k e B b b') (he : fmt.nrm ≤ e) (hr : fmt.roundPos (A + B) ≤ A + B)
    (hM : A + B ≤ fmt.maxFin) : Sums k e (A + B) (a +. b) (a' +. b') := by
  rcases p with p | ⟨rfl, ha⟩ <;> rcases q with q | ⟨rfl, hb⟩
  · exact Or.inl (p.add q he hr hM)
  · right
    obtain ⟨s, m, m', rfl, rfl, _⟩ := p
    cases b with
    | fin t n => cases hb
    | inf t => exact ⟨rfl, by cases t <;> rfl⟩
    | nan => exact ⟨rfl, rfl⟩
  · right
    obtain ⟨s, m, m', rfl, rfl, _⟩ := q
    cases a with
    | fin t n => cases ha
    | inf t => exact ⟨rfl, by cases t <;> rfl⟩
    | nan => exact ⟨rfl, rfl⟩
  · refine Or.inr ⟨rfl, ?_⟩
    cases a with
    | fin t n => cases ha
    | nan => rfl
    | inf t =>
      cases b with
      | fin t n => cases hb
      | nan => rfl
      | inf u => cases t <;> cases u <;> rfl

/-- a small multiple of a power of two is not rounded -/
theorem roundPos_small {c : ℕ} {h : ℤ} (hc : c ≤ 2 ^ fmt.prec - 1) (hh : fmt.emin ≤ h) :
    fmt.roundPos (c * 2 ^ h) = c * 2 ^ h := by
  rcases Nat.eq_zero_or_pos c with rfl | h0
  · simp [Fmt.roundPos_zero]
  have hp : (0 : ℚ) < 2 ^ h := zpow_pos (by norm_num) _
  have hx : (0 : ℚ) < c * 2 ^ h := mul_pos (by exact_mod_cast h0) hp
  have hl : Int.log 2 ((c : ℚ) * 2 ^ h) < h + fmt.prec := by
    rw [← Int.lt_zpow_iff_log_lt (b := 2) (by norm_num) hx]
    push_cast
    rw [zpow_add₀ (by norm_num), mul_comm, zpow_natCast]
    refine mul_lt_mul_of_pos_left ?_ hp
    have : c < 2 ^ fmt.prec := by
      have : 0 < 2 ^ fmt.prec := Nat.two_pow_pos _
      omega
    exact_mod_cast this
  have hu : fmt.uexp ((c : ℚ) * 2 ^ h) ≤ h := by
    unfold Fmt.uexp
    omega
  apply fmt.roundPos_of_multiple (n := c * 2 ^ (h - fmt.uexp ((c : ℚ) * 2 ^ h)).toNat)
  rw [Fmt.ulp_eq]
  push_cast
  rw [← zpow_natCast, Int.toNat_of_nonneg (by omega), mul_assoc, ← zpow_add₀ (by norm_num)]
  congr 2
  ring

theorem zero_pairQ (k e : ℤ) {B : ℚ} (hB : 0 ≤ B) :
    PairQ k e B (Num.ofRat 0 : Flt fmt) (Num.ofRat 0) := by
  have : ∃ m : fmt.Mag, m.val = 0 ∧ (Num.ofRat 0 : Flt fmt) = fin false m := by
    refine ⟨⟨0, le_rfl, fmt.roundPos_zero, fmt.maxFin_nonneg⟩, rfl, ?_⟩
    show ofExact false 0 = _
    simp [ofExact, Fmt.roundPos_zero, fmt.maxFin_nonneg]
  obtain ⟨m, h0, e0⟩ := this
  refine ⟨false, m, m, e0, e0, by rw [h0, mul_zero], ⟨0, by simp [h0]⟩, ⟨0, by simp [h0]⟩, ?_, ?_⟩ <;>
    rw [h0] <;> exact hB

/-- partial sums of `n` numbers up to `2^h` are at most `n 2^h` -/
theorem added2_rel {R : ℚ → Flt fmt → Flt fmt → Prop} (h0 : R 0 (Num.ofRat 0) (Num.ofRat 0))
    (hadd : ∀ {A B : ℚ} {a a' b b' : Flt fmt}, R A a a' → R B b b' → fmt.roundPos (A + B) ≤ A + B →
      A + B ≤ fmt.maxFin → R (A + B) (a +. b) (a' +. b')) {h : ℤ} {l : List (Flt fmt × Flt fmt)}
    {s t : Flt fmt} (ha : Added2 l s t) (hl : ∀ p ∈ l, R (2 ^ h) p.1 p.2) (hh : fmt.emin ≤ h)
    (hn : l.length ≤ 2 ^ fmt.prec - 1) (hM : (l.length : ℚ) * 2 ^ h ≤ fmt.maxFin) :
    R (l.length * 2 ^ h) s t := by
  have hp : (0 : ℚ) < 2 ^ h := zpow_pos (by norm_num) _
  induction ha with
  | nil => simpa using h0
  | one a b => simpa using hl (a, b) (by simp)
  | zero _ ih =>
    have := hadd h0 (ih hl hn hM) (by rw [zero_add, roundPos_small hn hh]) (by rwa [zero_add])
    rwa [zero_add] at this
  | add hperm _ _ _ _ ih1 ih2 =>
    rename_i l l1 l2 _ _ _ _ _ _ _ _
    have hlen : l.length = l1.length + l2.length := by rw [hperm.length_eq, List.length_append]
    have hq : (l.length : ℚ) * 2 ^ h = l1.length * 2 ^ h + l2.length * 2 ^ h := by
      rw [hlen]; push_cast; ring
    have n1 : (0 : ℚ) ≤ l1.length * 2 ^ h := mul_nonneg (Nat.cast_nonneg _) hp.le
    have n2 : (0 : ℚ) ≤ l2.length * 2 ^ h := mul_nonneg (Nat.cast_nonneg _) hp.le
    have := hadd (ih1 (fun p h => hl p (by simp [hperm.mem_iff, h])) (by omega) (by linarith))
      (ih2 (fun p h => hl p (by simp [hperm.mem_iff, h])) (by omega) (by linarith))
      (by rw [← hq, roundPos_small hn hh]) (by rwa [← hq])
    rwa [← hq] at this

theorem added2_sums {k e h : ℤ} {l : List (Flt fmt × Flt fmt)} {s t : Flt fmt} (ha : Added2 l s t)
    (hl : ∀ p ∈ l, Sums k e (2 ^ h) p.1 p.2) (he : fmt.nrm ≤ e) (hh : fmt.emin ≤ h)
    (hn : l.length ≤ 2 ^ fmt.prec - 1) (hM : (l.length : ℚ) * 2 ^ h ≤ fmt.maxFin) :
    Sums k e (l.length * 2 ^ h) s t :=
  added2_rel (R := Sums k e) (Or.inl (zero_pairQ k e le_rfl)) (fun p q => p.add q he) ha hl hh hn hM

theorem added2_pairs {k e h : ℤ} {l : List (Flt fmt × Flt fmt)} {s t : Flt fmt} (ha : Added2 l s t)
    (hl : ∀ p ∈ l, Pair k e h p.1 p.2) (he : fmt.nrm ≤ e) (hh : fmt.emin ≤ h)
    (hn : l.length ≤ 2 ^ fmt.prec - 1) (hM : (l.length : ℚ) * 2 ^ h ≤ fmt.maxFin) :
    PairQ k e (l.length * 2 ^ h) s t :=
  added2_rel (R := PairQ k e) (zero_pairQ k e le_rfl) (fun p q => p.add q he) ha
    (fun p hp => (hl p hp).dest) hh hn hM

/-! ## More rules -/

theorem Scaled.mul_eq {k : ℤ} {a b : Flt fmt} (h : Scaled k a b) (h1 : fmt.nrm ≤ k)
    (h2 : k ≤ fmt.emax) : (Num.ofRat (2 ^ k) : Flt fmt) *. a = b := by
  cases a with
  | fin s m =>
    cases b with
    | fin t n =>
      obtain ⟨rfl, h⟩ := h
      rw [mul_pow h1 h2, ← sval_scaled h, ofExact_sval]
    | inf t => exact h.elim
    | nan => exact h.elim
  | inf s =>
    cases b with
    | fin t n => exact h.elim
    | nan => exact h.elim
    | inf t =>
      obtain rfl : s = t := h
      obtain ⟨u, hu, he⟩ := ofRat_pow (fmt := fmt) h1 h2
      have hu0 : u.val ≠ 0 := by rw [hu]; exact (zpow_pos (by norm_num) _).ne'
      rw [he]
      show Flt.mul (fin false u) (inf s) = _
      simp [Flt.mul, hu0]
  | nan =>
    cases b with
    | fin t n => exact h.elim
    | inf t => exact h.elim
    | nan =>
      obtain ⟨u, hu, he⟩ := ofRat_pow (fmt := fmt) h1 h2
      rw [he]
      rfl

theorem Scaled.of_not_finite {k : ℤ} {a : Flt fmt} (h : Num.isFinite a = false) : Scaled k a a := by
  cases a with
  | fin s m => cases h
  | inf s => rfl
  | nan => trivial

/-- a multiple of `2^e` up to `2^h`, both before and after the multiplication by `2^k` -/
def OnGrid (k e h : ℤ) (a : Flt fmt) : Prop :=
  ∃ s m, a = fin s m ∧ (∃ n : ℤ, m.val = n * 2 ^ e) ∧ (∃ n : ℤ, 2 ^ k * m.val = n * 2 ^ e) ∧
    m.val ≤ 2 ^ h ∧ 2 ^ k * m.val ≤ 2 ^ h

theorem OnGrid.pair {k e h : ℤ} {a : Flt fmt} (g : OnGrid k e h a) (h1 : fmt.nrm ≤ k)
    (h2 : k ≤ fmt.emax) (h3 : fmt.nrm ≤ e) (h4 : fmt.nrm ≤ h) (h5 : h ≤ fmt.emax) :
    Pair k e h a (Num.ofRat (2 ^ k) *. a) := by
  obtain ⟨s, m, rfl, ⟨n, hn⟩, ⟨n', hn'⟩, l, l'⟩ := g
  have hk : (0 : ℚ) < 2 ^ k := zpow_pos (by norm_num) _
  rw [mul_pow h1 h2]
  obtain ⟨j, hj⟩ := sval_multiple (s := s) hn
  obtain ⟨j', hj'⟩ : ∃ j : ℤ, 2 ^ k * sval s m = j * 2 ^ e := by
    cases s
    · exact ⟨n', hn'⟩
    · exact ⟨-n', by simp only [sval, if_true]; push_cast; linarith⟩
  have := pair_ofExact (fmt := fmt) (z := s) hj hj' (h := h) (by rwa [abs_sval])
    (by rwa [abs_mul, abs_sval, abs_of_pos hk]) h3 h4 h5
  rwa [ofExact_sval] at this

theorem InRange.onGrid {k p : ℤ} {a : Flt fmt} (h : InRange k p a) :
    OnGrid k (-p - (fmt.prec - 1 : Int)) p a := by
  obtain ⟨s, m, rfl, h⟩ := h
  have hpp : (0 : ℚ) < 2 ^ p := zpow_pos (by norm_num) _
  refine ⟨s, m, rfl, ?_⟩
  rcases h with h | ⟨a1, a2, a3, a4⟩
  · rw [h, mul_zero]
    exact ⟨⟨0, by simp⟩, ⟨0, by simp⟩, hpp.le, hpp.le⟩
  · have hm : m.val ≠ 0 := by
      have : (0 : ℚ) < 2 ^ (-p) := zpow_pos (by norm_num) _
      intro h; rw [h] at a1; linarith
    refine ⟨?_, mag_multiple hm a3, a2, a4⟩
    have := mag_multiple (k := 0) (q := -p) hm (by simpa using a1)
    simpa using this

/-- the rounded value of a number that is not too small is a multiple of a power of two -/
theorem roundPos_multiple_of_size {x : ℚ} {q : ℤ} (h : x = 0 ∨ 2 ^ q ≤ x) :
    ∃ n : ℤ, fmt.roundPos x = n * 2 ^ (q - (fmt.prec - 1 : Int)) := by
  rcases h with rfl | h
  · exact ⟨0, by simp [Fmt.roundPos_zero]⟩
  · have hl := Fmt.log_of_pow_le h
    refine multiple_weaken (n := Ext.roundHalfEven (x / fmt.ulp x)) (e := fmt.uexp x) rfl ?_
    unfold Fmt.uexp
    omega

theorem grid_of_size {z : Bool} {x : ℚ} {q h : ℤ} (hs : x = 0 ∨ 2 ^ q ≤ |x|) (hx : |x| ≤ 2 ^ h)
    (h1 : fmt.nrm ≤ h) (h2 : h ≤ fmt.emax) :
    Grid (q - (fmt.prec - 1 : Int)) h (ofExact z x : Flt fmt) := by
  have hr : fmt.roundPos |x| ≤ 2 ^ h := fmt.roundPos_le_two (_root_.abs_nonneg _) hx h1
  have hM : fmt.roundPos |x| ≤ fmt.maxFin := hr.trans (fmt.pow_le_maxFin h2)
  unfold ofExact
  dsimp only
  rw [dif_pos hM]
  exact ⟨_, _, rfl, roundPos_multiple_of_size (hs.imp_left fun h => by rw [h, abs_zero]), hr⟩

theorem pair_of_size {z : Bool} {x : ℚ} {k q h : ℤ} (hs : x = 0 ∨ 2 ^ q ≤ |x| ∧ 2 ^ q ≤ |2 ^ k * x|)
    (hx : |x| ≤ 2 ^ h) (hx' : |2 ^ k * x| ≤ 2 ^ h) (hq : fmt.nrm ≤ q) (h1 : fmt.nrm ≤ h)
    (h2 : h ≤ fmt.emax) :
    Pair k (q - (fmt.prec - 1 : Int)) h (ofExact z x : Flt fmt) (ofExact z (2 ^ k * x)) := by
  have hpow : (2 : ℚ) ^ fmt.nrm ≤ 2 ^ q := zpow_le_zpow_right₀ (by norm_num) hq
  refine ⟨scaled_ofExact ((fmt.roundPos_le_two (_root_.abs_nonneg _) hx h1).trans (fmt.pow_le_maxFin h2))
    ((fmt.roundPos_le_two (_root_.abs_nonneg _) hx' h1).trans (fmt.pow_le_maxFin h2))
    (hs.imp_right fun h => ⟨hpow.trans h.1, hpow.trans h.2⟩),
    grid_of_size (hs.imp_right And.left) hx h1 h2,
    grid_of_size (hs.imp (fun h => by rw [h, mul_zero]) And.right) hx' h1 h2⟩

theorem size_of_multiple {s : Bool} {m : fmt.Mag} {e n : ℤ} (h : m.val = n * 2 ^ e) (h0 : m.val ≠ 0) :
    2 ^ e ≤ |sval s m| := by
  rw [abs_sval, ← abs_of_nonneg m.nonneg]
  exact big_of_multiple h h0

theorem sized_of_multiple {m : fmt.Mag} {e : ℤ} (h : ∃ n : ℤ, m.val = n * 2 ^ e) :
    m.val = 0 ∨ 2 ^ e ≤ m.val := by
  obtain ⟨n, hn⟩ := h
  by_cases h0 : m.val = 0
  · exact Or.inl h0
  · right
    have := size_of_multiple (s := false) hn h0
    rwa [abs_sval] at this

theorem quotient_size {s t : Bool} {m u : fmt.Mag} {e h e' h' : ℤ} (g : m.val = 0 ∨ 2 ^ e ≤ m.val)
    (l : m.val ≤ 2 ^ h) (g' : ∃ n : ℤ, u.val = n * 2 ^ e') (l' : u.val ≤ 2 ^ h') (hu : u.val ≠ 0) :
    (sval s m / sval t u = 0 ∨ 2 ^ (e - h') ≤ |sval s m / sval t u|) ∧
      |sval s m / sval t u| ≤ 2 ^ (h - e') := by
  obtain ⟨n', hn'⟩ := g'
  have b' := size_of_multiple (s := t) hn' hu
  have l2 : |sval t u| ≤ 2 ^ h' := by rwa [abs_sval]
  have l1 : |sval s m| ≤ 2 ^ h := by rwa [abs_sval]
  have he' : (0 : ℚ) < 2 ^ e' := zpow_pos (by norm_num) _
  have hh' : (0 : ℚ) < 2 ^ h' := zpow_pos (by norm_num) _
  have pos : 0 < |sval t u| := lt_of_lt_of_le he' b'
  rw [abs_div]
  constructor
  · rcases g with h0 | b
    · left
      have : sval s m = 0 := by cases s <;> simp [sval, h0]
      rw [this, zero_div]
    · right
      rw [← abs_sval s] at b
      rw [zpow_sub₀ (by norm_num), le_div_iff₀ pos]
      calc (2 : ℚ) ^ e / 2 ^ h' * |sval t u| ≤ 2 ^ e / 2 ^ h' * 2 ^ h' :=
          mul_le_mul_of_nonneg_left l2 (div_pos (zpow_pos (by norm_num) _) hh').le
        _ = 2 ^ e := by field_simp
        _ ≤ _ := b
  · rw [zpow_sub₀ (by norm_num), div_le_iff₀ pos]
    calc |sval s m| ≤ 2 ^ h := l1
      _ = 2 ^ h / 2 ^ e' * 2 ^ e' := by field_simp
      _ ≤ 2 ^ h / 2 ^ e' * |sval t u| :=
          mul_le_mul_of_nonneg_left b' (div_pos (zpow_pos (by norm_num) _) he').le

/-- a quotient is on a grid, or the divisor is zero -/
theorem grid_div {e h e' h' : ℤ} {a b : Flt fmt} (g : Grid e h a) (g' : Grid e' h' b)
    (h1 : fmt.nrm ≤ h - e') (h2 : h - e' ≤ fmt.emax) :
    Grid (e - h' - (fmt.prec - 1 : Int)) (h - e') (a /. b) ∨ Num.isFinite (a /. b) = false := by
  obtain ⟨s, m, rfl, gm, lm⟩ := g
  obtain ⟨t, u, rfl, gu, lu⟩ := g'
  show Grid _ _ (Flt.div (fin s m) (fin t u)) ∨ Num.isFinite (Flt.div (fin s m) (fin t u)) = false
  rw [div_fin]
  by_cases hu : u.val = 0
  · right
    rw [if_pos hu]
    split
    · rfl
    · cases (s != t) <;> rfl
  · left
    rw [if_neg hu]
    obtain ⟨q1, q2⟩ := quotient_size (s := s) (t := t) (sized_of_multiple gm) lm gu lu hu
    exact grid_of_size q1 q2 h1 h2

/-- zero, or at least `2^c` -/
def Sized (c : ℤ) : Flt fmt → Prop
  | fin _ m => m.val = 0 ∨ 2 ^ c ≤ m.val
  | _ => True

theorem Grid.sized {e h : ℤ} {a : Flt fmt} (g : Grid e h a) : Sized e a := by
  obtain ⟨s, m, rfl, g, -⟩ := g
  exact sized_of_multiple g

/-- a quotient of two numbers in other units -/
theorem Pair.div_sized {j k e h e' h' c : ℤ} {a a' b b' : Flt fmt} (p : Pair j e h a a')
    (ha : Sized c a) (ha' : Sized c a') (q : Pair k e' h' b b') (hq : fmt.nrm ≤ c - h') (h1 : fmt.nrm ≤ h - e') (h2 : h - e' ≤ fmt.emax) :
    Pair (j - k) (c - h' - (fmt.prec - 1 : Int)) (h - e') (a /. b) (a' /. b') ∨
      (a /. b = a' /. b' ∧ Num.isFinite (a /. b) = false) := by
  obtain ⟨s, m, m', rfl, rfl, hm, x, x', l, l'⟩ := p.dest
  obtain ⟨t, u, u', rfl, rfl, hu, y, y', r, r'⟩ := q.dest
  have hj : (2 : ℚ) ^ j ≠ 0 := (zpow_pos (by norm_num) _).ne'
  have hk : (2 : ℚ) ^ k ≠ 0 := (zpow_pos (by norm_num) _).ne'
  show Pair _ _ _ (Flt.div (fin s m) (fin t u)) (Flt.div (fin s m') (fin t u')) ∨
    (Flt.div (fin s m) (fin t u) = Flt.div (fin s m') (fin t u') ∧
      Num.isFinite (Flt.div (fin s m) (fin t u)) = false)
  rw [div_fin, div_fin]
  have e1 : m'.val = 0 ↔ m.val = 0 := by rw [hm]; simp [hj]
  have e2 : u'.val = 0 ↔ u.val = 0 := by rw [hu]; simp [hk]
  simp only [e1, e2]
  by_cases h0 : u.val = 0
  · right
    simp only [if_pos h0, true_and]
    split
    · rfl
    · cases (s != t) <;> rfl
  · left
    rw [if_neg h0, if_neg h0]
    obtain ⟨q1, q2⟩ := quotient_size (s := s) (t := t) ha l y r h0
    obtain ⟨q3, q4⟩ := quotient_size (s := s) (t := t) ha' l' y' r' (mt e2.1 h0)
    have key : sval s m' / sval t u' = 2 ^ (j - k) * (sval s m / sval t u) := by
      rw [sval_scaled hm, sval_scaled hu, zpow_sub₀ (by norm_num)]
      field_simp
    rw [key] at q3 q4 ⊢
    refine pair_of_size ?_ q2 q4 hq h1 h2
    rcases q1 with q1 | q1
    · exact Or.inl q1
    · rcases q3 with q3 | q3
      · left
        rcases mul_eq_zero.1 q3 with q3 | q3
        · exact absurd q3 (zpow_pos (by norm_num) _).ne'
        · exact q3
      · exact Or.inr ⟨q1, q3⟩

theorem Pair.div {j k e h e' h' : ℤ} {a a' b b' : Flt fmt} (p : Pair j e h a a')
    (q : Pair k e' h' b b') (hq : fmt.nrm ≤ e - h') (h1 : fmt.nrm ≤ h - e') (h2 : h - e' ≤ fmt.emax) :
    Pair (j - k) (e - h' - (fmt.prec - 1 : Int)) (h - e') (a /. b) (a' /. b') ∨
      (a /. b = a' /. b' ∧ Num.isFinite (a /. b) = false) :=
  p.div_sized p.left.sized p.right.sized q hq h1 h2

theorem Pair.sqrt_plus {k e h : ℤ} {a a' : Flt fmt} (p : Pair (2 * k) e h a a') (hp : Plus a)
    (h1 : fmt.nrm ≤ e / 2) (h2 : fmt.nrm ≤ h / 2 + 1) (h3 : h / 2 + 1 ≤ fmt.emax) :
    Pair k (e / 2 - (fmt.prec - 1 : Int)) (h / 2 + 1) (Num.sqrt a) (Num.sqrt a') := by
  obtain ⟨t, m, m', rfl, rfl, -⟩ := p.dest
  have ht : t = false := by
    rcases hp with h | h | ⟨n, h⟩
    · cases h
    · cases h
    · cases h; rfl
  subst ht
  exact p.sqrt h1 h2 h3

theorem Pair.sq {k e h : ℤ} {a a' : Flt fmt} (p : Pair k e h a a') (h1 : fmt.nrm ≤ 2 * e)
    (h2 : fmt.nrm ≤ 2 * h) (h3 : 2 * h ≤ fmt.emax) : Pair (2 * k) (2 * e) (2 * h) (Num.sq a) (Num.sq a') := by
  have := p.mul p (by omega) (by omega) (by omega)
  rwa [← two_mul, ← two_mul, ← two_mul] at this

/-- the length of a plane vector -/
theorem Pair.root2 {k e h : ℤ} {a a' b b' : Flt fmt} (p : Pair k e h a a') (q : Pair k e h b b')
    (h1 : fmt.nrm ≤ 2 * e) (h2 : fmt.nrm ≤ 2 * h) (h3 : 2 * h + 1 ≤ fmt.emax) (h4 : fmt.nrm ≤ e)
    (h5 : fmt.nrm ≤ h) (h6 : h + 1 ≤ fmt.emax) :
    Pair k (e - (fmt.prec - 1 : Int)) (h + 1) (Num.sqrt (Num.sq a +. Num.sq b))
      (Num.sqrt (Num.sq a' +. Num.sq b')) := by
  have s := (p.sq h1 h2 (by omega)).add (q.sq h1 h2 (by omega)) h1 (by omega) h3
  have := s.sqrt_plus ((plus_sq a).add (plus_sq b)) (by omega) (by omega) (by omega)
  rwa [show 2 * e / 2 = e by omega, show (2 * h + 1) / 2 + 1 = h + 1 by omega] at this

/-- the length of a vector -/
theorem Pair.root3 {k e h : ℤ} {a a' b b' c c' : Flt fmt} (p : Pair k e h a a') (q : Pair k e h b b')
    (r : Pair k e h c c') (h1 : fmt.nrm ≤ 2 * e) (h2 : fmt.nrm ≤ 2 * h) (h3 : 2 * h + 2 ≤ fmt.emax)
    (h4 : fmt.nrm ≤ e) (h5 : fmt.nrm ≤ h) (h6 : h + 2 ≤ fmt.emax) :
    Pair k (e - (fmt.prec - 1 : Int)) (h + 2) (Num.sqrt ((Num.sq a +. Num.sq b) +. Num.sq c))
      (Num.sqrt ((Num.sq a' +. Num.sq b') +. Num.sq c')) := by
  have s := ((p.sq h1 h2 (by omega)).add (q.sq h1 h2 (by omega)) h1 (by omega) (by omega)).add
    ((r.sq h1 h2 (by omega)).weaken le_rfl (by omega)) h1 (by omega) (by omega)
  have := s.sqrt_plus (((plus_sq a).add (plus_sq b)).add (plus_sq c)) (by omega) (by omega) (by omega)
  rwa [show 2 * e / 2 = e by omega, show (2 * h + 1 + 1) / 2 + 1 = h + 2 by omega] at this

/-- a factor without units times a number with units -/
theorem sums_const_mul {k e h e' h' : ℤ} {c a a' : Flt fmt} (hc : Grid e' h' c ∨ Num.isFinite c = false)
    (p : Pair k e h a a') (h1 : fmt.nrm ≤ e' + e) (h2 : fmt.nrm ≤ h' + h) (h3 : h' + h ≤ fmt.emax) :
    Sums k (e' + e) (2 ^ (h' + h)) (c *. a) (c *. a') := by
  rcases hc with hc | hc
  · have hc0 : Pair 0 e' h' c c := by
      refine ⟨?_, hc, hc⟩
      obtain ⟨s, m, rfl, -⟩ := hc
      exact ⟨rfl, by simp⟩
    have := hc0.mul p h1 h2 h3
    rw [zero_add] at this
    exact Or.inl this.dest
  · right
    obtain ⟨s, m, m', rfl, rfl, hm, -⟩ := p.dest
    have e1 : m'.val = 0 ↔ m.val = 0 := by
      rw [hm]; simp [(zpow_pos (by norm_num : (0 : ℚ) < 2) k).ne']
    cases c with
    | fin t n => cases hc
    | nan => exact ⟨rfl, rfl⟩
    | inf t =>
      show Flt.mul (inf t) (fin s m) = Flt.mul (inf t) (fin s m') ∧
        Num.isFinite (Flt.mul (inf t) (fin s m)) = false
      simp only [Flt.mul, e1, true_and]
      split
      · rfl
      · cases (t != s) <;> rfl

end Flt
end GChop
