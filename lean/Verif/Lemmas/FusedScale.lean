import Verif.Spec.SameDot
import Verif.Lemmas.Fused
import Verif.Lemmas.SumScale

/-!
# Dot products and powers of two
-/

namespace GChop
open Flt
variable {fmt : Fmt}

/-! ## Ways to compute a dot product that depend on the length only -/

theorem Fused2.left {l : List ((Flt fmt × Flt fmt) × (Flt fmt × Flt fmt))} {s t : Flt fmt}
    (h : Fused2 l s t) : Fused (l.map (·.1)) s := by
  induction h with
  | nil => exact .nil
  | mul a b c d => exact .mul a b
  | zero _ ih => exact .zero ih
  | add hp n1 n2 _ _ ih1 ih2 =>
    refine .add ((hp.map _).trans (by rw [List.map_append])) ?_ ?_ ih1 ih2
    · simpa using n1
    · simpa using n2
  | fma hp _ ih => exact .fma ((hp.map _).trans (by rw [List.map_cons])) ih

theorem SameDot.fused {dt : List (Flt fmt × Flt fmt) → Flt fmt} (h : SameDot dt)
    (l : List (Flt fmt × Flt fmt)) : Fused l (dt l) := by
  have := (h (l.map fun p => (p, p))).left
  simpa [Function.comp_def] using this

theorem Added2.fused2 {l : List (Flt fmt × Flt fmt)} {s t : Flt fmt} (h : Added2 l s t) :
    ∀ ps : List ((Flt fmt × Flt fmt) × (Flt fmt × Flt fmt)),
      ps.map (fun p => (p.1.1 *. p.1.2, p.2.1 *. p.2.2)) = l → Fused2 ps s t := by
  induction h with
  | nil =>
    intro ps h
    rw [List.map_eq_nil_iff] at h
    subst h
    exact .nil
  | one a b =>
    intro ps h
    obtain ⟨⟨⟨x, y⟩, ⟨z, w⟩⟩, rfl, h⟩ := List.map_eq_singleton_iff.1 h
    cases h
    exact .mul ..
  | zero _ ih => exact fun ps h => .zero (ih ps h)
  | add hp n1 n2 _ _ ih1 ih2 =>
    intro ps h
    obtain ⟨qs, p1, p2⟩ := perm_of_map _ hp ps h
    obtain ⟨j1, j2, rfl, e1, e2⟩ := List.map_eq_append_iff.1 p2
    refine .add p1 ?_ ?_ (ih1 j1 e1) (ih2 j2 e2)
    · rintro rfl
      exact n1 e1.symm
    · rintro rfl
      exact n2 e2.symm

/-- products that are rounded before they are added in an order that depends on their number only -/
theorem sameDot_of_sameOrder {sm : List (Flt fmt) → Flt fmt} (h : SameOrder sm) :
    SameDot fun l => sm (l.map fun p => p.1 *. p.2) := by
  intro l
  have := h (l.map fun p => (p.1.1 *. p.1.2, p.2.1 *. p.2.2))
  have := this.fused2 l rfl
  simpa only [List.map_map, Function.comp_def] using this

/-- the dot product of the model -/
theorem sameDot_dot : SameDot (Num.dot : List (Flt fmt × Flt fmt) → Flt fmt) :=
  sameDot_of_sameOrder sameOrder_leftFold

/-- a chain of fused multiply-adds -/
theorem sameDot_fmaChain : SameDot (fmaChain : List (Flt fmt × Flt fmt) → Flt fmt) := by
  have : ∀ (l l0 : List ((Flt fmt × Flt fmt) × (Flt fmt × Flt fmt))) (s t : Flt fmt), Fused2 l0 s t →
      Fused2 (l0 ++ l) ((l.map (·.1)).foldl (fun s p => Flt.fma p.1 p.2 s) s)
        ((l.map (·.2)).foldl (fun s p => Flt.fma p.1 p.2 s) t) := by
    intro l
    induction l with
    | nil => intro l0 s t h; simpa using h
    | cons p l ih =>
      intro l0 s t h
      have h1 : Fused2 (l0 ++ [p]) (Flt.fma p.1.1 p.1.2 s) (Flt.fma p.2.1 p.2.2 t) :=
        .fma (List.perm_append_singleton ..) h
      have := ih _ _ _ h1
      simpa using this
  intro l
  simpa [fmaChain] using this l [] _ _ .nil

namespace Flt

/-! ## One step -/

/-- an exact value in both units, rounded -/
theorem pairQ_ofExact {z : Bool} {x : ℚ} {k e n n' : ℤ} {B : ℚ} (hn : x = n * 2 ^ e)
    (hn' : 2 ^ k * x = n' * 2 ^ e) (hx : |x| ≤ B) (hx' : |2 ^ k * x| ≤ B) (he : fmt.nrm ≤ e)
    (hr : fmt.roundPos B ≤ B) (hM : B ≤ fmt.maxFin) :
    PairQ k e B (ofExact z x : Flt fmt) (ofExact z (2 ^ k * x)) := by
  have hk : (0 : ℚ) < 2 ^ k := zpow_pos (by norm_num) _
  have B1 : fmt.roundPos |x| ≤ B := (fmt.roundPos_mono (_root_.abs_nonneg _) hx).trans hr
  have B2 : fmt.roundPos |2 ^ k * x| ≤ B := (fmt.roundPos_mono (_root_.abs_nonneg _) hx').trans hr
  have hpow : (2 : ℚ) ^ fmt.nrm ≤ 2 ^ e := zpow_le_zpow_right₀ (by norm_num) he
  have hs : Scaled k (ofExact z x : Flt fmt) (ofExact z (2 ^ k * x)) := by
    refine scaled_ofExact (B1.trans hM) (B2.trans hM) ?_
    by_cases h0 : x = 0
    · exact Or.inl h0
    · exact Or.inr ⟨hpow.trans (big_of_multiple hn h0),
        hpow.trans (big_of_multiple hn' (mul_ne_zero hk.ne' h0))⟩
  have abs_mul' : ∀ {v : ℚ} {j : ℤ}, v = j * 2 ^ e → |v| = (|j| : ℤ) * 2 ^ e := by
    rintro v j rfl
    rw [abs_mul, abs_of_pos (zpow_pos (by norm_num : (0 : ℚ) < 2) e)]
    push_cast
    rfl
  unfold ofExact at hs ⊢
  dsimp only at hs ⊢
  rw [dif_pos (B1.trans hM), dif_pos (B2.trans hM)] at hs ⊢
  obtain ⟨h1, h2⟩ := hs
  rw [← h1]
  exact ⟨_, _, _, rfl, rfl, h2, fmt.roundPos_multiple (abs_mul' hn), fmt.roundPos_multiple (abs_mul' hn'),
    B1, B2⟩

theorem PairQ.fma {j k e h e' h' : ℤ} {A : ℚ} {a a' b b' c c' : Flt fmt} (p : Pair j e h a a')
    (q : Pair k e' h' b b') (r : PairQ (j + k) (e + e') A c c') (he : fmt.nrm ≤ e + e')
    (hr : fmt.roundPos (2 ^ (h + h') + A) ≤ 2 ^ (h + h') + A) (hM : 2 ^ (h + h') + A ≤ fmt.maxFin) :
    PairQ (j + k) (e + e') (2 ^ (h + h') + A) (Flt.fma a b c) (Flt.fma a' b' c') := by
  obtain ⟨s, m, m', rfl, rfl, hm, ⟨x, hx⟩, ⟨x', hx'⟩, l, l'⟩ := p.dest
  obtain ⟨t, n, n', rfl, rfl, hn, ⟨y, hy⟩, ⟨y', hy'⟩, g, g'⟩ := q.dest
  obtain ⟨u, w, w', rfl, rfl, hw, ⟨z, hz⟩, ⟨z', hz'⟩, o, o'⟩ := r
  show PairQ _ _ _ (ofExact ((s != t) && u) (sval s m * sval t n + sval u w))
    (ofExact ((s != t) && u) (sval s m' * sval t n' + sval u w'))
  have key : sval s m' * sval t n' + sval u w' = 2 ^ (j + k) * (sval s m * sval t n + sval u w) := by
    rw [sval_scaled hm, sval_scaled hn, sval_scaled hw, zpow_add₀ (by norm_num)]
    ring
  have grid : ∀ (m n w : fmt.Mag) (x y z : ℤ), m.val = x * 2 ^ e → n.val = y * 2 ^ e' →
      w.val = z * 2 ^ (e + e') → ∃ i : ℤ, sval s m * sval t n + sval u w = i * 2 ^ (e + e') := by
    intro m n w x y z h1 h2 h3
    obtain ⟨x, hx⟩ := sval_multiple (s := s) h1
    obtain ⟨y, hy⟩ := sval_multiple (s := t) h2
    obtain ⟨z, hz⟩ := sval_multiple (s := u) h3
    refine ⟨x * y + z, ?_⟩
    rw [hx, hy, hz, zpow_add₀ (by norm_num)]
    push_cast
    ring
  have size : ∀ m n w : fmt.Mag, m.val ≤ 2 ^ h → n.val ≤ 2 ^ h' → w.val ≤ A →
      |sval s m * sval t n + sval u w| ≤ 2 ^ (h + h') + A := by
    intro m n w h1 h2 h3
    refine (abs_add_le _ _).trans ?_
    rw [abs_mul, abs_sval, abs_sval, abs_sval, zpow_add₀ (by norm_num)]
    have := mul_le_mul h1 h2 n.nonneg (zpow_pos (by norm_num : (0 : ℚ) < 2) h).le
    linarith
  obtain ⟨i, hi⟩ := grid m n w x y z hx hy hz
  obtain ⟨i', hi'⟩ := grid m' n' w' x' y' z' hx' hy' hz'
  have b1 := size m n w l g o
  have b2 := size m' n' w' l' g' o'
  rw [key] at hi' b2 ⊢
  exact pairQ_ofExact hi hi' b1 b2 he hr hM

/-- a factor without units times a number with units, added to a number with units -/
theorem Sums.fma_const {k e h e' h' : ℤ} {A : ℚ} {c a a' s s' : Flt fmt}
    (hc : Grid e' h' c ∨ Num.isFinite c = false) (p : Pair k e h a a') (r : Sums k (e' + e) A s s')
    (h1 : fmt.nrm ≤ e' + e) (h2 : fmt.nrm ≤ h' + h) (h3 : h' + h ≤ fmt.emax)
    (hr : fmt.roundPos (2 ^ (h' + h) + A) ≤ 2 ^ (h' + h) + A) (hM : 2 ^ (h' + h) + A ≤ fmt.maxFin) :
    Sums k (e' + e) (2 ^ (h' + h) + A) (Flt.fma c a s) (Flt.fma c a' s') := by
  by_cases hf : Num.isFinite c = false
  · have e1 : ∀ u v : Flt fmt, Flt.fma c u v = (c *. u) +. v := by
      intro u v
      cases c with
      | fin t n => cases hf
      | inf t => rfl
      | nan => rfl
    rw [e1, e1]
    exact (sums_const_mul (Or.inr hf) p h1 h2 h3).add r h1 hr hM
  · have hc := hc.resolve_right hf
    have hc0 : Pair 0 e' h' c c := by
      refine ⟨?_, hc, hc⟩
      obtain ⟨t, m, rfl, -⟩ := hc
      exact ⟨rfl, by simp⟩
    rcases r with r | ⟨rfl, hs⟩
    · left
      have := PairQ.fma hc0 p (c := s) (c' := s') (A := A) (by rwa [zero_add]) h1 hr hM
      rwa [zero_add] at this
    · right
      obtain ⟨t, m, rfl, -⟩ := hc
      obtain ⟨u, n, n', rfl, rfl, -⟩ := p.dest
      cases s with
      | fin t n => cases hs
      | inf t => exact ⟨rfl, hs⟩
      | nan => exact ⟨by rw [fma_nan_last, fma_nan_last], by rw [fma_nan_last]; rfl⟩

/-! ## All steps -/

theorem fused2_rel {R : ℚ → Flt fmt → Flt fmt → Prop} (h0 : R 0 (Num.ofRat 0) (Num.ofRat 0))
    (hadd : ∀ {A B : ℚ} {a a' b b' : Flt fmt}, R A a a' → R B b b' → fmt.roundPos (A + B) ≤ A + B →
      A + B ≤ fmt.maxFin → R (A + B) (a +. b) (a' +. b')) {h : ℤ}
    {l : List ((Flt fmt × Flt fmt) × (Flt fmt × Flt fmt))} {s t : Flt fmt} (ha : Fused2 l s t)
    (hl : ∀ p ∈ l, R (2 ^ h) (p.1.1 *. p.1.2) (p.2.1 *. p.2.2) ∧
      ∀ {A : ℚ} {c c' : Flt fmt}, R A c c' → fmt.roundPos (2 ^ h + A) ≤ 2 ^ h + A →
        2 ^ h + A ≤ fmt.maxFin → R (2 ^ h + A) (Flt.fma p.1.1 p.1.2 c) (Flt.fma p.2.1 p.2.2 c'))
    (hh : fmt.emin ≤ h) (hn : l.length ≤ 2 ^ fmt.prec - 1)
    (hM : (l.length : ℚ) * 2 ^ h ≤ fmt.maxFin) : R (l.length * 2 ^ h) s t := by
  have hp : (0 : ℚ) < 2 ^ h := zpow_pos (by norm_num) _
  induction ha with
  | nil => simpa using h0
  | mul a b c d => simpa using (hl ((a, b), (c, d)) (by simp)).1
  | zero _ ih =>
    have := hadd h0 (ih hl hn hM) (by rw [zero_add, roundPos_small hn hh]) (by rwa [zero_add])
    rwa [zero_add] at this
  | @add l l1 l2 s1 s2 t1 t2 hperm _ _ _ _ ih1 ih2 =>
    have hlen : l.length = l1.length + l2.length := by rw [hperm.length_eq, List.length_append]
    have hq : (l.length : ℚ) * 2 ^ h = l1.length * 2 ^ h + l2.length * 2 ^ h := by
      rw [hlen]; push_cast; ring
    have n1 : (0 : ℚ) ≤ l1.length * 2 ^ h := mul_nonneg (Nat.cast_nonneg _) hp.le
    have n2 : (0 : ℚ) ≤ l2.length * 2 ^ h := mul_nonneg (Nat.cast_nonneg _) hp.le
    have := hadd (ih1 (fun p h => hl p (by simp [hperm.mem_iff, h])) (by omega) (by linarith))
      (ih2 (fun p h => hl p (by simp [hperm.mem_iff, h])) (by omega) (by linarith))
      (by rw [← hq, roundPos_small hn hh]) (by rwa [← hq])
    rwa [← hq] at this
  | @fma l l1 a b c d s t hperm _ ih =>
    have hlen : l.length = l1.length + 1 := by rw [hperm.length_eq, List.length_cons]
    have hq : (l.length : ℚ) * 2 ^ h = 2 ^ h + l1.length * 2 ^ h := by
      rw [hlen]; push_cast; ring
    have := (hl ((a, b), (c, d)) (by simp [hperm.mem_iff])).2
      (ih (fun p h => hl p (by simp [hperm.mem_iff, h])) (by omega) (by linarith))
      (by rw [← hq, roundPos_small hn hh]) (by rwa [← hq])
    rwa [← hq] at this

/-- numbers without units times numbers with units -/
theorem fused2_sums {k e h e' h' : ℤ} {l : List ((Flt fmt × Flt fmt) × (Flt fmt × Flt fmt))}
    {s t : Flt fmt} (ha : Fused2 l s t)
    (hl : ∀ p ∈ l, p.1.1 = p.2.1 ∧ (Grid e' h' p.1.1 ∨ Num.isFinite p.1.1 = false) ∧
      Pair k e h p.1.2 p.2.2)
    (h1 : fmt.nrm ≤ e' + e) (h2 : fmt.nrm ≤ h' + h) (h3 : h' + h ≤ fmt.emax) (hh : fmt.emin ≤ h' + h)
    (hn : l.length ≤ 2 ^ fmt.prec - 1) (hM : (l.length : ℚ) * 2 ^ (h' + h) ≤ fmt.maxFin) :
    Sums k (e' + e) (l.length * 2 ^ (h' + h)) s t := by
  refine fused2_rel (R := Sums k (e' + e)) (Or.inl (zero_pairQ _ _ le_rfl)) (fun p q => p.add q h1) ha
    (fun p hp => ?_) hh hn hM
  obtain ⟨⟨a, b⟩, ⟨c, d⟩⟩ := p
  obtain ⟨e0, hc, hq⟩ := hl _ hp
  obtain rfl : a = c := e0
  exact ⟨sums_const_mul hc hq h1 h2 h3, fun r hr hM => Sums.fma_const hc hq r h1 h2 h3 hr hM⟩

/-- numbers with units times numbers with units -/
theorem fused2_pairs {j k e h e' h' : ℤ} {l : List ((Flt fmt × Flt fmt) × (Flt fmt × Flt fmt))}
    {s t : Flt fmt} (ha : Fused2 l s t)
    (hl : ∀ p ∈ l, Pair j e h p.1.1 p.2.1 ∧ Pair k e' h' p.1.2 p.2.2)
    (h1 : fmt.nrm ≤ e + e') (h2 : fmt.nrm ≤ h + h') (h3 : h + h' ≤ fmt.emax) (hh : fmt.emin ≤ h + h')
    (hn : l.length ≤ 2 ^ fmt.prec - 1) (hM : (l.length : ℚ) * 2 ^ (h + h') ≤ fmt.maxFin) :
    PairQ (j + k) (e + e') (l.length * 2 ^ (h + h')) s t :=
  fused2_rel (R := PairQ (j + k) (e + e')) (zero_pairQ _ _ le_rfl) (fun p q => p.add q h1) ha
    (fun p hp => ⟨((hl p hp).1.mul (hl p hp).2 h1 h2 h3).dest,
      fun r hr hM => PairQ.fma (hl p hp).1 (hl p hp).2 r h1 hr hM⟩) hh hn hM

end Flt

/-- a dot product of squares is not negative, and not `-0.0` -/
theorem Fused.plus {l : List (Flt fmt × Flt fmt)} {s : Flt fmt} (h : Fused l s)
    (hl : ∀ p ∈ l, p.1 = p.2) : Plus s := by
  induction h with
  | nil => exact plus_ofExact le_rfl
  | mul a b =>
    obtain rfl : a = b := hl (a, b) (by simp)
    exact plus_sq a
  | zero _ ih => exact (plus_ofExact le_rfl).add (ih hl)
  | add hp _ _ _ _ ih1 ih2 =>
    exact (ih1 fun p h => hl p (by simp [hp.mem_iff, h])).add
      (ih2 fun p h => hl p (by simp [hp.mem_iff, h]))
  | @fma l l1 a b s hp _ ih =>
    obtain rfl : a = b := hl (a, b) (by simp [hp.mem_iff])
    have hs := ih fun p h => hl p (by simp [hp.mem_iff, h])
    cases a with
    | inf t => exact (plus_sq (Flt.inf t)).add hs
    | nan => exact (plus_sq Flt.nan).add hs
    | fin t m =>
      rcases hs with rfl | rfl | ⟨n, rfl⟩
      · rw [fma_nan_last]
        exact Or.inl rfl
      · exact Or.inr (Or.inl rfl)
      · show Plus (ofExact ((t != t) && false) (sval t m * sval t m + sval false n))
        rw [Bool.and_false]
        exact plus_ofExact (add_nonneg (mul_self_nonneg _) n.nonneg)

end GChop
