import Verif.Lemmas.Fused
import Verif.Props.Align
import Verif.Props.DoubleCenter
import Mathlib.Analysis.InnerProductSpace.PiL2

/-!
# C81: `star_align` in double precision
-/

namespace GChop
open Flt Matrix

/-! ## The matrix -/

/-- The total angular momentum, as computed, is of moderate size and has a part across the z axis. -/
structure Tilted (X Y Z : Float64) : Prop where
  hX : Within 200 X
  hY : Within 200 Y
  hZ : Within 200 Z
  perp : (2 : ℚ) ^ (-200 : ℤ) ≤ |value X| ∨ (2 : ℚ) ^ (-200 : ℤ) ≤ |value Y|

/-- the components of the total angular momentum as real numbers -/
noncomputable def realJ (X Y Z : Float64) : Fin 3 → ℝ := ![(value X : ℝ), value Y, value Z]

theorem Tilted.perp_ne {X Y Z : Float64} (ht : Tilted X Y Z) :
    realJ X Y Z 0 ≠ 0 ∨ realJ X Y Z 1 ≠ 0 := by
  have h0 : (0 : ℚ) < 2 ^ (-200 : ℤ) := zpow_pos (by norm_num) _
  have main : ∀ {q : ℚ}, 2 ^ (-200 : ℤ) ≤ |q| → (q : ℝ) ≠ 0 := by
    intro q hq h
    rw [Rat.cast_eq_zero] at h
    rw [h, abs_zero] at hq
    exact absurd hq (not_le.2 h0)
  exact ht.perp.imp main main

/-- an entry of the matrix and its exact value -/
def Entry (a : Float64) (t : ℝ) : Prop :=
  Num.isFinite a = true ∧ |(value a : ℝ) - t| ≤ 1 / 2 ^ 48

theorem entry_of {a : Float64} {k t : ℝ} (h : Fuzzy a t 1 k) (hk : k ≤ 32) : Entry a t := by
  refine ⟨h.fin, h.err.trans ?_⟩
  norm_num
  linarith

theorem Within.real {e : ℤ} {a : Float64} (h : Within e a) : |(value a : ℝ)| ≤ 2 ^ e := by
  have := (Rat.cast_le (K := ℝ)).2 h.2
  rwa [Rat.cast_abs, Rat.cast_zpow, Rat.cast_ofNat] at this

/-- the sizes of the total and of its part across the z axis -/
theorem Tilted.sizes {X Y Z : Float64} (h : Tilted X Y Z) {p j : ℝ}
    (hp : p = Real.sqrt ((value X : ℝ) * value X + value Y * value Y))
    (hj : j = Real.sqrt ((value X : ℝ) * value X + value Y * value Y + value Z * value Z)) :
    2 ^ (-200 : ℤ) ≤ p ∧ p ≤ j ∧ j ≤ 2 ^ (202 : ℤ) ∧ |(value X : ℝ)| ≤ p ∧ |(value Y : ℝ)| ≤ p ∧
      |(value Z : ℝ)| ≤ j := by
  have hX := h.hX.real
  have hY := h.hY.real
  have hZ := h.hZ.real
  have hx : |(value X : ℝ)| ≤ p := by
    rw [hp]; exact Real.abs_le_sqrt (by nlinarith [mul_self_nonneg (value Y : ℝ)])
  have hy : |(value Y : ℝ)| ≤ p := by
    rw [hp]; exact Real.abs_le_sqrt (by nlinarith [mul_self_nonneg (value X : ℝ)])
  refine ⟨?_, ?_, ?_, hx, hy, ?_⟩
  · rcases h.perp with h1 | h1
    · have h2 := (Rat.cast_le (K := ℝ)).2 h1
      rw [Rat.cast_abs, Rat.cast_zpow, Rat.cast_ofNat] at h2
      exact h2.trans hx
    · have h2 := (Rat.cast_le (K := ℝ)).2 h1
      rw [Rat.cast_abs, Rat.cast_zpow, Rat.cast_ofNat] at h2
      exact h2.trans hy
  · rw [hp, hj]
    exact Real.sqrt_le_sqrt (by nlinarith [mul_self_nonneg (value Z : ℝ)])
  · rw [hj, Real.sqrt_le_left (zpow_pos (by norm_num) _).le]
    have e : (2 : ℝ) ^ (202 : ℤ) = 4 * 2 ^ (200 : ℤ) := by
      rw [show (202 : ℤ) = 2 + 200 by norm_num, zpow_add₀ (by norm_num)]
      norm_num
    rw [e]
    generalize (2 : ℝ) ^ (200 : ℤ) = B at *
    have hB : 0 ≤ B := (abs_nonneg _).trans hX
    have q : ∀ {x : ℝ}, |x| ≤ B → x * x ≤ B * B := by
      intro x hx
      rw [← abs_mul_abs_self]
      exact mul_le_mul hx hx (abs_nonneg _) hB
    nlinarith [q hX, q hY, q hZ, mul_self_nonneg B]
  · rw [hj]
    exact Real.abs_le_sqrt (by nlinarith [mul_self_nonneg (value X : ℝ), mul_self_nonneg (value Y : ℝ)])

theorem scale_mul {a b : ℝ} (h1 : (2 : ℝ) ^ (-200 : ℤ) ≤ a) (h2 : (2 : ℝ) ^ (-200 : ℤ) ≤ b)
    (h3 : a ≤ 2 ^ (202 : ℤ)) (h4 : b ≤ 2 ^ (202 : ℤ)) :
    (2 : ℝ) ^ (-900 : ℤ) ≤ a * b ∧ a * b ≤ 2 ^ (900 : ℤ) := by
  have h0 : (0 : ℝ) < 2 ^ (-200 : ℤ) := zpow_pos (by norm_num) _
  constructor
  · refine le_trans ?_ (mul_le_mul h1 h2 h0.le (h0.le.trans h1))
    rw [← zpow_add₀ (by norm_num)]
    exact zpow_le_zpow_right₀ (by norm_num) (by norm_num)
  · refine (mul_le_mul h3 h4 (h0.le.trans h2) (zpow_pos (by norm_num) _).le).trans ?_
    rw [← zpow_add₀ (by norm_num)]
    exact zpow_le_zpow_right₀ (by norm_num) (by norm_num)

theorem big_le {M : ℝ} (h : M ≤ 2 ^ (900 : ℤ)) : M ≤ 2 ^ (1000 : ℤ) :=
  h.trans (zpow_le_zpow_right₀ (by norm_num) (by norm_num))

theorem matrix_entries {X Y Z : Float64} (h : Tilted X Y Z) :
    let A := rotFromJ X Y Z
    let R := alignK (realJ X Y Z)
    Entry A.e1x (R 0 0) ∧ Entry A.e1y (R 0 1) ∧ Entry A.e1z (R 0 2) ∧
    Entry A.e2x (R 1 0) ∧ Entry A.e2y (R 1 1) ∧ Entry A.e2z (R 1 2) ∧
    Entry A.e3x (R 2 0) ∧ Entry A.e3y (R 2 1) ∧ Entry A.e3z (R 2 2) := by
  obtain ⟨p, hp⟩ : ∃ p, p = Real.sqrt ((value X : ℝ) * value X + value Y * value Y) := ⟨_, rfl⟩
  obtain ⟨j, hj⟩ : ∃ j, j = Real.sqrt ((value X : ℝ) * value X + value Y * value Y + value Z * value Z) :=
    ⟨_, rfl⟩
  obtain ⟨s1, s2, s3, sx, sy, sz⟩ := h.sizes hp hj
  have p0 : 0 < p := lt_of_lt_of_le (zpow_pos (by norm_num) _) s1
  have j0 : 0 < j := p0.trans_le s2
  have pp : p * p = (value X : ℝ) * value X + value Y * value Y := by
    rw [hp, Real.mul_self_sqrt (add_nonneg (mul_self_nonneg _) (mul_self_nonneg _))]
  have jj : j * j = (value X : ℝ) * value X + value Y * value Y + value Z * value Z := by
    rw [hj, Real.mul_self_sqrt (add_nonneg (add_nonneg (mul_self_nonneg _) (mul_self_nonneg _))
      (mul_self_nonneg _))]
  have cpp := scale_mul s1 s1 (s2.trans s3) (s2.trans s3)
  have cjj := scale_mul (s1.trans s2) (s1.trans s2) s3 s3
  have cpj := scale_mul s1 (s1.trans s2) (s2.trans s3) s3
  have S1 : Scale 1 := ⟨zpow_le_one_of_nonpos₀ (by norm_num) (by norm_num),
    one_le_zpow₀ (by norm_num) (by norm_num)⟩
  clear s1 s3
  have X1 : Fuzzy X (value X) p 0 := .self h.hX.1 sx
  have Y1 : Fuzzy Y (value Y) p 0 := .self h.hY.1 sy
  have X2 : Fuzzy X (value X) j 0 := X1.mono s2 le_rfl
  have Y2 : Fuzzy Y (value Y) j 0 := Y1.mono s2 le_rfl
  have Z2 : Fuzzy Z (value Z) j 0 := .self h.hZ.1 sz
  have n20 : (0 : ℝ) ≤ 2 ^ 20 := by norm_num
  have q1 := (X1.mul X1 n20 n20 ⟨cpp.1, big_le cpp.2⟩).add' (Y1.mul Y1 n20 n20 ⟨cpp.1, big_le cpp.2⟩)
    (by rw [← pp, abs_of_pos (mul_pos p0 p0)]) (by norm_num) (big_le cpp.2)
  have q2 := ((X2.mul X2 n20 n20 ⟨cjj.1, big_le cjj.2⟩).add' (Y2.mul Y2 n20 n20 ⟨cjj.1, big_le cjj.2⟩)
    (by
      rw [← pp, abs_of_pos (mul_pos p0 p0)]
      exact mul_le_mul s2 s2 p0.le j0.le) (by norm_num) (big_le cjj.2)).add'
    (Z2.mul Z2 n20 n20 ⟨cjj.1, big_le cjj.2⟩)
    (by rw [← jj, abs_of_pos (mul_pos j0 j0)]) (by norm_num) (big_le cjj.2)
  rw [← pp] at q1
  rw [← jj] at q2
  have rp : Fuzzy (Num.sqrt (Num.sq X +. Num.sq Y)) p p 9 := by
    have := (q1.mono le_rfl (by norm_num : _ ≤ (6 : ℝ))).sqrt (by norm_num) cpp.1 cpp.2
    rw [Real.sqrt_mul_self p0.le] at this
    exact this.mono le_rfl (by norm_num)
  have rj : Fuzzy (Num.sqrt ((Num.sq X +. Num.sq Y) +. Num.sq Z)) j j 13 := by
    have := (q2.mono le_rfl (by norm_num : _ ≤ (10 : ℝ))).sqrt (by norm_num) cjj.1 cjj.2
    rw [Real.sqrt_mul_self j0.le] at this
    exact this.mono le_rfl (by norm_num)
  have rpj : Fuzzy (Num.sqrt (Num.sq X +. Num.sq Y) *. Num.sqrt ((Num.sq X +. Num.sq Y) +. Num.sq Z))
      (p * j) (p * j) 24 :=
    (rp.mul rj (by norm_num) (by norm_num) ⟨cpj.1, big_le cpj.2⟩).mono le_rfl (by norm_num)
  have pj0 := mul_pos p0 j0
  have ep : HasSqrt.ksqrt (realJ X Y Z 0 * realJ X Y Z 0 + realJ X Y Z 1 * realJ X Y Z 1) = p := hp.symm
  have ej : HasSqrt.ksqrt (realJ X Y Z ⬝ᵥ realJ X Y Z) = j := by
    rw [dot_self]
    exact hj.symm
  have quot : ∀ {a b : Float64} {t k s l : ℝ}, Fuzzy a t s k → Fuzzy b s s l → 0 < s → k ≤ 9 → l ≤ 13 →
      Entry (a /. b) (t / s) := by
    intro a b t k s l ha hb hs hk hl
    have := ha.div hb hs (by norm_num; linarith) (by norm_num; linarith) (by rw [div_self hs.ne']; exact S1)
    rw [div_self hs.ne'] at this
    exact entry_of this (by linarith)
  have quot2 : ∀ {a b : Float64} {t k s : ℝ}, Fuzzy a t s k → Fuzzy b s s 24 → 0 < s → k ≤ 2 →
      Entry (a /. b) (t / s) := by
    intro a b t k s ha hb hs hk
    have := ha.div hb hs (by norm_num; linarith) (by norm_num) (by rw [div_self hs.ne']; exact S1)
    rw [div_self hs.ne'] at this
    exact entry_of this (by linarith)
  have XZ := X1.mul Z2 n20 n20 ⟨cpj.1, big_le cpj.2⟩
  have YZ := Y1.mul Z2 n20 n20 ⟨cpj.1, big_le cpj.2⟩
  simp only [alignK, ep, ej]
  refine ⟨?_, ?_, ?_, ?_, ?_, ?_, ?_, ?_, ?_⟩
  · exact quot Y1 rp p0 (by norm_num) (by norm_num)
  · exact quot X1.neg rp p0 (by norm_num) (by norm_num)
  · refine ⟨isFinite_of (v := 0) toExt_zero, ?_⟩
    have : value (rotFromJ X Y Z).e1z = 0 := value_eq toExt_zero
    rw [this]
    simp
  · exact quot2 XZ rpj pj0 (by norm_num)
  · exact quot2 YZ rpj pj0 (by norm_num)
  · exact quot (rp.neg.mono s2 le_rfl) rj j0 (by norm_num) (by norm_num)
  · exact quot X2 rj j0 (by norm_num) (by norm_num)
  · exact quot Y2 rj j0 (by norm_num) (by norm_num)
  · exact quot Z2 rj j0 (by norm_num) (by norm_num)

/-! ## One rotated coordinate -/

/-- one coordinate of a rotated vector, whatever the order of the two additions, with or without fused
multiply-add -/
theorem dot_err {a b c x y z S : Float64} (hS : Fused [(a, x), (b, y), (c, z)] S)
    (ha : Num.isFinite a = true) (hb : Num.isFinite b = true)
    (hc : Num.isFinite c = true) (ha1 : |value a| ≤ 2) (hb1 : |value b| ≤ 2) (hc1 : |value c| ≤ 2)
    (hx : Within 990 x) (hy : Within 990 y) (hz : Within 990 z) :
    Num.isFinite S = true ∧
    |(value S : ℝ) - (value a * value x + value b * value y + value c * value z)|
      ≤ (|(value a * value x : ℝ)| + |(value b * value y : ℝ)| + |(value c * value z : ℝ)|) / 2 ^ 50
        + 8 * tiny := by
  have prod : ∀ {a x : Float64}, |value a| ≤ 2 → Within 990 x →
      |(value a * value x : ℝ)| ≤ 2 * 2 ^ (990 : ℤ) := by
    intro a x ha1 hx
    rw [abs_mul]
    have : |(value a : ℝ)| ≤ 2 := by exact_mod_cast ha1
    exact mul_le_mul this hx.real (abs_nonneg _) (by norm_num)
  have m1 := prod ha1 hx
  have m2 := prod hb1 hy
  have m3 := prod hc1 hz
  have hx1 : dotExact [(a, x), (b, y), (c, z)]
      = value a * value x + value b * value y + value c * value z := by simp [dotExact]; ring
  have hs1 : dotSize [(a, x), (b, y), (c, z)]
      = |(value a * value x : ℝ)| + |(value b * value y : ℝ)| + |(value c * value z : ℝ)| := by
    simp [dotSize]; ring
  have big : (2 : ℝ) ^ (999 : ℤ) = 512 * 2 ^ (990 : ℤ) := by
    rw [show (999 : ℤ) = 9 + 990 by norm_num, zpow_add₀ (by norm_num)]
    norm_num
  have hp : (0 : ℝ) < 2 ^ (990 : ℤ) := zpow_pos (by norm_num) _
  obtain ⟨f, e⟩ := hS.err (by
    intro p hp
    simp only [List.mem_cons, List.not_mem_nil, or_false] at hp
    rcases hp with rfl | rfl | rfl
    · exact ⟨ha, hx.1⟩
    · exact ⟨hb, hy.1⟩
    · exact ⟨hc, hz.1⟩) (by simp) (by
      rw [hs1, big]
      clear big
      generalize (2 : ℝ) ^ (990 : ℤ) = N at *
      linarith)
  refine ⟨f, ?_⟩
  rw [if_neg (by simp), hx1, hs1] at e
  refine e.trans ?_
  have t0 : (0 : ℝ) < tiny := by exact_mod_cast tiny_pos
  have n1 := abs_nonneg (value a * value x : ℝ)
  have n2 := abs_nonneg (value b * value y : ℝ)
  have n3 := abs_nonneg (value c * value z : ℝ)
  unfold dotBound
  simp only [List.length_cons, List.length_nil]
  clear e hs1 hx1 m1 m2 m3 big hp prod
  generalize |(value a * value x : ℝ)| = A1 at *
  generalize |(value b * value y : ℝ)| = A2 at *
  generalize |(value c * value z : ℝ)| = A3 at *
  generalize (tiny : ℝ) = T at *
  norm_num
  linarith

theorem entry_abs {a : Float64} {t : ℝ} (h : Entry a t) (ht : |t| ≤ 1) :
    |(value a : ℝ) - t| ≤ 1 / 2 ^ 48 ∧ |(value a : ℝ)| ≤ 1 + 1 / 2 ^ 48 ∧ |value a| ≤ 2 := by
  have h1 := h.2
  have h2 := abs_sub_abs_le_abs_sub (value a : ℝ) t
  refine ⟨h1, by linarith, ?_⟩
  have h3 : |(value a : ℝ)| ≤ 2 := by norm_num at h1 ⊢; linarith
  exact_mod_cast h3

/-- one coordinate: a row of the exact matrix times the vector -/
theorem row_err {a b c x y z S : Float64} {r s t : ℝ} (hS : Fused [(a, x), (b, y), (c, z)] S) (ha : Entry a r) (hb : Entry b s) (hc : Entry c t)
    (hr : |r| ≤ 1) (hs : |s| ≤ 1) (ht : |t| ≤ 1)
    (hx : Within 990 x) (hy : Within 990 y) (hz : Within 990 z) :
    Num.isFinite S = true ∧
    |(value S : ℝ) - (r * value x + s * value y + t * value z)|
      ≤ (|(value x : ℝ)| + |(value y : ℝ)| + |(value z : ℝ)|) / 2 ^ 47 + 8 * tiny := by
  obtain ⟨a1, a2, a3⟩ := entry_abs ha hr
  obtain ⟨b1, b2, b3⟩ := entry_abs hb hs
  obtain ⟨c1, c2, c3⟩ := entry_abs hc ht
  obtain ⟨f, e'⟩ := dot_err hS ha.1 hb.1 hc.1 a3 b3 c3 hx hy hz
  refine ⟨f, ?_⟩
  clear hS
  generalize (value S : ℝ) = S at *
  generalize (value a : ℝ) = A at *
  generalize (value b : ℝ) = B at *
  generalize (value c : ℝ) = C at *
  generalize (value x : ℝ) = x at *
  generalize (value y : ℝ) = y at *
  generalize (value z : ℝ) = z at *
  have m1 : |A * x| ≤ (1 + 1 / 2 ^ 48) * |x| := by
    rw [abs_mul]; exact mul_le_mul_of_nonneg_right a2 (abs_nonneg _)
  have m2 : |B * y| ≤ (1 + 1 / 2 ^ 48) * |y| := by
    rw [abs_mul]; exact mul_le_mul_of_nonneg_right b2 (abs_nonneg _)
  have m3 : |C * z| ≤ (1 + 1 / 2 ^ 48) * |z| := by
    rw [abs_mul]; exact mul_le_mul_of_nonneg_right c2 (abs_nonneg _)
  have d1 : |(A - r) * x| ≤ 1 / 2 ^ 48 * |x| := by
    rw [abs_mul]; exact mul_le_mul_of_nonneg_right a1 (abs_nonneg _)
  have d2 : |(B - s) * y| ≤ 1 / 2 ^ 48 * |y| := by
    rw [abs_mul]; exact mul_le_mul_of_nonneg_right b1 (abs_nonneg _)
  have d3 : |(C - t) * z| ≤ 1 / 2 ^ 48 * |z| := by
    rw [abs_mul]; exact mul_le_mul_of_nonneg_right c1 (abs_nonneg _)
  have n1 := abs_nonneg x
  have n2 := abs_nonneg y
  have n3 := abs_nonneg z
  have split : S - (r * x + s * y + t * z) = (S - (A * x + B * y + C * z))
      + ((A - r) * x + ((B - s) * y + (C - t) * z)) := by ring
  rw [split]
  refine (abs_add_le _ _).trans ?_
  have w1 := abs_add_le ((A - r) * x) ((B - s) * y + (C - t) * z)
  have w2 := abs_add_le ((B - s) * y) ((C - t) * z)
  generalize |x| = X at *
  generalize |y| = Y at *
  generalize |z| = Z at *
  generalize (tiny : ℝ) = T at *
  norm_num at *
  linarith

/-! ## Galaxies -/

def Body.pos (a : Body Float64) : Fin 3 → Float64 := ![a.x, a.y, a.z]
def Body.vel (a : Body Float64) : Fin 3 → Float64 := ![a.vx, a.vy, a.vz]

/-- `w` is the rotated vector `R v`, each coordinate up to `2^-47` of the size of `v` (and a few
times the smallest double) -/
def RotatedTo (R : Matrix (Fin 3) (Fin 3) ℝ) (v w : Fin 3 → Float64) : Prop :=
  ∀ i, Num.isFinite (w i) = true ∧
    |(value (w i) : ℝ) - (R *ᵥ fun j => (value (v j) : ℝ)) i|
      ≤ (|(value (v 0) : ℝ)| + |(value (v 1) : ℝ)| + |(value (v 2) : ℝ)|) / 2 ^ 47 + 2 ^ (-1070 : ℤ)

/-- the Euclidean length of a vector of doubles -/
noncomputable def vlength (v : Fin 3 → Float64) : ℝ :=
  Real.sqrt ((value (v 0) : ℝ) ^ 2 + (value (v 1) : ℝ) ^ 2 + (value (v 2) : ℝ) ^ 2)

theorem so3_entry {R : Matrix (Fin 3) (Fin 3) ℝ} (h : R ∈ specialOrthogonalGroup (Fin 3) ℝ)
    (i j : Fin 3) : |R i j| ≤ 1 := by
  have h3 : R * Rᵀ = 1 :=
    (mem_orthogonalGroup_iff (Fin 3) ℝ).1 (mem_specialOrthogonalGroup_iff.1 h).1
  have h4 := congrFun (congrFun h3 i) i
  rw [Matrix.mul_apply, Matrix.one_apply_eq] at h4
  have h5 : R i j * Rᵀ j i ≤ ∑ k, R i k * Rᵀ k i :=
    Finset.single_le_sum (f := fun k => R i k * Rᵀ k i)
      (fun k _ => by rw [Matrix.transpose_apply]; exact mul_self_nonneg _) (Finset.mem_univ j)
  rw [h4, Matrix.transpose_apply] at h5
  rw [abs_le_one_iff_mul_self_le_one]
  exact h5

theorem rotated_of_rows {R : Matrix (Fin 3) (Fin 3) ℝ} {A : Mat3 Float64}
    (hR : R ∈ specialOrthogonalGroup (Fin 3) ℝ)
    (h : Entry A.e1x (R 0 0) ∧ Entry A.e1y (R 0 1) ∧ Entry A.e1z (R 0 2) ∧
      Entry A.e2x (R 1 0) ∧ Entry A.e2y (R 1 1) ∧ Entry A.e2z (R 1 2) ∧
      Entry A.e3x (R 2 0) ∧ Entry A.e3y (R 2 1) ∧ Entry A.e3z (R 2 2))
    {v : Fin 3 → Float64} (hv : ∀ i, Within 990 (v i))
    {S1 S2 S3 : Float64} (h1 : Fused [(A.e1x, v 0), (A.e1y, v 1), (A.e1z, v 2)] S1)
    (h2 : Fused [(A.e2x, v 0), (A.e2y, v 1), (A.e2z, v 2)] S2)
    (h3 : Fused [(A.e3x, v 0), (A.e3y, v 1), (A.e3z, v 2)] S3) :
    RotatedTo R v ![S1, S2, S3] := by
  obtain ⟨a1, a2, a3, b1, b2, b3, c1, c2, c3⟩ := h
  have ht : (8 : ℝ) * tiny ≤ 2 ^ (-1070 : ℤ) := by
    unfold tiny
    rw [Rat.cast_zpow, Rat.cast_ofNat, show (8 : ℝ) = 2 ^ (3 : ℤ) by norm_num, ← zpow_add₀ (by norm_num)]
    exact zpow_le_zpow_right₀ (by norm_num) (by norm_num)
  intro i
  fin_cases i
  · obtain ⟨f, e⟩ := row_err h1 a1 a2 a3 (so3_entry hR _ _) (so3_entry hR _ _) (so3_entry hR _ _)
      (hv 0) (hv 1) (hv 2)
    refine ⟨f, ?_⟩
    simp only [mulVec, dotProduct, Fin.sum_univ_three]
    exact e.trans (by gcongr)
  · obtain ⟨f, e⟩ := row_err h2 b1 b2 b3 (so3_entry hR _ _) (so3_entry hR _ _) (so3_entry hR _ _)
      (hv 0) (hv 1) (hv 2)
    refine ⟨f, ?_⟩
    simp only [mulVec, dotProduct, Fin.sum_univ_three]
    exact e.trans (by gcongr)
  · obtain ⟨f, e⟩ := row_err h3 c1 c2 c3 (so3_entry hR _ _) (so3_entry hR _ _) (so3_entry hR _ _)
      (hv 0) (hv 1) (hv 2)
    refine ⟨f, ?_⟩
    simp only [mulVec, dotProduct, Fin.sum_univ_three]
    exact e.trans (by gcongr)

/-- double precision with a given way to add up arrays -/
abbrev sumBy (sm : List Float64 → Float64) : Num Float64 := Num.withSum inferInstance sm

/-- double precision with a given way to add up arrays and a given dot product -/
abbrev sumDot (sm : List Float64 → Float64) (dt : List (Float64 × Float64) → Float64) : Num Float64 :=
  Num.withSumDot inferInstance sm dt

/-- the dot product of the model: each product is rounded, the sum goes from left to right -/
theorem fused_dot (l : List (Float64 × Float64)) : Fused l (Num.dot l) := fused_of_added added_leftFold l

theorem rot_rotated {R : Matrix (Fin 3) (Fin 3) ℝ} {A : Mat3 Float64} {sm : List Float64 → Float64}
    {dt : List (Float64 × Float64) → Float64} (hd : ∀ l, Fused l (dt l)) (hR : R ∈ specialOrthogonalGroup (Fin 3) ℝ)
    (h : Entry A.e1x (R 0 0) ∧ Entry A.e1y (R 0 1) ∧ Entry A.e1z (R 0 2) ∧
      Entry A.e2x (R 1 0) ∧ Entry A.e2y (R 1 1) ∧ Entry A.e2z (R 1 2) ∧
      Entry A.e3x (R 2 0) ∧ Entry A.e3y (R 2 1) ∧ Entry A.e3z (R 2 2))
    {a : Body Float64} (ha : ∀ i, Within 990 (a.pos i) ∧ Within 990 (a.vel i)) :
    RotatedTo R a.pos (@Body.rot _ (sumDot sm dt) A a).pos ∧
      RotatedTo R a.vel (@Body.rot _ (sumDot sm dt) A a).vel ∧
      (@Body.rot _ (sumDot sm dt) A a).m = a.m ∧ (@Body.rot _ (sumDot sm dt) A a).pot = a.pot :=
  ⟨rotated_of_rows hR h (fun i => (ha i).1) (hd _) (hd _) (hd _),
    rotated_of_rows hR h (fun i => (ha i).2) (hd _) (hd _) (hd _), rfl, rfl⟩

/-- C81: in double precision `star_align` rotates every position and velocity by one exact rotation,
the one that puts the total angular momentum as computed on the z axis, with an error of at most
`2^-47` of the size of the vector in each coordinate.  This holds for every order of the additions in
`np.sum` and `np.dot`, with or without fused multiply-add in `np.dot`. -/
theorem C81_rotation (sm : List Float64 → Float64) (dt : List (Float64 × Float64) → Float64)
    (hd : ∀ l, Fused l (dt l)) (b : BGalaxy Float64)
    (rCut : Option Float64) (hc : ∀ c ∈ rCut, (c <=. Num.ofRat 0) = false) (X Y Z : Float64)
    (hX : X = sm ((b.stars.filter (Body.inside rCut)).map fun a => a.m *. a.jx))
    (hY : Y = sm ((b.stars.filter (Body.inside rCut)).map fun a => a.m *. a.jy))
    (hZ : Z = sm ((b.stars.filter (Body.inside rCut)).map fun a => a.m *. a.jz))
    (ht : Tilted X Y Z)
    (hw : ∀ a ∈ b.all, ∀ i, Within 990 (a.pos i) ∧ Within 990 (a.vel i)) :
    ∃ R ∈ specialOrthogonalGroup (Fin 3) ℝ,
      R *ᵥ realJ X Y Z = ![0, 0, vlength ![X, Y, Z]] ∧
      ∃ b' : BGalaxy Float64,
        @starAlign _ (sumDot sm dt) (Galaxy.ofBodies b) rCut = .ok (Galaxy.ofBodies b') ∧
        b'.all.length = b.all.length ∧
        ∀ (j : Nat) (a a' : Body Float64), b.all[j]? = some a → b'.all[j]? = some a' →
          RotatedTo R a.pos a'.pos ∧ RotatedTo R a.vel a'.vel ∧ a'.m = a.m ∧ a'.pot = a.pot := by
  have hperp := ht.perp_ne
  have hR := alignK_mem hperp
  have hbad : @badCut _ (sumDot sm dt) rCut = false := by
    cases rCut with
    | none => rfl
    | some c => exact hc c rfl
  have hent := matrix_entries ht
  refine ⟨_, hR, ?_, _, @starAlign_ofBodies _ (sumDot sm dt) b rCut hbad, by simp [mapBodies_all], ?_⟩
  · rw [alignK_mulVec hperp, dot_self]
    simp [realJ, vlength, HasSqrt.ksqrt, sq]
  · intro j a a' h1 h2
    have ha := hw a (List.mem_of_getElem? h1)
    rw [mapBodies_all, List.getElem?_map, h1] at h2
    obtain rfl := Option.some.inj h2
    have hA : @alignMatrix _ (sumDot sm dt) rCut b.stars = rotFromJ X Y Z := by
      rw [hX, hY, hZ]
      rfl
    rw [hA]
    exact rot_rotated hd hR hent ha

/-- C81 for the model as it stands, for numpy's order, for products that are rounded before they are
added in an order of `np.sum`, and for a chain of fused multiply-adds -/
theorem C81_orders : (∀ l : List Float64, Added l (Num.sum l)) ∧ (∀ l : List Float64, Added l (npSum l)) ∧
    sumBy Num.sum = (inferInstance : Num Float64) ∧
    (∀ sm : List Float64 → Float64, (∀ l, Added l (sm l)) →
      sumBy sm = sumDot sm (fun l => sm (l.map fun p => p.1 *. p.2)) ∧
      ∀ l, Fused l (sm (l.map fun p => p.1 *. p.2))) ∧
    ∀ l : List (Float64 × Float64), Fused l (fmaChain l) :=
  ⟨added_leftFold, added_npSum, rfl, fun _ h => ⟨rfl, fused_of_added h⟩, fused_fmaChain⟩

theorem length_sub (p q : Fin 3 → ℝ) {e : ℝ} (he : 0 ≤ e) (h : ∀ i, |p i - q i| ≤ e) :
    |Real.sqrt (p 0 ^ 2 + p 1 ^ 2 + p 2 ^ 2) - Real.sqrt (q 0 ^ 2 + q 1 ^ 2 + q 2 ^ 2)| ≤ 2 * e := by
  have hn : ∀ p : Fin 3 → ℝ, Real.sqrt (p 0 ^ 2 + p 1 ^ 2 + p 2 ^ 2)
      = ‖(WithLp.toLp 2 p : EuclideanSpace ℝ (Fin 3))‖ := by
    intro p
    rw [EuclideanSpace.norm_eq]
    simp [Fin.sum_univ_three]
  rw [hn, hn]
  refine (abs_norm_sub_norm_le _ _).trans ?_
  rw [← WithLp.toLp_sub, ← hn]
  refine Real.sqrt_le_iff.2 ⟨by positivity, ?_⟩
  have hs : ∀ i, (p - q) i ^ 2 ≤ e ^ 2 := fun i => sq_le_sq' (abs_le.1 (h i)).1 (abs_le.1 (h i)).2
  nlinarith [hs 0, hs 1, hs 2, sq_nonneg e]

/-- C81: a vector that is rotated this way keeps its length up to `2^-45` of it. -/
theorem C81_lengths {R : Matrix (Fin 3) (Fin 3) ℝ} (hR : R ∈ specialOrthogonalGroup (Fin 3) ℝ)
    {v w : Fin 3 → Float64} (h : RotatedTo R v w) :
    |vlength w - vlength v| ≤ vlength v / 2 ^ 45 + 2 ^ (-1069 : ℤ) := by
  set V : Fin 3 → ℝ := fun j => (value (v j) : ℝ) with hV
  have hlen : vlength v = Real.sqrt ((R *ᵥ V) 0 ^ 2 + (R *ᵥ V) 1 ^ 2 + (R *ᵥ V) 2 ^ 2) := by
    have := so3_dot hR V V
    rw [dot_self, dot_self] at this
    unfold vlength
    congr 1
    simp only [sq]
    rw [this]
  have hpos : (0 : ℝ) < 2 ^ (-1070 : ℤ) := zpow_pos (by norm_num) _
  have hL : ∀ i, |V i| ≤ vlength v := by
    intro i
    apply Real.abs_le_sqrt
    fin_cases i
    · show V 0 ^ 2 ≤ _
      nlinarith [sq_nonneg (V 1), sq_nonneg (V 2)]
    · show V 1 ^ 2 ≤ _
      nlinarith [sq_nonneg (V 0), sq_nonneg (V 2)]
    · show V 2 ^ 2 ≤ _
      nlinarith [sq_nonneg (V 1), sq_nonneg (V 0)]
  have hS : |V 0| + |V 1| + |V 2| ≤ 2 * vlength v := by
    have h0 : 0 ≤ vlength v := Real.sqrt_nonneg _
    have hs : vlength v ^ 2 = V 0 ^ 2 + V 1 ^ 2 + V 2 ^ 2 := Real.sq_sqrt (by positivity)
    rw [← sq_abs (V 0), ← sq_abs (V 1), ← sq_abs (V 2)] at hs
    refine abs_le_of_sq_le_sq' ?_ (by positivity) |>.2
    nlinarith [sq_nonneg (|V 0| - |V 1|), sq_nonneg (|V 1| - |V 2|), sq_nonneg (|V 0| - |V 2|)]
  have hmain := length_sub (fun i => (value (w i) : ℝ)) (R *ᵥ V)
    (e := vlength v / 2 ^ 46 + 2 ^ (-1070 : ℤ)) (by
      have : 0 ≤ vlength v := Real.sqrt_nonneg _
      positivity) (fun i => (h i).2.trans (by
        have : (|V 0| + |V 1| + |V 2|) / 2 ^ 47 ≤ 2 * vlength v / 2 ^ 47 := by gcongr
        have e : 2 * vlength v / 2 ^ 47 = vlength v / 2 ^ 46 := by ring
        linarith))
  rw [← hlen] at hmain
  refine hmain.trans (le_of_eq ?_)
  rw [show (-1069 : ℤ) = -1070 + 1 by norm_num, zpow_add_one₀ (by norm_num)]
  ring

/-! ## Examples -/

def dv (a b c : ℚ) : Fin 3 → Float64 := ![Num.ofRat a, Num.ofRat b, Num.ofRat c]

/-- a star of mass 1 -/
def starAt (r v : Fin 3 → Float64) : Body Float64 :=
  ⟨Num.ofRat 1, r 0, r 1, r 2, v 0, v 1, v 2, Num.ofRat 0⟩

def starsOnly (l : List (Body Float64)) : BGalaxy Float64 :=
  ⟨l, [], [], true, Num.ofRat 0, Num.ofRat 0, Num.ofRat 0⟩

/-- Two stars whose angular momenta nearly cancel: each is of size `2^50`, their sum is
`(-2, 2, -4)`. -/
def exCancel : BGalaxy Float64 :=
  starsOnly [starAt (dv (3 * 2 ^ 24) (2 ^ 24) (2 ^ 25)) (dv (2 ^ 24) (5 * 2 ^ 24) (2 ^ 25)),
    starAt (dv (2 ^ 24) (5 * 2 ^ 24) (2 ^ 25))
      (dv (3 * 2 ^ 24 + 1 / 2 ^ 24) (2 ^ 24 + 1 / 2 ^ 24) (2 ^ 25))]

/-- the hypotheses of C81 hold for these two stars -/
example : Tilted (Num.sum ((exCancel.stars.filter (Body.inside none)).map fun a => a.m *. a.jx))
    (Num.sum ((exCancel.stars.filter (Body.inside none)).map fun a => a.m *. a.jy))
    (Num.sum ((exCancel.stars.filter (Body.inside none)).map fun a => a.m *. a.jz)) ∧
    ∀ a ∈ exCancel.all, ∀ i, Within 990 (a.pos i) ∧ Within 990 (a.vel i) := by
  refine ⟨⟨?_, ?_, ?_, ?_⟩, ?_⟩ <;> (try unfold Within) <;> decide +kernel

/-- C81 (what the bound does not give): the galaxy returned by `star_align` is not star aligned with
the default tolerances when the angular momenta of the stars nearly cancel. -/
theorem C81_not_aligned : ∃ b' : BGalaxy Float64,
    starAlign (Galaxy.ofBodies exCancel) none = .ok (Galaxy.ofBodies b') ∧
    isStarAligned (Galaxy.ofBodies b') none (Num.ofRat (1 / 10 ^ 5)) (Num.ofRat (1 / 10 ^ 8))
      = .ok false :=
  ⟨_, starAlign_ofBodies exCancel none rfl, by rw [isStarAligned_ofBodies]; decide +kernel⟩

/-- C81 (negation for a small total): one star with `J = (0, -2^-540, 2^-540)`.  The squares of the
components underflow and the positions of the returned galaxy are not finite. -/
theorem C81_small_total : ∃ b' : BGalaxy Float64,
    starAlign (Galaxy.ofBodies (starsOnly [starAt (dv 1 0 0) (dv 0 (1 / 2 ^ 540) (1 / 2 ^ 540))])) none
      = .ok (Galaxy.ofBodies b') ∧
    ∀ a ∈ b'.all, Num.isFinite a.x = false ∧ Num.isFinite a.y = false :=
  ⟨_, starAlign_ofBodies _ none rfl, by decide +kernel⟩

/-- C81 (negation for a large total): one star with `J = (0, -2^540, 2^540)`.  The length of the total
overflows: in the returned galaxy the coordinates x and z are zero and y is not finite. -/
theorem C81_large_total : ∃ b' : BGalaxy Float64,
    starAlign (Galaxy.ofBodies (starsOnly [starAt (dv 1 0 0) (dv 0 (2 ^ 540) (2 ^ 540))])) none
      = .ok (Galaxy.ofBodies b') ∧
    ∀ a ∈ b'.all, value a.x = 0 ∧ Num.isFinite a.x = true ∧ Num.isFinite a.y = false ∧
      value a.z = 0 ∧ Num.isFinite a.z = true :=
  ⟨_, starAlign_ofBodies _ none rfl, by decide +kernel⟩

end GChop
