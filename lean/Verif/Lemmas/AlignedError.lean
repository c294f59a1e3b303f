import Verif.Props.DoubleAligned
import Verif.Props.ExactCirc

/-! # Errors of a galaxy that was centred and aligned in doubles

Used by C112. -/

namespace GChop
open Flt Matrix

/-! ## One particle -/

/-- a particle in doubles next to one of real numbers: same mass, same velocity, and a position that was
rounded once -/
structure NearBody (a : Body Float64) (k : KBody ℝ) : Prop where
  m : Within 200 a.m ∧ k.m = value a.m
  r : ∀ i, Num.isFinite (a.pos i) = true ∧ |(value (a.pos i) : ℝ) - k.r i| ≤ |k.r i| / 2 ^ 53 ∧
    |k.r i| ≤ 2 ^ (200 : ℤ)
  v : ∀ i, Within 200 (a.vel i) ∧ k.v i = value (a.vel i)

/-- what one star can contribute to the total at most -/
noncomputable def KBody.weight (k : KBody ℝ) : ℝ :=
  max |k.m| (2 ^ (-100 : ℤ)) * (sizeOf3 k.r * sizeOf3 k.v)

theorem NearBody.pos_mod {a : Body Float64} {k : KBody ℝ} (h : NearBody a k) : Mod (sizeOf3 k.r) :=
  sizeOf3_mod fun i => (h.r i).2.2

theorem NearBody.vel_mod {a : Body Float64} {k : KBody ℝ} (h : NearBody a k) : Mod (sizeOf3 k.v) :=
  sizeOf3_mod fun i => by rw [(h.v i).2]; exact (h.v i).1.real

theorem NearBody.mass_mod {a : Body Float64} {k : KBody ℝ} (h : NearBody a k) :
    Mod (max |k.m| (2 ^ (-100 : ℤ))) := by
  rw [h.m.2]
  exact ⟨le_max_right _ _, max_le (h.m.1.real.trans (zpow_le_zpow_right₀ (by norm_num) (by norm_num)))
    (zpow_le_zpow_right₀ (by norm_num) (by norm_num))⟩

theorem NearBody.pos_fuzzy {a : Body Float64} {k : KBody ℝ} (h : NearBody a k) (i : Fin 3) :
    Fuzzy (a.pos i) (k.r i) (sizeOf3 k.r) 1 := by
  refine ⟨(h.r i).1, zero_le_one, abs_le_sizeOf3 _ i, (h.r i).2.1.trans ?_⟩
  rw [div_eq_inv_mul, one_div]
  exact mul_le_mul_of_nonneg_left (abs_le_sizeOf3 _ i) (by positivity)

theorem NearBody.vel_fuzzy {a : Body Float64} {k : KBody ℝ} (h : NearBody a k) (i : Fin 3) :
    Fuzzy (a.vel i) (k.v i) (sizeOf3 k.v) 0 := by
  rw [(h.v i).2]
  refine .self (h.v i).1.1 ?_
  rw [← (h.v i).2]
  exact abs_le_sizeOf3 _ i

theorem NearBody.mass_fuzzy {a : Body Float64} {k : KBody ℝ} (h : NearBody a k) :
    Fuzzy a.m k.m (max |k.m| (2 ^ (-100 : ℤ))) 0 := by
  rw [h.m.2]
  exact .self h.m.1.1 (le_max_left _ _)

/-- the terms of the totals of a star -/
theorem NearBody.star_fuzzy {a : Body Float64} {k : KBody ℝ} (h : NearBody a k) :
    Fuzzy (a.m *. a.jx) ((k.m • k.L) 0) (2 * k.weight) 8 ∧
      Fuzzy (a.m *. a.jy) ((k.m • k.L) 1) (2 * k.weight) 8 ∧
      Fuzzy (a.m *. a.jz) ((k.m • k.L) 2) (2 * k.weight) 8 := by
  have hp := h.pos_fuzzy
  have hv := fun i => (h.vel_fuzzy i).mono le_rfl (zero_le_one (α := ℝ))
  have hm := h.mass_fuzzy
  have e : max |k.m| (2 ^ (-100 : ℤ)) * (sizeOf3 k.r * sizeOf3 k.v + sizeOf3 k.r * sizeOf3 k.v)
      = 2 * k.weight := by
    unfold KBody.weight
    ring
  have n : (2 * 1 + 6 : ℝ) = 8 := by norm_num
  refine ⟨?_, ?_, ?_⟩
  · have := (cross_fuzzy (hp 1) (hp 2) (hv 1) (hv 2) hm h.mass_mod h.pos_mod h.vel_mod (by norm_num)).1
    rw [e, n] at this
    exact this
  · have := (cross_fuzzy (hp 2) (hp 0) (hv 2) (hv 0) hm h.mass_mod h.pos_mod h.vel_mod (by norm_num)).1
    rw [e, n] at this
    exact this
  · have := (cross_fuzzy (hp 0) (hp 1) (hv 0) (hv 1) hm h.mass_mod h.pos_mod h.vel_mod (by norm_num)).1
    rw [e, n] at this
    exact this

/-- coordinates that were rounded once and then rotated -/
theorem rotated_near {R : Matrix (Fin 3) (Fin 3) ℝ} (hR : R ∈ specialOrthogonalGroup (Fin 3) ℝ)
    {v w : Fin 3 → Float64} (h : RotatedTo R v w) {r : Fin 3 → ℝ}
    (hr : ∀ i, |(value (v i) : ℝ) - r i| ≤ |r i| / 2 ^ 53) (i : Fin 3) :
    Fuzzy (w i) ((R *ᵥ r) i) (sizeOf3 r) 68 := by
  have f := h.fuzzy hR i
  have h0 := le_sizeOf3 r
  have hd := mulVec_le (so3_entry hR) ((fun j => (value (v j) : ℝ)) - r) i
  rw [mulVec_sub] at hd
  simp only [Pi.sub_apply] at hd
  have h1 : |(value (v 0) : ℝ) - r 0| + |(value (v 1) : ℝ) - r 1| + |(value (v 2) : ℝ) - r 2|
      ≤ 1 / 2 ^ 53 * sizeOf3 r := by
    have := hr 0
    have := hr 1
    have := hr 2
    norm_num at *
    linarith
  have h2 : sizeOf3 (fun j => (value (v j) : ℝ)) ≤ (1 + 1 / 2 ^ 53) * sizeOf3 r := by
    refine max_le ?_ ?_
    · have q : ∀ j, |(value (v j) : ℝ)| ≤ |(value (v j) : ℝ) - r j| + |r j| := fun j => by
        have := abs_sub_abs_le_abs_sub (value (v j) : ℝ) (r j)
        linarith
      have := q 0
      have := q 1
      have := q 2
      linarith
    · have : (2 : ℝ) ^ (-100 : ℤ) ≤ sizeOf3 r := le_max_right _ _
      have h3 : 0 ≤ sizeOf3 r := le_trans (zpow_pos (by norm_num) _).le this
      refine this.trans ?_
      nlinarith
  refine ⟨f.fin, by norm_num, (mulVec_le (so3_entry hR) r i).trans h0, ?_⟩
  have h3 := f.err
  have h4 : |(value (w i) : ℝ) - (R *ᵥ r) i| ≤ |(value (w i) : ℝ) - (R *ᵥ fun j => (value (v j) : ℝ)) i|
      + |(R *ᵥ fun j => (value (v j) : ℝ)) i - (R *ᵥ r) i| := abs_sub_le _ _ _
  have h5 : 0 ≤ sizeOf3 r := le_trans (zpow_pos (by norm_num) _).le (le_max_right _ (2 ^ (-100 : ℤ)))
  have h6 := mul_le_mul_of_nonneg_left h2 (by norm_num : (0 : ℝ) ≤ 65 / 2 ^ 53)
  norm_num at *
  linarith

/-- the angular momentum of a rotated particle about the z axis, as computed -/
theorem rotated_jz {R : Matrix (Fin 3) (Fin 3) ℝ} (hR : R ∈ specialOrthogonalGroup (Fin 3) ℝ)
    {a a' : Body Float64} {k : KBody ℝ} (h : NearBody a k) (hp : RotatedTo R a.pos a'.pos)
    (hv : RotatedTo R a.vel a'.vel) :
    Fuzzy a'.jz ((R *ᵥ k.L) 2) (sizeOf3 k.r * sizeOf3 k.v + sizeOf3 k.r * sizeOf3 k.v) 140 := by
  have p := rotated_near hR hp fun i => (h.r i).2.1
  have v := rotated_near (r := k.v) hR hv fun i => by
    rw [(h.v i).2, sub_self, abs_zero]
    positivity
  have hP := h.pos_mod
  have hV := h.vel_mod
  have hS : Scale (sizeOf3 k.r * sizeOf3 k.v) := by
    refine ⟨le_trans ?_ (hP.mul hV).1, (hP.mul hV).2.trans ?_⟩ <;>
      exact zpow_le_zpow_right₀ (by norm_num) (by norm_num)
  have h1 := (p 0).mul (v 1) (by norm_num) (by norm_num) hS
  have h2 := (p 1).mul (v 0) (by norm_num) (by norm_num) hS
  have h3 := h1.sub h2 (by norm_num)
    ((hP.double hV).2.trans (zpow_le_zpow_right₀ (by norm_num) (by norm_num)))
  have e : (R *ᵥ k.L) 2 = (R *ᵥ k.r) 0 * (R *ᵥ k.v) 1 - (R *ᵥ k.r) 1 * (R *ᵥ k.v) 0 := by
    rw [KBody.L, ← so3_cross hR]
    simp [crossProduct]
  rw [e]
  have n : (68 + 68 + 2 + 2 : ℝ) = 140 := by norm_num
  rw [n] at h3
  exact h3

theorem tiny_sq {V : ℝ} (h : Mod V) : 8 * (tiny : ℝ) ≤ V * V / 2 ^ 53 := by
  have h1 := (h.mul h).1
  have h2 := tiny_scale (M := V * V) ⟨le_trans (zpow_le_zpow_right₀ (by norm_num) (by norm_num)) h1,
    (h.mul h).2.trans (zpow_le_zpow_right₀ (by norm_num) (by norm_num))⟩
  linarith

/-- the specific energy of a rotated particle, as computed -/
theorem rotated_energy {R : Matrix (Fin 3) (Fin 3) ℝ} (hR : R ∈ specialOrthogonalGroup (Fin 3) ℝ)
    {a a' : Body Float64} {k : KBody ℝ} (h : NearBody a k) (hp : RotatedTo R a.pos a'.pos)
    (hv : RotatedTo R a.vel a'.vel) {φ η : ℝ} (hpot : Within 980 a'.pot)
    (hφ : |(value a'.pot : ℝ) - φ| ≤ η) :
    ModerateCoords a' ∧ Num.isFinite a'.energy = true ∧
      |(value a'.energy : ℝ) - (k.kin + φ)| ≤ sizeOf3 k.v * sizeOf3 k.v / 2 ^ 45 + |φ| / 2 ^ 50 + 2 * η := by
  have p := rotated_near hR hp fun i => (h.r i).2.1
  have v := rotated_near (r := k.v) hR hv fun i => by
    rw [(h.v i).2, sub_self, abs_zero]
    positivity
  have hP := h.pos_mod
  have hV := h.vel_mod
  have small : ∀ {c : Float64} {t S : ℝ}, Mod S → Fuzzy c t S 68 → Within 490 c := by
    intro c t S hS hc
    refine ⟨hc.fin, ?_⟩
    rw [← Rat.cast_le (K := ℝ), Rat.cast_abs, Rat.cast_zpow, Rat.cast_ofNat]
    refine hc.size.trans ?_
    have h1 : (1 + 68 / 2 ^ 53 : ℝ) * S ≤ 2 * S := mul_le_mul_of_nonneg_right (by norm_num) hS.pos.le
    have h2 := mul_le_mul_of_nonneg_left hS.2 (by norm_num : (0 : ℝ) ≤ 2)
    have h3 : (2 : ℝ) * 2 ^ (202 : ℤ) ≤ 2 ^ (490 : ℤ) := by
      rw [← zpow_one_add₀ (by norm_num)]
      exact zpow_le_zpow_right₀ (by norm_num) (by norm_num)
    exact h1.trans (h2.trans h3)
  have mc : ModerateCoords a' := ⟨small hP (p 0), small hP (p 1), small hV (v 0), small hV (v 1),
    small hV (v 2), hpot⟩
  obtain ⟨f, e⟩ := energy_err mc
  refine ⟨mc, f, ?_⟩
  have ht := tiny_sq hV
  have hV0 := hV.pos
  have hk : k.kin = ((R *ᵥ k.v) 0 ^ 2 + (R *ᵥ k.v) 1 ^ 2 + (R *ᵥ k.v) 2 ^ 2) / 2 := by
    unfold KBody.kin
    rw [← so3_dot hR k.v k.v, dot_self]
    ring
  have hη : 0 ≤ η := (abs_nonneg _).trans hφ
  have v0 := v 0
  have v1 := v 1
  have v2 := v 2
  generalize (R *ᵥ k.v) 0 = t0 at *
  generalize (R *ᵥ k.v) 1 = t1 at *
  generalize (R *ᵥ k.v) 2 = t2 at *
  generalize sizeOf3 k.v = V at *
  have sq1 : ∀ {c : Float64} {t : ℝ}, Fuzzy c t V 68 →
      |(value c : ℝ) ^ 2 - t ^ 2| ≤ 137 / 2 ^ 53 * (V * V) ∧ t ^ 2 ≤ V * V := by
    intro c t hc
    have h1 := hc.err
    have h2 := hc.size
    have h3 := hc.le
    have hVV : 0 ≤ V * V := mul_nonneg hV0.le hV0.le
    constructor
    · rw [show (value c : ℝ) ^ 2 - t ^ 2 = (value c - t) * (value c + t) by ring, abs_mul]
      have h4 : |(value c : ℝ) + t| ≤ (2 + 68 / 2 ^ 53) * V :=
        (abs_add_le _ _).trans (by linarith)
      refine (mul_le_mul h1 h4 (abs_nonneg _) (by positivity)).trans ?_
      have : 68 / 2 ^ 53 * V * ((2 + 68 / 2 ^ 53) * V) = 68 / 2 ^ 53 * (2 + 68 / 2 ^ 53) * (V * V) := by ring
      rw [this]
      exact mul_le_mul_of_nonneg_right (by norm_num) hVV
    · rw [← sq_abs, sq]
      exact mul_le_mul h3 h3 (abs_nonneg _) hV0.le
  obtain ⟨q0, r0⟩ := sq1 v0
  obtain ⟨q1, r1⟩ := sq1 v1
  obtain ⟨q2, r2⟩ := sq1 v2
  have hK : |exactKinetic a'.vx a'.vy a'.vz - k.kin| ≤ 206 / 2 ^ 53 * (V * V) := by
    rw [hk, exactKinetic]
    change |((value (a'.vel 0) : ℝ) ^ 2 + (value (a'.vel 1) : ℝ) ^ 2 + (value (a'.vel 2) : ℝ) ^ 2) / 2 - _| ≤ _
    rw [abs_le] at *
    constructor <;> norm_num at * <;> linarith
  have hk0 : 0 ≤ k.kin := by rw [hk]; positivity
  have hk1 : k.kin ≤ 3 / 2 * (V * V) := by rw [hk]; linarith
  have hK' := (abs_le.1 hK).2
  unfold trueE errE at e
  have hpa : |(value a'.pot : ℝ)| ≤ |φ| + η := by
    have := abs_sub_abs_le_abs_sub (value a'.pot : ℝ) φ
    linarith
  have hVV : 0 ≤ V * V := mul_nonneg hV0.le hV0.le
  have hφ0 := abs_nonneg φ
  have tri : |(value a'.energy : ℝ) - (k.kin + φ)|
      ≤ |(value a'.energy : ℝ) - (exactKinetic a'.vx a'.vy a'.vz + value a'.pot)|
        + (|exactKinetic a'.vx a'.vy a'.vz - k.kin| + |(value a'.pot : ℝ) - φ|) := by
    refine (abs_sub_le _ (exactKinetic a'.vx a'.vy a'.vz + value a'.pot) _).trans ?_
    refine add_le_add le_rfl ?_
    rw [add_sub_add_comm]
    exact abs_add_le _ _
  generalize |(value a'.energy : ℝ) - (exactKinetic a'.vx a'.vy a'.vz + value a'.pot)| = A at *
  generalize |(value a'.energy : ℝ) - (k.kin + φ)| = A2 at *
  generalize |(value a'.pot : ℝ) - φ| = A3 at *
  generalize |(value a'.pot : ℝ)| = A4 at *
  generalize |exactKinetic a'.vx a'.vy a'.vz - k.kin| = A5 at *
  generalize exactKinetic a'.vx a'.vy a'.vz = A6 at *
  generalize V * V = S at *
  generalize |φ| = A7 at *
  clear sq1 small
  norm_num at *
  linarith

/-! ## The direction of the total -/

/-- the third row of a rotation that puts `J` on the z axis -/
theorem third_row {R : Matrix (Fin 3) (Fin 3) ℝ} (hR : R ∈ specialOrthogonalGroup (Fin 3) ℝ)
    {J : Fin 3 → ℝ} {j : ℝ} (hj : 0 < j) (h : R *ᵥ J = ![0, 0, j]) (L : Fin 3 → ℝ) :
    (R *ᵥ L) 2 = (J 0 * L 0 + J 1 * L 1 + J 2 * L 2) / j := by
  have h1 := so3_dot hR J L
  rw [h] at h1
  simp only [dotProduct, Fin.sum_univ_three, cons_val_zero, cons_val_one, cons_val, zero_mul, zero_add] at h1
  rw [eq_div_iff hj.ne', mul_comm]
  exact h1

/-- the part of a vector along two directions that are near -/
theorem along_near {J I L : Fin 3 → ℝ} {d : ℝ} (hd : 0 ≤ d) (h : ∀ i, |I i - J i| ≤ d)
    (hJ : 4 * d ≤ euclid J) (hJ0 : 0 < euclid J) :
    0 < euclid I ∧ |(I 0 * L 0 + I 1 * L 1 + I 2 * L 2) / euclid I
        - (J 0 * L 0 + J 1 * L 1 + J 2 * L 2) / euclid J|
      ≤ 6 * d / euclid J * (|L 0| + |L 1| + |L 2|) := by
  have h1 := abs_le.1 (euclid_sub I J hd h)
  have hI : euclid J / 2 ≤ euclid I := by linarith [h1.1]
  have hI0 : 0 < euclid I := by linarith
  refine ⟨hI0, ?_⟩
  have hJle : ∀ i, |J i| ≤ euclid J := by
    intro i
    apply Real.abs_le_sqrt
    fin_cases i
    · show J 0 ^ 2 ≤ _
      nlinarith [sq_nonneg (J 1), sq_nonneg (J 2)]
    · show J 1 ^ 2 ≤ _
      nlinarith [sq_nonneg (J 0), sq_nonneg (J 2)]
    · show J 2 ^ 2 ≤ _
      nlinarith [sq_nonneg (J 1), sq_nonneg (J 0)]
  have h2 := euclid_sub I J hd h
  have term : ∀ i, |I i / euclid I - J i / euclid J| ≤ 6 * d / euclid J := by
    intro i
    have e : I i / euclid I - J i / euclid J
        = ((I i - J i) * euclid J + J i * (euclid J - euclid I)) / (euclid I * euclid J) := by
      field_simp
      ring
    rw [e, abs_div, abs_of_pos (mul_pos hI0 hJ0), div_le_div_iff₀ (mul_pos hI0 hJ0) hJ0]
    have e1 : |(I i - J i) * euclid J| ≤ d * euclid J := by
      rw [abs_mul, abs_of_pos hJ0]
      exact mul_le_mul_of_nonneg_right (h i) hJ0.le
    have e2 : |J i * (euclid J - euclid I)| ≤ euclid J * (2 * d) := by
      rw [abs_mul, abs_sub_comm (euclid J)]
      exact mul_le_mul (hJle i) h2 (abs_nonneg _) hJ0.le
    have e3 := (abs_add_le ((I i - J i) * euclid J) (J i * (euclid J - euclid I))).trans (add_le_add e1 e2)
    have e4 := mul_le_mul_of_nonneg_right e3 hJ0.le
    have e5 : d * euclid J * (euclid J / 2) ≤ d * euclid J * euclid I :=
      mul_le_mul_of_nonneg_left hI (mul_nonneg hd hJ0.le)
    nlinarith
  have e : (I 0 * L 0 + I 1 * L 1 + I 2 * L 2) / euclid I - (J 0 * L 0 + J 1 * L 1 + J 2 * L 2) / euclid J
      = (I 0 / euclid I - J 0 / euclid J) * L 0 + (I 1 / euclid I - J 1 / euclid J) * L 1
        + (I 2 / euclid I - J 2 / euclid J) * L 2 := by
    ring
  have q : ∀ i, |(I i / euclid I - J i / euclid J) * L i| ≤ 6 * d / euclid J * |L i| := by
    intro i
    rw [abs_mul]
    exact mul_le_mul_of_nonneg_right (term i) (abs_nonneg _)
  rw [e]
  refine (abs_add_le _ _).trans ((add_le_add ((abs_add_le _ _).trans (add_le_add (q 0) (q 1))) (q 2)).trans ?_)
  rw [mul_add, mul_add]

/-- the angular momentum is not larger than the sizes of position and velocity -/
theorem cross_size (k : KBody ℝ) : |k.L 0| + |k.L 1| + |k.L 2| ≤ sizeOf3 k.r * sizeOf3 k.v := by
  have h1 := le_sizeOf3 k.r
  have h2 := le_sizeOf3 k.v
  have h3 : (|k.r 0| + |k.r 1| + |k.r 2|) * (|k.v 0| + |k.v 1| + |k.v 2|) ≤ sizeOf3 k.r * sizeOf3 k.v :=
    mul_le_mul h1 h2 (by positivity) ((by positivity : (0 : ℝ) ≤ |k.r 0| + |k.r 1| + |k.r 2|).trans h1)
  refine le_trans ?_ h3
  have e0 : k.L 0 = k.r 1 * k.v 2 - k.r 2 * k.v 1 := by simp [KBody.L, crossProduct]
  have e1 : k.L 1 = k.r 2 * k.v 0 - k.r 0 * k.v 2 := by simp [KBody.L, crossProduct]
  have e2 : k.L 2 = k.r 0 * k.v 1 - k.r 1 * k.v 0 := by simp [KBody.L, crossProduct]
  rw [e0, e1, e2]
  have q : ∀ p1 p2 q1 q2 : ℝ, |p1 * q1 - p2 * q2| ≤ |p1| * |q1| + |p2| * |q2| := by
    intro p1 p2 q1 q2
    rw [← abs_mul, ← abs_mul]
    exact abs_sub _ _
  have := q (k.r 1) (k.r 2) (k.v 2) (k.v 1)
  have := q (k.r 2) (k.r 0) (k.v 0) (k.v 2)
  have := q (k.r 0) (k.r 1) (k.v 1) (k.v 0)
  have := mul_nonneg (abs_nonneg (k.r 0)) (abs_nonneg (k.v 0))
  have := mul_nonneg (abs_nonneg (k.r 1)) (abs_nonneg (k.v 1))
  have := mul_nonneg (abs_nonneg (k.r 2)) (abs_nonneg (k.v 2))
  nlinarith

end GChop
