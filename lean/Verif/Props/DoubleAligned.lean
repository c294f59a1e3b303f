import Verif.Props.DoubleAlign

/-!
# C82: the galaxy returned by `star_align` is star aligned, in double precision
-/

namespace GChop
open Flt Matrix

/-! ## Sizes -/

/-- sizes of masses, positions and velocities -/
def Mod (P : ℝ) : Prop := (2 : ℝ) ^ (-100 : ℤ) ≤ P ∧ P ≤ 2 ^ (202 : ℤ)

theorem Mod.pos {P : ℝ} (h : Mod P) : 0 < P := lt_of_lt_of_le (zpow_pos (by norm_num) _) h.1

theorem Mod.mul {P V : ℝ} (hP : Mod P) (hV : Mod V) :
    (2 : ℝ) ^ (-200 : ℤ) ≤ P * V ∧ P * V ≤ 2 ^ (404 : ℤ) := by
  constructor
  · refine le_trans ?_ (mul_le_mul hP.1 hV.1 (zpow_pos (by norm_num) _).le hP.pos.le)
    rw [← zpow_add₀ (by norm_num)]
    norm_num
  · refine (mul_le_mul hP.2 hV.2 hV.pos.le (zpow_pos (by norm_num) _).le).trans ?_
    rw [← zpow_add₀ (by norm_num)]
    norm_num

theorem Mod.double {P V : ℝ} (hP : Mod P) (hV : Mod V) :
    (2 : ℝ) ^ (-200 : ℤ) ≤ P * V + P * V ∧ P * V + P * V ≤ 2 ^ (405 : ℤ) := by
  have h := hP.mul hV
  constructor
  · exact h.1.trans (le_add_of_nonneg_left (mul_pos hP.pos hV.pos).le)
  · refine (add_le_add h.2 h.2).trans (le_of_eq ?_)
    rw [show (405 : ℤ) = 404 + 1 by norm_num, zpow_add_one₀ (by norm_num)]
    ring

theorem Mod.triple {W P V : ℝ} (hW : Mod W) (hP : Mod P) (hV : Mod V) :
    Scale (W * (P * V + P * V)) ∧ W * (P * V + P * V) ≤ 2 ^ (700 : ℤ) := by
  have h := hP.double hV
  have h0 : (0 : ℝ) < 2 ^ (-200 : ℤ) := zpow_pos (by norm_num) _
  have up : W * (P * V + P * V) ≤ 2 ^ (700 : ℤ) := by
    refine (mul_le_mul hW.2 h.2 (h0.le.trans h.1) (zpow_pos (by norm_num) _).le).trans ?_
    rw [← zpow_add₀ (by norm_num)]
    exact zpow_le_zpow_right₀ (by norm_num) (by norm_num)
  refine ⟨⟨?_, up.trans (zpow_le_zpow_right₀ (by norm_num) (by norm_num))⟩, up⟩
  refine le_trans ?_ (mul_le_mul hW.1 h.1 h0.le hW.pos.le)
  rw [← zpow_add₀ (by norm_num)]
  exact zpow_le_zpow_right₀ (by norm_num) (by norm_num)

/-! ## One star -/

/-- one component of a cross product, times the mass -/
theorem cross_fuzzy {y z vy vz m : Float64} {ty tz uy uz c W P V k : ℝ} (hy : Fuzzy y ty P k)
    (hz : Fuzzy z tz P k) (hvy : Fuzzy vy uy V k) (hvz : Fuzzy vz uz V k) (hm : Fuzzy m c W 0)
    (hW : Mod W) (hP : Mod P) (hV : Mod V) (hk : k ≤ 100) :
    Fuzzy (m *. ((y *. vz) -. (z *. vy))) (c * (ty * uz - tz * uy)) (W * (P * V + P * V)) (2 * k + 6) ∧
    Fuzzy (((y *. vz) -. (z *. vy)) *. m) (c * (ty * uz - tz * uy)) (W * (P * V + P * V)) (2 * k + 6) := by
  have hS : Scale (P * V) := by
    refine ⟨le_trans ?_ (hP.mul hV).1, (hP.mul hV).2.trans ?_⟩ <;>
      exact zpow_le_zpow_right₀ (by norm_num) (by norm_num)
  have hk2 : k ≤ 2 ^ 20 := by norm_num; linarith
  have hk0 := hy.nonneg
  have h1 := hy.mul hvz hk2 hk2 hS
  have h2 := hz.mul hvy hk2 hk2 hS
  have h3 := h1.sub h2 (by norm_num; linarith)
    ((hP.double hV).2.trans (zpow_le_zpow_right₀ (by norm_num) (by norm_num)))
  have hT := (hW.triple hP hV).1
  constructor
  · exact (hm.mul h3 (by norm_num) (by norm_num; linarith) hT).mono le_rfl (by linarith)
  · have := h3.mul hm (by norm_num; linarith) (by norm_num) (by rw [mul_comm]; exact hT)
    rw [mul_comm (P * V + P * V), mul_comm _ c] at this
    exact this.mono le_rfl (by linarith)

/-! ## Sums over the stars -/

/-! ## The statement -/

namespace Body

/-- the position as real numbers -/
def realPos (a : Body Float64) : Fin 3 → ℝ := fun i => (value (a.pos i) : ℝ)
/-- the velocity as real numbers -/
def realVel (a : Body Float64) : Fin 3 → ℝ := fun i => (value (a.vel i) : ℝ)

/-- the exact angular momentum, with the mass -/
noncomputable def realL (a : Body Float64) : Fin 3 → ℝ :=
  (value a.m : ℝ) • crossProduct a.realPos a.realVel

end Body

/-- the sum of the sizes of the coordinates, but not less than `2^-100` -/
noncomputable def sizeOf3 (v : Fin 3 → ℝ) : ℝ := max (|v 0| + |v 1| + |v 2|) (2 ^ (-100 : ℤ))

/-- what one star can contribute to the total at most -/
noncomputable def Body.weight (a : Body Float64) : ℝ :=
  max |(value a.m : ℝ)| (2 ^ (-100 : ℤ)) * (sizeOf3 a.realPos * sizeOf3 a.realVel)

/-- Euclidean length -/
noncomputable def euclid (v : Fin 3 → ℝ) : ℝ := Real.sqrt (v 0 ^ 2 + v 1 ^ 2 + v 2 ^ 2)

theorem sizeOf3_mod {v : Fin 3 → ℝ} (h : ∀ i, |v i| ≤ 2 ^ (200 : ℤ)) : Mod (sizeOf3 v) := by
  refine ⟨le_max_right _ _, max_le ?_ (zpow_le_zpow_right₀ (by norm_num) (by norm_num))⟩
  have e : (2 : ℝ) ^ (202 : ℤ) = 4 * 2 ^ (200 : ℤ) := by
    rw [show (202 : ℤ) = 2 + 200 by norm_num, zpow_add₀ (by norm_num)]
    norm_num
  rw [e]
  have h0 := h 0
  have h1 := h 1
  have h2 := h 2
  have hB : (0 : ℝ) < 2 ^ (200 : ℤ) := zpow_pos (by norm_num) _
  clear e
  generalize (2 : ℝ) ^ (200 : ℤ) = B at *
  linarith

theorem le_sizeOf3 (v : Fin 3 → ℝ) : |v 0| + |v 1| + |v 2| ≤ sizeOf3 v := le_max_left _ _

theorem abs_le_sizeOf3 (v : Fin 3 → ℝ) (i : Fin 3) : |v i| ≤ sizeOf3 v := by
  refine le_trans ?_ (le_sizeOf3 v)
  have h0 := abs_nonneg (v 0)
  have h1 := abs_nonneg (v 1)
  have h2 := abs_nonneg (v 2)
  fin_cases i
  · show |v 0| ≤ _
    linarith
  · show |v 1| ≤ _
    linarith
  · show |v 2| ≤ _
    linarith

/-- a mass, a position and a velocity of moderate size -/
def Body.Ordinary (a : Body Float64) : Prop :=
  Within 200 a.m ∧ ∀ i, Within 200 (a.pos i) ∧ Within 200 (a.vel i)

theorem mass_mod {a : Body Float64} (h : a.Ordinary) : Mod (max |(value a.m : ℝ)| (2 ^ (-100 : ℤ))) :=
  ⟨le_max_right _ _, max_le (h.1.real.trans (zpow_le_zpow_right₀ (by norm_num) (by norm_num)))
    (zpow_le_zpow_right₀ (by norm_num) (by norm_num))⟩

/-- a matrix with entries of size at most one -/
theorem mulVec_le {R : Matrix (Fin 3) (Fin 3) ℝ} (h : ∀ i j, |R i j| ≤ 1) (v : Fin 3 → ℝ) (i : Fin 3) :
    |(R *ᵥ v) i| ≤ |v 0| + |v 1| + |v 2| := by
  simp only [mulVec, dotProduct, Fin.sum_univ_three]
  have q : ∀ j, |R i j * v j| ≤ |v j| := by
    intro j
    rw [abs_mul]
    exact mul_le_of_le_one_left (abs_nonneg _) (h i j)
  refine (abs_add_le _ _).trans (add_le_add ((abs_add_le _ _).trans (add_le_add (q 0) (q 1))) (q 2))

/-- a rotated vector -/
theorem RotatedTo.fuzzy {R : Matrix (Fin 3) (Fin 3) ℝ} (hR : R ∈ specialOrthogonalGroup (Fin 3) ℝ)
    {v w : Fin 3 → Float64} (h : RotatedTo R v w) (i : Fin 3) :
    Fuzzy (w i) ((R *ᵥ fun j => (value (v j) : ℝ)) i) (sizeOf3 fun j => (value (v j) : ℝ)) 65 := by
  refine ⟨(h i).1, by norm_num, (mulVec_le (so3_entry hR) _ i).trans (le_sizeOf3 fun j => (value (v j) : ℝ)), (h i).2.trans ?_⟩
  have h1 := le_sizeOf3 fun j => (value (v j) : ℝ)
  have h2 : (2 : ℝ) ^ (-100 : ℤ) ≤ sizeOf3 fun j => (value (v j) : ℝ) := le_max_right _ _
  have h3 : (2 : ℝ) ^ (-1070 : ℤ) ≤ 1 / 2 ^ 53 * 2 ^ (-100 : ℤ) := by
    rw [show (1 / 2 ^ 53 : ℝ) = 2 ^ (-53 : ℤ) by norm_num, ← zpow_add₀ (by norm_num)]
    exact zpow_le_zpow_right₀ (by norm_num) (by norm_num)
  have h4 := h3.trans (mul_le_mul_of_nonneg_left h2 (by norm_num))
  clear h2 h3
  generalize (2 : ℝ) ^ (-1070 : ℤ) = T at *
  generalize (sizeOf3 fun j => (value (v j) : ℝ)) = S at *
  norm_num at *
  linarith

/-- the terms of the totals of a star before the rotation -/
theorem star_fuzzy {a : Body Float64} (h : a.Ordinary) :
    Fuzzy (a.m *. a.jx) (a.realL 0) (2 * a.weight) 6 ∧ Fuzzy (a.m *. a.jy) (a.realL 1) (2 * a.weight) 6 ∧
      Fuzzy (a.m *. a.jz) (a.realL 2) (2 * a.weight) 6 := by
  have hp : ∀ i, Fuzzy (a.pos i) (a.realPos i) (sizeOf3 a.realPos) 0 := fun i =>
    .self (h.2 i).1.1 (abs_le_sizeOf3 a.realPos i)
  have hv : ∀ i, Fuzzy (a.vel i) (a.realVel i) (sizeOf3 a.realVel) 0 := fun i =>
    .self (h.2 i).2.1 (abs_le_sizeOf3 a.realVel i)
  have hm : Fuzzy a.m (value a.m) (max |(value a.m : ℝ)| (2 ^ (-100 : ℤ))) 0 :=
    .self h.1.1 (le_max_left _ _)
  have mP := sizeOf3_mod (v := a.realPos) fun i => (h.2 i).1.real
  have mV := sizeOf3_mod (v := a.realVel) fun i => (h.2 i).2.real
  have mM := mass_mod h
  have e : max |(value a.m : ℝ)| (2 ^ (-100 : ℤ)) * (sizeOf3 a.realPos * sizeOf3 a.realVel +
      sizeOf3 a.realPos * sizeOf3 a.realVel) = 2 * a.weight := by
    unfold Body.weight
    ring
  refine ⟨?_, ?_, ?_⟩
  · have := (cross_fuzzy (hp 1) (hp 2) (hv 1) (hv 2) hm mM mP mV (by norm_num)).1
    rw [e, mul_zero, zero_add] at this
    exact this
  · have := (cross_fuzzy (hp 2) (hp 0) (hv 2) (hv 0) hm mM mP mV (by norm_num)).1
    rw [e, mul_zero, zero_add] at this
    exact this
  · have := (cross_fuzzy (hp 0) (hp 1) (hv 0) (hv 1) hm mM mP mV (by norm_num)).1
    rw [e, mul_zero, zero_add] at this
    exact this

/-- the terms of the totals of a star after the rotation -/
theorem rotated_fuzzy {R : Matrix (Fin 3) (Fin 3) ℝ} (hR : R ∈ specialOrthogonalGroup (Fin 3) ℝ)
    {a a' : Body Float64} (h : a.Ordinary) (hp : RotatedTo R a.pos a'.pos) (hv : RotatedTo R a.vel a'.vel)
    (hm' : a'.m = a.m) :
    Fuzzy (a'.jx *. a'.m) ((R *ᵥ a.realL) 0) (2 * a.weight) 136 ∧
      Fuzzy (a'.jy *. a'.m) ((R *ᵥ a.realL) 1) (2 * a.weight) 136 ∧
      Fuzzy (a'.jz *. a'.m) ((R *ᵥ a.realL) 2) (2 * a.weight) 136 := by
  have p := hp.fuzzy hR
  have v := hv.fuzzy hR
  have hm : Fuzzy a'.m (value a.m) (max |(value a.m : ℝ)| (2 ^ (-100 : ℤ))) 0 := by
    rw [hm']
    exact .self h.1.1 (le_max_left _ _)
  have mP := sizeOf3_mod (v := a.realPos) fun i => (h.2 i).1.real
  have mV := sizeOf3_mod (v := a.realVel) fun i => (h.2 i).2.real
  have mM := mass_mod h
  have e : max |(value a.m : ℝ)| (2 ^ (-100 : ℤ)) * (sizeOf3 a.realPos * sizeOf3 a.realVel +
      sizeOf3 a.realPos * sizeOf3 a.realVel) = 2 * a.weight := by
    unfold Body.weight
    ring
  have eL : R *ᵥ a.realL = (value a.m : ℝ) • crossProduct (R *ᵥ a.realPos) (R *ᵥ a.realVel) := by
    rw [so3_cross hR, Body.realL, mulVec_smul]
  rw [eL]
  have n : (2 * 65 + 6 : ℝ) = 136 := by norm_num
  refine ⟨?_, ?_, ?_⟩
  · have := (cross_fuzzy (p 1) (p 2) (v 1) (v 2) hm mM mP mV (by norm_num)).2
    erw [e, n] at this
    exact this
  · have := (cross_fuzzy (p 2) (p 0) (v 2) (v 0) hm mM mP mV (by norm_num)).2
    erw [e, n] at this
    exact this
  · have := (cross_fuzzy (p 0) (p 1) (v 0) (v 1) hm mM mP mV (by norm_num)).2
    erw [e, n] at this
    exact this

/-- the exact total angular momentum of the stars -/
noncomputable def exactTotal (l : List (Body Float64)) : Fin 3 → ℝ := (l.map Body.realL).sum

theorem exactTotal_apply (l : List (Body Float64)) (i : Fin 3) :
    exactTotal l i = (l.map fun a => a.realL i).sum := by
  unfold exactTotal
  induction l with
  | nil => rfl
  | cons a l ih => simp only [List.map_cons, List.sum_cons, Pi.add_apply, ih]

theorem mulVec_exactTotal (R : Matrix (Fin 3) (Fin 3) ℝ) (l : List (Body Float64)) (i : Fin 3) :
    (R *ᵥ exactTotal l) i = (l.map fun a => (R *ᵥ a.realL) i).sum := by
  unfold exactTotal
  induction l with
  | nil => simp
  | cons a l ih =>
    simp only [List.map_cons, List.sum_cons, ← ih, mulVec_add, Pi.add_apply]

theorem Body.Ordinary.weight_le {a : Body Float64} (h : a.Ordinary) :
    0 ≤ a.weight ∧ 2 * a.weight ≤ 2 ^ (700 : ℤ) := by
  have mP := sizeOf3_mod (v := a.realPos) fun i => (h.2 i).1.real
  have mV := sizeOf3_mod (v := a.realVel) fun i => (h.2 i).2.real
  have mM := mass_mod h
  refine ⟨mul_nonneg mM.pos.le (mul_nonneg mP.pos.le mV.pos.le), ?_⟩
  refine le_trans (le_of_eq ?_) (mM.triple mP mV).2
  unfold Body.weight
  ring

theorem weights_le {l : List (Body Float64)} (h : ∀ a ∈ l, a.Ordinary) (hn : l.length ≤ 2 ^ 30) :
    0 ≤ (l.map fun a => 2 * a.weight).sum ∧ (l.map fun a => 2 * a.weight).sum ≤ 2 ^ (1000 : ℤ) := by
  constructor
  · apply List.sum_nonneg
    intro x hx
    obtain ⟨a, ha, rfl⟩ := List.mem_map.1 hx
    have := (h a ha).weight_le.1
    positivity
  · have h1 := List.sum_le_card_nsmul (l.map fun a => 2 * a.weight) ((2 : ℝ) ^ (700 : ℤ)) (by
      intro x hx
      obtain ⟨a, ha, rfl⟩ := List.mem_map.1 hx
      exact (h a ha).weight_le.2)
    rw [List.length_map, nsmul_eq_mul] at h1
    refine h1.trans ?_
    have h2 : (l.length : ℝ) ≤ 2 ^ (30 : ℤ) := by exact_mod_cast hn
    refine (mul_le_mul_of_nonneg_right h2 (zpow_pos (by norm_num) _).le).trans ?_
    rw [← zpow_add₀ (by norm_num)]
    exact zpow_le_zpow_right₀ (by norm_num) (by norm_num)

theorem sum_two_mul (l : List (Body Float64)) :
    (l.map fun a => 2 * a.weight).sum = 2 * (l.map Body.weight).sum := by
  induction l with
  | nil => simp
  | cons a l ih =>
    simp only [List.map_cons, List.sum_cons, ih]
    ring

theorem len_bound {x k : ℝ} (h : x ≤ 2 ^ 30) (hk : k ≤ 200) : k + 2 * x ≤ 2 ^ 50 := by
  norm_num at h ⊢
  linarith

/-- the totals before the rotation, as computed -/
theorem totals_before {sm : List Float64 → Float64} (hs : ∀ l, Added l (sm l))
    {l : List (Body Float64)} (h : ∀ a ∈ l, a.Ordinary) (hn : l.length ≤ 2 ^ 30) :
    Fuzzy (sm (l.map fun a => a.m *. a.jx)) (exactTotal l 0) (2 * (l.map Body.weight).sum)
      (6 + 2 * l.length) ∧
    Fuzzy (sm (l.map fun a => a.m *. a.jy)) (exactTotal l 1) (2 * (l.map Body.weight).sum)
      (6 + 2 * l.length) ∧
    Fuzzy (sm (l.map fun a => a.m *. a.jz)) (exactTotal l 2) (2 * (l.map Body.weight).sum)
      (6 + 2 * l.length) := by
  have hw := (weights_le h hn).2
  have h2 : (l.length : ℝ) ≤ 2 ^ 30 := by exact_mod_cast hn
  have h3 : (6 + 2 * l.length : ℝ) ≤ 2 ^ 50 := len_bound h2 (by norm_num)
  rw [exactTotal_apply, exactTotal_apply, exactTotal_apply, ← sum_two_mul]
  exact ⟨(hs _).fuzzy (by norm_num) l rfl (fun a ha => (star_fuzzy (h a ha)).1) h3 hw,
    (hs _).fuzzy (by norm_num) l rfl (fun a ha => (star_fuzzy (h a ha)).2.1) h3 hw,
    (hs _).fuzzy (by norm_num) l rfl (fun a ha => (star_fuzzy (h a ha)).2.2) h3 hw⟩

/-- the totals after the rotation, as computed -/
theorem totals_after {sm : List Float64 → Float64} (hs : ∀ l, Added l (sm l))
    {R : Matrix (Fin 3) (Fin 3) ℝ} (hR : R ∈ specialOrthogonalGroup (Fin 3) ℝ)
    {l : List (Body Float64)} {f : Body Float64 → Body Float64} (h : ∀ a ∈ l, a.Ordinary)
    (hn : l.length ≤ 2 ^ 30)
    (hf : ∀ a ∈ l, RotatedTo R a.pos (f a).pos ∧ RotatedTo R a.vel (f a).vel ∧ (f a).m = a.m) :
    Fuzzy (sm ((l.map f).map fun a => a.jx *. a.m)) ((R *ᵥ exactTotal l) 0)
      (2 * (l.map Body.weight).sum) (136 + 2 * l.length) ∧
    Fuzzy (sm ((l.map f).map fun a => a.jy *. a.m)) ((R *ᵥ exactTotal l) 1)
      (2 * (l.map Body.weight).sum) (136 + 2 * l.length) ∧
    Fuzzy (sm ((l.map f).map fun a => a.jz *. a.m)) ((R *ᵥ exactTotal l) 2)
      (2 * (l.map Body.weight).sum) (136 + 2 * l.length) := by
  have hw := (weights_le h hn).2
  have h2 : (l.length : ℝ) ≤ 2 ^ 30 := by exact_mod_cast hn
  have h3 : (136 + 2 * l.length : ℝ) ≤ 2 ^ 50 := len_bound h2 (by norm_num)
  have main := fun a ha => rotated_fuzzy hR (h a ha) (hf a ha).1 (hf a ha).2.1 (hf a ha).2.2
  simp only [mulVec_exactTotal, ← sum_two_mul, List.map_map]
  exact ⟨(hs _).fuzzy (by norm_num) l rfl (fun a ha => (main a ha).1) h3 hw,
    (hs _).fuzzy (by norm_num) l rfl (fun a ha => (main a ha).2.1) h3 hw,
    (hs _).fuzzy (by norm_num) l rfl (fun a ha => (main a ha).2.2) h3 hw⟩

/-! ## The check -/

theorem value_abs (a : Float64) : value (Num.abs a) = |value a| := by
  show value (Flt.abs a) = _
  cases a with
  | fin s m =>
    have := m.nonneg
    cases s
    · show m.val = |m.val|
      rw [abs_of_nonneg this]
    · show m.val = |-m.val|
      rw [abs_neg, abs_of_nonneg this]
  | inf s => cases s <;> rfl
  | nan => rfl

theorem finite_abs {a : Float64} (h : Num.isFinite a = true) : Num.isFinite (Num.abs a) = true := by
  cases a with
  | fin s m => rfl
  | inf s => cases s <;> cases h
  | nan => cases h

theorem le_of_value {a b : Float64} (ha : Num.isFinite a = true) (hb : Num.isFinite b = true)
    (h : value a ≤ value b) : (a <=. b) = true := by
  show Ext.le (toExt a) (toExt b) = true
  rw [toExt_value ha, toExt_value hb]
  simpa [Ext.le] using h

/-- the length of a vector, as computed -/
theorem length_fuzzy {X Y Z : Float64} (fX : Num.isFinite X = true) (fY : Num.isFinite Y = true)
    (fZ : Num.isFinite Z = true) {j : ℝ}
    (hj : j = Real.sqrt ((value X : ℝ) * value X + value Y * value Y + value Z * value Z))
    (h1 : (2 : ℝ) ^ (-210 : ℤ) ≤ j) (h2 : j ≤ 2 ^ (210 : ℤ)) :
    Fuzzy (Num.sqrt ((Num.sq X +. Num.sq Y) +. Num.sq Z)) j j 13 := by
  have j0 : 0 < j := lt_of_lt_of_le (zpow_pos (by norm_num) _) h1
  have qx := mul_self_nonneg (value X : ℝ)
  have qy := mul_self_nonneg (value Y : ℝ)
  have qz := mul_self_nonneg (value Z : ℝ)
  have jj : j * j = (value X : ℝ) * value X + value Y * value Y + value Z * value Z := by
    rw [hj, Real.mul_self_sqrt (add_nonneg (add_nonneg qx qy) qz)]
  have cl : (2 : ℝ) ^ (-900 : ℤ) ≤ j * j := by
    refine le_trans ?_ (mul_le_mul h1 h1 (zpow_pos (by norm_num) _).le j0.le)
    rw [← zpow_add₀ (by norm_num)]
    exact zpow_le_zpow_right₀ (by norm_num) (by norm_num)
  have cu : j * j ≤ 2 ^ (900 : ℤ) := by
    refine (mul_le_mul h2 h2 j0.le (zpow_pos (by norm_num) _).le).trans ?_
    rw [← zpow_add₀ (by norm_num)]
    exact zpow_le_zpow_right₀ (by norm_num) (by norm_num)
  have cS : Scale (j * j) := ⟨cl, big_le cu⟩
  clear h1 h2
  have bound : ∀ {x : ℝ}, x * x ≤ j * j → |x| ≤ j := fun h => abs_le_of_sq_le_sq (by nlinarith) j0.le
  have X2 : Fuzzy X (value X) j 0 := .self fX (bound (by rw [jj]; linarith))
  have Y2 : Fuzzy Y (value Y) j 0 := .self fY (bound (by rw [jj]; linarith))
  have Z2 : Fuzzy Z (value Z) j 0 := .self fZ (bound (by rw [jj]; linarith))
  have n20 : (0 : ℝ) ≤ 2 ^ 20 := by norm_num
  have q2 := ((X2.mul X2 n20 n20 cS).add' (Y2.mul Y2 n20 n20 cS)
    (by rw [abs_of_nonneg (by positivity), jj]; linarith) (by norm_num) cS.2).add' (Z2.mul Z2 n20 n20 cS)
    (by rw [← jj, abs_of_pos (mul_pos j0 j0)]) (by norm_num) cS.2
  rw [← jj] at q2
  have := (q2.mono le_rfl (by norm_num : _ ≤ (10 : ℝ))).sqrt (by norm_num) cl cu
  rw [Real.sqrt_mul_self j0.le] at this
  exact this.mono le_rfl (by norm_num)

/-- `np.allclose(Jz, J)` for a vector that is nearly on the z axis -/
theorem aligned_isclose {x y z rtol atol : Float64} {T : ℝ} (fx : Num.isFinite x = true)
    (fy : Num.isFinite y = true) (fz : Num.isFinite z = true) (hT1 : (2 : ℝ) ^ (-200 : ℤ) ≤ T)
    (hT2 : T ≤ 2 ^ (202 : ℤ)) (hx : |(value x : ℝ)| ≤ 1 / 2 ^ 20 * T) (hy : |(value y : ℝ)| ≤ 1 / 2 ^ 20 * T)
    (hz : |(value z : ℝ) - T| ≤ 1 / 2 ^ 20 * T)
    (fr : Num.isFinite rtol = true) (hr1 : 1 / 2 ^ 17 ≤ value rtol) (hr2 : value rtol ≤ 1)
    (fa : Num.isFinite atol = true) (ha1 : 0 ≤ value atol) (ha2 : value atol ≤ 1) :
    Np.isclose rtol atol z (Num.sqrt ((Num.sq x +. Num.sq y) +. Num.sq z)) = true := by
  have T0 : 0 < T := lt_of_lt_of_le (zpow_pos (by norm_num) _) hT1
  obtain ⟨w, hw⟩ : ∃ w, w = Real.sqrt ((value x : ℝ) * value x + value y * value y + value z * value z) :=
    ⟨_, rfl⟩
  have w0 : 0 ≤ w := by rw [hw]; exact Real.sqrt_nonneg _
  have ww : w * w = (value x : ℝ) * value x + value y * value y + value z * value z := by
    rw [hw, Real.mul_self_sqrt (add_nonneg (add_nonneg (mul_self_nonneg _) (mul_self_nonneg _))
      (mul_self_nonneg _))]
  obtain ⟨z1, z2⟩ := abs_le.1 hz
  have z0 : (0 : ℝ) ≤ value z := by
    have : 1 / 2 ^ 20 * T ≤ 1 * T := mul_le_mul_of_nonneg_right (by norm_num) T0.le
    linarith
  -- the length of the vector
  have hwz : (value z : ℝ) ≤ w := by
    rw [hw]
    refine (le_abs_self _).trans (Real.abs_le_sqrt ?_)
    nlinarith [mul_self_nonneg (value x : ℝ), mul_self_nonneg (value y : ℝ)]
  have hw1 : (1 - 1 / 2 ^ 20) * T ≤ w := by linarith
  have hw2 : w ≤ (1 + 3 / 2 ^ 20) * T := by
    rw [hw, Real.sqrt_le_left (by positivity)]
    have q : ∀ {v c : ℝ}, |v| ≤ c → v * v ≤ c * c := by
      intro v c h
      rw [← abs_mul_abs_self]
      exact mul_le_mul h h (abs_nonneg _) ((abs_nonneg _).trans h)
    have hz' : |(value z : ℝ)| ≤ (1 + 1 / 2 ^ 20) * T := by
      rw [abs_of_nonneg z0]
      linarith
    have a1 := q hx
    have a2 := q hy
    have a3 := q hz'
    have : 0 ≤ T * T := by positivity
    norm_num at a1 a2 a3 ⊢
    nlinarith
  have hd : |(value z : ℝ) - w| ≤ 4 / 2 ^ 20 * T := by
    rw [abs_sub_comm, abs_of_nonneg (by linarith)]
    linarith
  -- the length as computed
  have b1 : (2 : ℝ) ^ (-210 : ℤ) ≤ w := by
    have : (2 : ℝ) ^ (-210 : ℤ) ≤ 1 / 2 * 2 ^ (-200 : ℤ) := by
      rw [show (1 / 2 : ℝ) = 2 ^ (-1 : ℤ) by norm_num, ← zpow_add₀ (by norm_num)]
      exact zpow_le_zpow_right₀ (by norm_num) (by norm_num)
    refine this.trans ((mul_le_mul_of_nonneg_left hT1 (by norm_num)).trans (le_trans ?_ hw1))
    exact mul_le_mul_of_nonneg_right (by norm_num) T0.le
  have b2 : w ≤ 2 ^ (210 : ℤ) := by
    have : 2 * (2 : ℝ) ^ (202 : ℤ) ≤ 2 ^ (210 : ℤ) := by
      nth_rewrite 1 [show (2 : ℝ) = 2 ^ (1 : ℤ) by norm_num]
      rw [← zpow_add₀ (by norm_num)]
      exact zpow_le_zpow_right₀ (by norm_num) (by norm_num)
    refine le_trans (hw2.trans ?_) ((mul_le_mul_of_nonneg_left hT2 (by norm_num)).trans this)
    exact mul_le_mul_of_nonneg_right (by norm_num) T0.le
  have wp : 0 < w := lt_of_lt_of_le (zpow_pos (by norm_num) _) b1
  have J := length_fuzzy fx fy fz hw b1 b2
  generalize Num.sqrt ((Num.sq x +. Num.sq y) +. Num.sq z) = c at *
  -- the left-hand side
  have hzw : |(value z : ℝ)| ≤ w := by
    rw [abs_of_nonneg z0]
    exact hwz
  have Zf : Fuzzy z (value z) w 13 := (Fuzzy.self fz hzw).mono le_rfl (by norm_num)
  have bw : w + w ≤ 2 ^ (1000 : ℤ) := by
    refine (add_le_add b2 b2).trans ?_
    rw [← two_mul]
    nth_rewrite 1 [show (2 : ℝ) = 2 ^ (1 : ℤ) by norm_num]
    rw [← zpow_add₀ (by norm_num)]
    exact zpow_le_zpow_right₀ (by norm_num) (by norm_num)
  have D := Zf.sub J (by norm_num) bw
  -- the right-hand side
  have hr1' : (1 / 2 ^ 17 : ℝ) ≤ value rtol := by
    have := (Rat.cast_le (K := ℝ)).2 hr1
    push_cast at this
    exact this
  have hr2' : (value rtol : ℝ) ≤ 1 := by exact_mod_cast hr2
  have ha1' : (0 : ℝ) ≤ value atol := by exact_mod_cast ha1
  have ha2' : (value atol : ℝ) ≤ 1 := by exact_mod_cast ha2
  have r0 : (0 : ℝ) < value rtol := lt_of_lt_of_le (by norm_num) hr1'
  have Rf : Fuzzy rtol (value rtol) (value rtol) 0 := .self fr (le_of_eq (abs_of_pos r0))
  have Jabs : Fuzzy (Num.abs c) w w 13 := by
    refine ⟨finite_abs J.fin, by norm_num, J.le, ?_⟩
    have h1 := (abs_le.1 J.err).1
    have h2 : (0 : ℝ) ≤ value c := by
      have : 13 / 2 ^ 53 * w ≤ 1 * w := mul_le_mul_of_nonneg_right (by norm_num) wp.le
      linarith
    have h3 : 0 ≤ value c := by exact_mod_cast h2
    rw [value_abs, abs_of_nonneg h3]
    exact J.err
  have sr : Scale ((value rtol : ℝ) * w) := by
    constructor
    · refine le_trans ?_ (mul_le_mul hr1' b1 (zpow_pos (by norm_num) _).le r0.le)
      rw [show (1 / 2 ^ 17 : ℝ) = 2 ^ (-17 : ℤ) by norm_num, ← zpow_add₀ (by norm_num)]
      exact zpow_le_zpow_right₀ (by norm_num) (by norm_num)
    · refine (mul_le_mul hr2' b2 wp.le (by norm_num)).trans ?_
      rw [one_mul]
      exact zpow_le_zpow_right₀ (by norm_num) (by norm_num)
  have Q := Rf.mul Jabs (by norm_num) (by norm_num) sr
  have Af : Fuzzy atol (value atol) (value atol) (0 + 13 + 2) :=
    (Fuzzy.self fa (le_of_eq (abs_of_nonneg ha1'))).mono le_rfl (by norm_num)
  have bq : (value atol : ℝ) + value rtol * w ≤ 2 ^ (1000 : ℤ) := by
    refine (add_le_add ha2' (mul_le_mul hr2' b2 wp.le (by norm_num))).trans ?_
    have h1 : (1 : ℝ) ≤ 2 ^ (210 : ℤ) := one_le_zpow₀ (by norm_num) (by norm_num)
    rw [one_mul]
    refine (add_le_add_left h1 _).trans ?_
    rw [← two_mul]
    nth_rewrite 1 [show (2 : ℝ) = 2 ^ (1 : ℤ) by norm_num]
    rw [← zpow_add₀ (by norm_num)]
    exact zpow_le_zpow_right₀ (by norm_num) (by norm_num)
  have E := Af.add Q (by norm_num) bq
  unfold Np.isclose
  rw [fz, J.fin]
  simp only [Bool.and_self, if_true]
  refine le_of_value (finite_abs D.fin) E.fin ?_
  rw [value_abs, ← Rat.cast_le (K := ℝ), Rat.cast_abs]
  clear hT1 hT2 b1 b2 bw bq sr
  have l1 : |(value (z -. c) : ℝ)| ≤ |(value z : ℝ) - w| + (13 + 2) / 2 ^ 53 * (w + w) := by
    have := abs_sub_abs_le_abs_sub (value (z -. c) : ℝ) ((value z : ℝ) - w)
    linarith [D.err]
  have l2 := (abs_le.1 E.err).1
  have l3 : 1 / 2 ^ 17 * w ≤ (value rtol : ℝ) * w := mul_le_mul_of_nonneg_right hr1' wp.le
  generalize (value (z -. c) : ℝ) = v1 at *
  generalize (value (atol +. (rtol *. Num.abs c)) : ℝ) = v2 at *
  generalize (value rtol : ℝ) * w = v3 at *
  generalize (value atol : ℝ) = v4 at *
  generalize |(value z : ℝ) - w| = v5 at *
  generalize |v1| = v6 at *
  norm_num at l1 l2 l3 hd hw1 ⊢
  linarith

/-! ## The theorem -/

theorem euclid_sub (p q : Fin 3 → ℝ) {e : ℝ} (he : 0 ≤ e) (h : ∀ i, |p i - q i| ≤ e) :
    |euclid p - euclid q| ≤ 2 * e := length_sub p q he h

/-- C82: let `X`, `Y`, `Z` be the total angular momentum of the stars as computed, with a part across
the z axis.  If the stars do not nearly cancel (the sum of their largest possible contributions, times
the number of stars, is at most `2^28` times the exact total), the galaxy that `star_align` returns is
star aligned.  The two calls may add in any order, and not the same one. -/
theorem C82_aligned (sm sm' : List Float64 → Float64) (dt dt' : List (Float64 × Float64) → Float64)
    (hdt : ∀ l, Fused l (dt l)) (hs : ∀ l, Added l (sm l))
    (hs' : ∀ l, Added l (sm' l)) (b : BGalaxy Float64) (X Y Z rtol atol : Float64)
    (hX : X = sm (b.stars.map fun a => a.m *. a.jx))
    (hY : Y = sm (b.stars.map fun a => a.m *. a.jy))
    (hZ : Z = sm (b.stars.map fun a => a.m *. a.jz)) (hT : Tilted X Y Z)
    (hw : ∀ a ∈ b.stars, a.Ordinary) (hn : b.stars.length ≤ 2 ^ 30)
    (hcond : (b.stars.length + 20) * (b.stars.map Body.weight).sum
      ≤ 2 ^ 28 * euclid (exactTotal b.stars))
    (fr : Num.isFinite rtol = true) (hr1 : 1 / 2 ^ 17 ≤ value rtol) (hr2 : value rtol ≤ 1)
    (fa : Num.isFinite atol = true) (ha1 : 0 ≤ value atol) (ha2 : value atol ≤ 1) :
    ∃ b' : BGalaxy Float64,
      @starAlign _ (sumDot sm dt) (Galaxy.ofBodies b) none = .ok (Galaxy.ofBodies b') ∧
      @isStarAligned _ (sumDot sm' dt') (Galaxy.ofBodies b') none rtol atol = .ok true := by
  have hperp := hT.perp_ne
  have hR := alignK_mem hperp
  have hent := matrix_entries hT
  have hall : ∀ l : List (Body Float64), l.filter (Body.inside none) = l := fun l =>
    List.filter_eq_self.2 fun _ _ => rfl
  have hA : @alignMatrix _ (sumDot sm dt) none b.stars = rotFromJ X Y Z := by
    have : @alignMatrix _ (sumDot sm dt) none b.stars
        = rotFromJ (sm ((b.stars.filter (Body.inside none)).map fun a => a.m *. a.jx))
          (sm ((b.stars.filter (Body.inside none)).map fun a => a.m *. a.jy))
          (sm ((b.stars.filter (Body.inside none)).map fun a => a.m *. a.jz)) := rfl
    rw [this, hall, ← hX, ← hY, ← hZ]
  refine ⟨_, @starAlign_ofBodies _ (sumDot sm dt) b none rfl, ?_⟩
  rw [hA]
  refine (@isStarAligned_ofBodies _ (sumDot sm' dt') _ none rtol atol).trans ?_
  obtain ⟨B0, B1, B2⟩ := totals_before hs hw hn
  rw [← hX] at B0
  rw [← hY] at B1
  rw [← hZ] at B2
  obtain ⟨A0, A1, A2⟩ := totals_after hs' hR (f := @Body.rot _ (sumDot sm dt) (rotFromJ X Y Z)) hw hn (by
    intro a ha
    have up : ∀ {e : Float64}, Within 200 e → Within 990 e := fun h =>
      ⟨h.1, h.2.trans (zpow_le_zpow_right₀ (by norm_num) (by norm_num))⟩
    obtain ⟨r1, r2, r3, -⟩ := rot_rotated hdt hR hent (a := a)
      fun i => ⟨up ((hw a ha).2 i).1, up ((hw a ha).2 i).2⟩
    exact ⟨r1, r2, r3⟩)
  have htot : ∀ f : Body Float64 → Float64,
      @totalInside _ (sumDot sm' dt') none (b.mapBodies (@Body.rot _ (sumDot sm dt) (rotFromJ X Y Z))).stars f
        = sm' ((b.stars.map (@Body.rot _ (sumDot sm dt) (rotFromJ X Y Z))).map f) := by
    intro f
    have : @totalInside _ (sumDot sm' dt') none (b.mapBodies (@Body.rot _ (sumDot sm dt) (rotFromJ X Y Z))).stars f
      = sm' (((b.stars.map (@Body.rot _ (sumDot sm dt) (rotFromJ X Y Z))).filter
          (Body.inside none)).map f) := rfl
    rw [this, hall]
  -- the length of the total as computed
  obtain ⟨p, hp⟩ : ∃ p, p = Real.sqrt ((value X : ℝ) * value X + value Y * value Y) := ⟨_, rfl⟩
  obtain ⟨T, hTe⟩ : ∃ j, j = Real.sqrt ((value X : ℝ) * value X + value Y * value Y + value Z * value Z) :=
    ⟨_, rfl⟩
  obtain ⟨s1, s2, s3, -, -, -⟩ := hT.sizes hp hTe
  have hRT : alignK (realJ X Y Z) *ᵥ realJ X Y Z = ![0, 0, T] := by
    rw [alignK_mulVec hperp, dot_self, hTe]
    simp [realJ, HasSqrt.ksqrt]
  have hTeu : euclid (realJ X Y Z) = T := by
    rw [hTe]
    simp [euclid, realJ, sq]
  have T0 : 0 < T := lt_of_lt_of_le (zpow_pos (by norm_num) _) (s1.trans s2)
  -- the difference between the exact total and the computed one
  have S0 : 0 ≤ (b.stars.map Body.weight).sum := by
    have := (weights_le hw hn).1
    rw [sum_two_mul] at this
    linarith
  have n0 : (0 : ℝ) ≤ b.stars.length := Nat.cast_nonneg _
  generalize (b.stars.map Body.weight).sum = S at *
  generalize hnn : (b.stars.length : ℝ) = n at *
  generalize exactTotal b.stars = L at *
  have hd : ∀ i, |(L - realJ X Y Z) i| ≤ (6 + 2 * n) / 2 ^ 53 * (2 * S) := by
    intro i
    rw [Pi.sub_apply, abs_sub_comm]
    fin_cases i
    · exact B0.err
    · exact B1.err
    · exact B2.err
  have e0 : 0 ≤ (6 + 2 * n) / 2 ^ 53 * (2 * S) := by positivity
  have hLT := euclid_sub L (realJ X Y Z) e0 hd
  rw [hTeu] at hLT
  have hnS : 0 ≤ n * S := mul_nonneg n0 S0
  have hL : (n + 20) * S ≤ 2 ^ 29 * T := by
    have h1 := (abs_le.1 hLT).2
    have h2 : 2 * ((6 + 2 * n) / 2 ^ 53 * (2 * S)) ≤ 1 / 2 ^ 50 * ((n + 20) * S) := by
      have : 1 / 2 ^ 50 * ((n + 20) * S) - 2 * ((6 + 2 * n) / 2 ^ 53 * (2 * S))
          = 136 / 2 ^ 53 * S := by ring
      have : 0 ≤ 136 / 2 ^ 53 * S := by positivity
      linarith
    generalize (n + 20) * S = c at *
    generalize 2 * ((6 + 2 * n) / 2 ^ 53 * (2 * S)) = c' at *
    generalize euclid L = ℓ at *
    clear e0 hd
    norm_num at *
    linarith
  have key : ∀ {a : Float64} {i : Fin 3},
      Fuzzy a ((alignK (realJ X Y Z) *ᵥ L) i) (2 * S) (136 + 2 * n) →
      |(value a : ℝ) - (![0, 0, T] : Fin 3 → ℝ) i| ≤ 1 / 2 ^ 20 * T := by
    intro a i h
    have h1 : (alignK (realJ X Y Z) *ᵥ L) i - (![0, 0, T] : Fin 3 → ℝ) i
        = (alignK (realJ X Y Z) *ᵥ (L - realJ X Y Z)) i := by
      rw [mulVec_sub, hRT, Pi.sub_apply]
    have h2 := mulVec_le (so3_entry hR) (L - realJ X Y Z) i
    rw [← h1] at h2
    have h3 := (abs_sub_le (value a : ℝ) ((alignK (realJ X Y Z) *ᵥ L) i) ((![0, 0, T] : Fin 3 → ℝ) i)).trans
      (add_le_add h.err h2)
    refine h3.trans ?_
    have h4 : (136 + 2 * n) / 2 ^ 53 * (2 * S) + 3 * ((6 + 2 * n) / 2 ^ 53 * (2 * S))
        ≤ 1 / 2 ^ 49 * ((n + 20) * S) := by
      have : 1 / 2 ^ 49 * ((n + 20) * S) - ((136 + 2 * n) / 2 ^ 53 * (2 * S)
          + 3 * ((6 + 2 * n) / 2 ^ 53 * (2 * S))) = 12 / 2 ^ 53 * S := by ring
      have : 0 ≤ 12 / 2 ^ 53 * S := by positivity
      linarith
    have h5 : 1 / 2 ^ 49 * ((n + 20) * S) ≤ 1 / 2 ^ 49 * (2 ^ 29 * T) :=
      mul_le_mul_of_nonneg_left hL (by norm_num)
    have h6 : (1 / 2 ^ 49 : ℝ) * (2 ^ 29 * T) = 1 / 2 ^ 20 * T := by ring
    linarith [hd 0, hd 1, hd 2]
  have k0 := key A0
  have k1 := key A1
  have k2 := key A2
  have z0 : ∀ v : ℝ, v - (![0, 0, T] : Fin 3 → ℝ) 0 = v := fun v => sub_zero v
  have z1 : ∀ v : ℝ, v - (![0, 0, T] : Fin 3 → ℝ) 1 = v := fun v => sub_zero v
  rw [z0] at k0
  rw [z1] at k1
  rw [htot, htot, htot]
  congr 1
  exact aligned_isclose A0.fin A1.fin A2.fin (s1.trans s2) s3 k0 k1 k2 fr hr1 hr2 fa ha1 ha2

/-! ## Example -/

/-- one star with `J = (0, -1, 1)` -/
def exOneStar : BGalaxy Float64 := starsOnly [starAt (dv 1 0 0) (dv 0 1 1)]

/-- The hypotheses of C82 hold for this star and the default tolerances. -/
example : ∃ b' : BGalaxy Float64, starAlign (Galaxy.ofBodies exOneStar) none = .ok (Galaxy.ofBodies b') ∧
    isStarAligned (Galaxy.ofBodies b') none (Num.ofRat (1 / 10 ^ 5)) (Num.ofRat (1 / 10 ^ 8))
      = .ok true := by
  have v1 : value (Num.ofRat 1 : Float64) = 1 := by decide +kernel
  have v0 : value (Num.ofRat 0 : Float64) = 0 := by decide +kernel
  refine C82_aligned Num.sum Num.sum Num.dot Num.dot fused_dot added_leftFold added_leftFold exOneStar _ _ _ _ _ rfl rfl rfl ?_ ?_ (by decide) ?_ (by decide +kernel)
    (by decide +kernel) (by decide +kernel) (by decide +kernel) (by decide +kernel) (by decide +kernel)
  · refine ⟨?_, ?_, ?_, ?_⟩ <;> (try unfold Within) <;> decide +kernel
  · unfold Body.Ordinary Within
    decide +kernel
  · have hL : exactTotal exOneStar.stars = ![0, -1, 1] := by
      ext i
      rw [exactTotal_apply]
      fin_cases i <;>
        simp [exOneStar, starsOnly, starAt, Body.realL, Body.realPos, Body.realVel, Body.pos, Body.vel,
          dv, cross_apply, v0, v1]
    have hS : (exOneStar.stars.map Body.weight).sum = 2 := by
      simp [exOneStar, starsOnly, starAt, Body.weight, sizeOf3, Body.realPos, Body.realVel, Body.pos,
        Body.vel, dv, v0, v1]
      rw [max_eq_left (by norm_num), max_eq_left (by norm_num)]
      norm_num
    have hE : 1 ≤ euclid ![0, -1, 1] := by
      rw [euclid, Real.one_le_sqrt]
      simp
    rw [hL, hS]
    have : (exOneStar.stars.length : ℝ) = 1 := by simp [exOneStar, starsOnly]
    rw [this]
    norm_num
    linarith

end GChop
