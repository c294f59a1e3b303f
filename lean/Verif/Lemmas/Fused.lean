import Verif.Lemmas.Summation

/-!
# Dot products with and without fused multiply-add

Error bound, zeros and NaNs for `Fused` (Spec/Summation.lean).
-/

namespace GChop

open Flt

theorem toExt_fma {fmt : Fmt} {a b c : Flt fmt} {u v w : ℚ} (ha : toExt a = .fin u)
    (hb : toExt b = .fin v) (hc : toExt c = .fin w) :
    toExt (Flt.fma a b c) = fmt.clip (fmt.srnd (u * v + w)) := by
  obtain ⟨s, m, rfl, rfl⟩ := toExt_fin ha
  obtain ⟨t, n, rfl, rfl⟩ := toExt_fin hb
  obtain ⟨r, k, rfl, rfl⟩ := toExt_fin hc
  exact toExt_ofExact _ _

/-- rounding each product and adding in some order is a dot product -/
theorem Added.fused {fmt : Fmt} {l : List (Flt fmt)} {s : Flt fmt} (h : Added l s) :
    ∀ ps : List (Flt fmt × Flt fmt), ps.map (fun p => p.1 *. p.2) = l → Fused ps s := by
  induction h with
  | nil =>
    intro ps h
    rw [List.map_eq_nil_iff] at h
    subst h
    exact .nil
  | one a =>
    intro ps h
    obtain ⟨p, rfl, rfl⟩ := List.map_eq_singleton_iff.1 h
    exact .mul p.1 p.2
  | zero _ ih => exact fun ps h => .zero (ih ps h)
  | add hp n1 n2 _ _ ih1 ih2 =>
    intro ps h
    obtain ⟨qs, p1, p2⟩ := perm_of_map _ hp ps h
    obtain ⟨j1, j2, rfl, e1, e2⟩ := List.map_eq_append_iff.1 p2
    refine .add p1 ?_ ?_ (ih1 j1 e1) (ih2 j2 e2)
    · rintro rfl
      exact n1 e1.symm
    · rintro rfl
      exact n2 e2.symm

theorem fused_of_added {fmt : Fmt} {sm : List (Flt fmt) → Flt fmt} (h : ∀ l, Added l (sm l))
    (l : List (Flt fmt × Flt fmt)) : Fused l (sm (l.map fun p => p.1 *. p.2)) :=
  (h _).fused l rfl

theorem fused_leftFold {fmt : Fmt} (l : List (Flt fmt × Flt fmt)) : Fused l (Num.dot l) :=
  fused_of_added added_leftFold l

theorem Fused.perm {fmt : Fmt} {l l' : List (Flt fmt × Flt fmt)} {s : Flt fmt} (h : Fused l s)
    (hp : l'.Perm l) : Fused l' s := by
  induction h with
  | nil =>
    rw [List.perm_nil.1 hp]
    exact .nil
  | mul a b =>
    rw [List.perm_singleton.1 hp]
    exact .mul a b
  | zero h ih => exact .zero (ih hp)
  | add h1 n1 n2 a1 a2 _ _ => exact .add (hp.trans h1) n1 n2 a1 a2
  | fma h1 a1 _ => exact .fma (hp.trans h1) a1

/-- a chain of fused multiply-adds is a dot product -/
theorem fused_fmaChain {fmt : Fmt} (l : List (Flt fmt × Flt fmt)) : Fused l (fmaChain l) := by
  have : ∀ (l l0 : List (Flt fmt × Flt fmt)) (s : Flt fmt), Fused l0 s →
      Fused (l0 ++ l) (l.foldl (fun s p => Flt.fma p.1 p.2 s) s) := by
    intro l
    induction l with
    | nil => intro l0 s h; simpa using h
    | cons p l ih =>
      intro l0 s h
      have h1 : Fused (l0 ++ [p]) (Flt.fma p.1 p.2 s) := .fma (List.perm_append_singleton ..) h
      have := ih _ _ h1
      simpa using this
  simpa [fmaChain] using this l [] _ .nil

/-! ## NaN and zero -/

theorem fma_nan_left {fmt : Fmt} (b c : Flt fmt) : Flt.fma Flt.nan b c = Flt.nan := by
  cases c <;> rfl

theorem fma_nan_right {fmt : Fmt} (a c : Flt fmt) : Flt.fma a Flt.nan c = Flt.nan := by
  cases a <;> cases c <;> rfl

theorem fma_nan_last {fmt : Fmt} (a b : Flt fmt) : Flt.fma a b Flt.nan = Flt.nan := by
  have : ∀ x : Flt fmt, Flt.add x Flt.nan = Flt.nan := by intro x; cases x <;> rfl
  cases a <;> cases b <;> first | rfl | exact this _

/-- a dot product with a NaN is NaN -/
theorem Fused.nan_of_mem {fmt : Fmt} {l : List (Flt fmt × Flt fmt)} {s : Flt fmt} (h : Fused l s)
    {b : Flt fmt} (hm : (Flt.nan, b) ∈ l) : s = Flt.nan := by
  have addR : ∀ x : Flt fmt, (x +. Flt.nan) = Flt.nan := by intro x; cases x <;> rfl
  induction h with
  | nil => cases hm
  | mul a c =>
    obtain ⟨rfl, -⟩ := Prod.mk.inj (List.mem_singleton.1 hm)
    rfl
  | zero _ ih => rw [ih hm, addR]
  | add hp _ _ _ _ ih1 ih2 =>
    rcases List.mem_append.1 (hp.mem_iff.1 hm) with h | h
    · rw [ih1 h]; rfl
    · rw [ih2 h, addR]
  | fma hp _ ih =>
    rcases List.mem_cons.1 (hp.mem_iff.1 hm) with h | h
    · obtain ⟨rfl, -⟩ := Prod.mk.inj h
      exact fma_nan_left _ _
    · rw [ih h, fma_nan_last]

theorem srnd_clip_zero' : Fmt.binary64.clip (Fmt.binary64.srnd 0) = .fin 0 := by
  rw [← toExt_ofExact false]
  exact toExt_zero

/-- the dot product with a zero vector is zero -/
theorem Fused.zero_of {l : List (Float64 × Float64)} {s : Float64} (h : Fused l s)
    (hm : ∀ p ∈ l, Num.isFinite p.1 = true ∧ toExt p.2 = .fin 0) : toExt s = .fin 0 := by
  induction h with
  | nil => exact toExt_zero
  | mul a b =>
    obtain ⟨h1, h2⟩ := hm (a, b) (by simp)
    rw [toExt_mul (toExt_value h1) h2, mul_zero, srnd_clip_zero']
  | zero _ ih =>
    have z : toExt (Num.ofRat 0 : Float64) = .fin 0 := toExt_zero
    rw [toExt_add z (ih hm), add_zero, srnd_clip_zero']
  | add hp _ _ _ _ ih1 ih2 =>
    rw [toExt_add (ih1 fun a ha => hm a (hp.mem_iff.2 (List.mem_append_left _ ha)))
      (ih2 fun a ha => hm a (hp.mem_iff.2 (List.mem_append_right _ ha))), add_zero, srnd_clip_zero']
  | @fma l l1 a b s hp _ ih =>
    obtain ⟨h1, h2⟩ := hm (a, b) (hp.mem_iff.2 (by simp))
    rw [toExt_fma (toExt_value h1) h2 (ih fun p q => hm p (hp.mem_iff.2 (List.mem_cons_of_mem _ q))),
      mul_zero, add_zero, srnd_clip_zero']

/-! ## Errors -/

/-- the exact dot product -/
noncomputable def dotExact (l : List (Float64 × Float64)) : ℝ :=
  (l.map fun p => (value p.1 * value p.2 : ℝ)).sum

/-- the sum of the sizes of the products -/
noncomputable def dotSize (l : List (Float64 × Float64)) : ℝ :=
  (l.map fun p => |(value p.1 * value p.2 : ℝ)|).sum

theorem dotSize_nonneg (l : List (Float64 × Float64)) : 0 ≤ dotSize l := by
  apply List.sum_nonneg
  intro x hx
  obtain ⟨p, -, rfl⟩ := List.mem_map.1 hx
  exact abs_nonneg _

theorem dotExact_le (l : List (Float64 × Float64)) : |dotExact l| ≤ dotSize l := by
  induction l with
  | nil => simp [dotExact, dotSize]
  | cons p l ih =>
    have := abs_add_le (value p.1 * value p.2 : ℝ) (dotExact l)
    simp only [dotExact, dotSize, List.map_cons, List.sum_cons] at this ih ⊢
    linarith

theorem dot_append (l1 l2 : List (Float64 × Float64)) :
    dotExact (l1 ++ l2) = dotExact l1 + dotExact l2 ∧ dotSize (l1 ++ l2) = dotSize l1 + dotSize l2 := by
  simp [dotExact, dotSize]

theorem dot_perm {l l' : List (Float64 × Float64)} (h : l.Perm l') :
    dotExact l = dotExact l' ∧ dotSize l = dotSize l' :=
  ⟨(h.map _).sum_eq, (h.map _).sum_eq⟩

/-- the bound for `n` products of total size `M` -/
noncomputable def dotBound (n : ℕ) (M : ℝ) : ℝ := 2 * n / 2 ^ 53 * M + (3 * n - 3 / 2) * tiny

/-- one rounding after an error -/
theorem rounded_err {x : ℚ} {T M e : ℝ} (hT : |T| ≤ M) (hM : M ≤ 2 ^ (1000 : ℤ)) (h : |(x : ℝ) - T| ≤ e)
    (he : e ≤ 2 ^ (1000 : ℤ)) : Fmt.binary64.clip (Fmt.binary64.srnd x) = .fin (Fmt.binary64.srnd x) ∧
      |((Fmt.binary64.srnd x : ℚ) : ℝ) - T| ≤ e + (M + e) / 2 ^ 53 + tiny := by
  have h1 : |(x : ℝ)| ≤ M + e := by
    have := abs_sub_abs_le_abs_sub (x : ℝ) T
    linarith
  have big : M + e ≤ 2 ^ (1010 : ℤ) := by
    have hp : (0 : ℝ) < 2 ^ (1000 : ℤ) := zpow_pos (by norm_num) _
    have := two_le_big (le_refl ((2 : ℝ) ^ (1000 : ℤ)))
    generalize (2 : ℝ) ^ (1000 : ℤ) = A at *
    generalize (2 : ℝ) ^ (1010 : ℤ) = B at *
    linarith
  refine ⟨clip64 (cast_big (h1.trans big)), ?_⟩
  have h2 := srnd64_err x
  have h3 := abs_sub_le ((Fmt.binary64.srnd x : ℚ) : ℝ) x T
  have h4 : |(x : ℝ)| / 2 ^ 53 ≤ (M + e) / 2 ^ 53 := div_le_div_of_nonneg_right h1 (by norm_num)
  linarith

theorem dotBound_le {n : ℕ} (hn : n ≤ 2 ^ 20) {M : ℝ} (h0 : 0 ≤ M) (hM : M ≤ 2 ^ (999 : ℤ)) :
    dotBound n M ≤ 2 ^ (1000 : ℤ) := by
  have hn : (n : ℝ) ≤ 2 ^ 20 := by exact_mod_cast hn
  have t0 : (0 : ℝ) < tiny := by exact_mod_cast tiny_pos
  have t1 : (tiny : ℝ) ≤ 1 := by exact_mod_cast tiny_le
  have e : (2 : ℝ) ^ (1000 : ℤ) = 2 * 2 ^ (999 : ℤ) := by rw [← zpow_one_add₀ (by norm_num)]; norm_num
  have b : (2 : ℝ) ^ 30 ≤ 2 ^ (999 : ℤ) := by
    rw [← zpow_natCast]
    exact zpow_le_zpow_right₀ (by norm_num) (by norm_num)
  unfold dotBound
  rw [e]
  generalize (2 : ℝ) ^ (999 : ℤ) = N at *
  generalize (tiny : ℝ) = T at *
  have n0 : (0 : ℝ) ≤ n := Nat.cast_nonneg n
  generalize (n : ℝ) = n at *
  have h1 : 2 * n / 2 ^ 53 * M ≤ 1 * N := by
    refine mul_le_mul ?_ hM h0 zero_le_one
    rw [div_le_one (by norm_num)]
    norm_num at hn ⊢
    linarith
  have h2 : (3 * n - 3 / 2) * T ≤ 3 * n * 1 := by nlinarith
  generalize 2 * n / 2 ^ 53 * M = A at *
  generalize (3 * n - 3 / 2) * T = B at *
  clear e
  norm_num at hn b h1 h2 ⊢
  linarith

theorem dot_step {n : ℕ} {m e M : ℝ} (hm : (n : ℝ) = m) (hn : m ≤ 2 ^ 20) (hM : 0 ≤ M)
    (he : e ≤ (2 * m - 2) / 2 ^ 53 * M + (3 * m - 3) * tiny) :
    e + (M + e) / 2 ^ 53 + tiny ≤ dotBound n M := by
  have t0 : (0 : ℝ) < tiny := by exact_mod_cast tiny_pos
  unfold dotBound
  rw [hm]
  generalize (tiny : ℝ) = T at *
  have a1 : (m - 1) * M ≤ 2 ^ 20 * M := mul_le_mul_of_nonneg_right (by linarith) hM
  have a2 : (m - 1) * T ≤ 2 ^ 20 * T := mul_le_mul_of_nonneg_right (by linarith) t0.le
  have e1 : (2 * m - 2) / 2 ^ 53 * M = (m - 1) * M * (2 / 2 ^ 53) := by ring
  have e2 : 2 * m / 2 ^ 53 * M = (m - 1) * M * (2 / 2 ^ 53) + M * (2 / 2 ^ 53) := by ring
  have e3 : (3 * m - 3) * T = 3 * ((m - 1) * T) := by ring
  have e4 : (3 * m - 3 / 2) * T = 3 * ((m - 1) * T) + 3 / 2 * T := by ring
  rw [e1, e3] at he
  rw [e2, e4]
  generalize (m - 1) * M = A at *
  generalize (m - 1) * T = B at *
  norm_num at *
  linarith

/-- the error of a dot product, however it is computed -/
theorem Fused.err {l : List (Float64 × Float64)} {s : Float64} (h : Fused l s) :
    (∀ p ∈ l, Num.isFinite p.1 = true ∧ Num.isFinite p.2 = true) → l.length ≤ 2 ^ 20 →
    dotSize l ≤ 2 ^ (999 : ℤ) → Num.isFinite s = true ∧
      |(value s : ℝ) - dotExact l| ≤ if l = [] then 0 else dotBound l.length (dotSize l) := by
  have t0 : (0 : ℝ) < tiny := by exact_mod_cast tiny_pos
  have up : (2 : ℝ) ^ (999 : ℤ) ≤ 2 ^ (1000 : ℤ) := zpow_le_zpow_right₀ (by norm_num) (by norm_num)
  induction h with
  | nil =>
    intro _ _ _
    have : value (Num.ofRat 0 : Float64) = 0 := value_eq toExt_zero
    exact ⟨isFinite_of (v := 0) toExt_zero, by simp [this, dotExact]⟩
  | mul a b =>
    intro hf _ hM
    obtain ⟨f1, f2⟩ := hf (a, b) (by simp)
    have hx : dotExact [(a, b)] = ((value a * value b : ℚ) : ℝ) := by simp [dotExact]
    have hs : dotSize [(a, b)] = |((value a * value b : ℚ) : ℝ)| := by simp [dotSize]
    have e := toExt_mul (toExt_value f1) (toExt_value f2)
    obtain ⟨r1, r2⟩ := rounded_err (x := value a * value b) (T := dotExact [(a, b)])
      (dotExact_le _) (hM.trans up) (e := 0) (by rw [hx]; simp) (zpow_pos (by norm_num) _).le
    rw [r1] at e
    refine ⟨isFinite_of e, ?_⟩
    rw [if_neg (by simp), value_eq e]
    refine r2.trans ?_
    unfold dotBound
    have := dotSize_nonneg [(a, b)]
    simp only [List.length_singleton]
    norm_num at this ⊢
    linarith
  | zero _ ih =>
    intro hf hn hM
    obtain ⟨h1, h2⟩ := ih hf hn hM
    obtain ⟨e1, e2⟩ := value_zero_add h1
    exact ⟨e1, by rw [e2]; exact h2⟩
  | @add l l1 l2 s1 s2 hp n1 n2 _ _ ih1 ih2 =>
    intro hf hn hM
    have hf' : ∀ p ∈ l1 ++ l2, _ := fun p hq => hf p (hp.mem_iff.2 hq)
    have hlen : l.length = l1.length + l2.length := by rw [hp.length_eq, List.length_append]
    obtain ⟨d1, d2⟩ := dot_perm hp
    obtain ⟨d3, d4⟩ := dot_append l1 l2
    rw [d4] at d2
    rw [d3] at d1
    have z1 := dotSize_nonneg l1
    have z2 := dotSize_nonneg l2
    obtain ⟨a1, b1⟩ := ih1 (fun p q => hf' p (List.mem_append_left _ q)) (by omega) (by linarith)
    obtain ⟨a2, b2⟩ := ih2 (fun p q => hf' p (List.mem_append_right _ q)) (by omega) (by linarith)
    rw [if_neg n1] at b1
    rw [if_neg n2] at b2
    have hle : l ≠ [] := by
      rintro rfl
      exact n1 (List.length_eq_zero_iff.1 (by rw [List.length_nil] at hlen; omega))
    rw [if_neg hle]
    have e := toExt_add (toExt_value a1) (toExt_value a2)
    have q1 : (1 : ℝ) ≤ l1.length := by exact_mod_cast List.length_pos_iff.2 n1
    have q2 : (1 : ℝ) ≤ l2.length := by exact_mod_cast List.length_pos_iff.2 n2
    have hnr : (l1.length + l2.length : ℝ) ≤ 2 ^ 20 := by
      have : ((l.length : ℕ) : ℝ) ≤ 2 ^ 20 := by exact_mod_cast hn
      rw [hlen] at this
      push_cast at this
      exact this
    have hsum : |((value s1 + value s2 : ℚ) : ℝ) - dotExact l|
        ≤ dotBound l1.length (dotSize l1) + dotBound l2.length (dotSize l2) := by
      rw [d1]
      push_cast
      rw [show (value s1 : ℝ) + value s2 - (dotExact l1 + dotExact l2)
        = (value s1 - dotExact l1) + (value s2 - dotExact l2) by ring]
      exact (abs_add_le _ _).trans (add_le_add b1 b2)
    have hb : dotBound l1.length (dotSize l1) + dotBound l2.length (dotSize l2)
        ≤ (2 * (l1.length + l2.length) - 2) / 2 ^ 53 * dotSize l
          + (3 * (l1.length + l2.length) - 3) * tiny := by
      unfold dotBound
      rw [d2]
      have x1 : (2 * l1.length : ℝ) / 2 ^ 53 * dotSize l1
          ≤ (2 * (l1.length + l2.length) - 2) / 2 ^ 53 * dotSize l1 :=
        mul_le_mul_of_nonneg_right (div_le_div_of_nonneg_right (by linarith) (by norm_num)) z1
      have x2 : (2 * l2.length : ℝ) / 2 ^ 53 * dotSize l2
          ≤ (2 * (l1.length + l2.length) - 2) / 2 ^ 53 * dotSize l2 :=
        mul_le_mul_of_nonneg_right (div_le_div_of_nonneg_right (by linarith) (by norm_num)) z2
      rw [mul_add]
      linarith
    have hbig : dotBound l1.length (dotSize l1) + dotBound l2.length (dotSize l2) ≤ 2 ^ (1000 : ℤ) := by
      refine le_trans ?_ (dotBound_le hn (by rw [d2]; linarith) hM)
      refine hb.trans ?_
      unfold dotBound
      rw [hlen]
      push_cast
      have : (2 * (l1.length + l2.length : ℝ) - 2) / 2 ^ 53 * dotSize l
          ≤ 2 * (l1.length + l2.length) / 2 ^ 53 * dotSize l :=
        mul_le_mul_of_nonneg_right (div_le_div_of_nonneg_right (by linarith) (by norm_num))
          (by rw [d2]; linarith)
      nlinarith
    obtain ⟨r1, r2⟩ := rounded_err (x := value s1 + value s2) (dotExact_le l) (hM.trans up) hsum hbig
    rw [r1] at e
    refine ⟨isFinite_of e, ?_⟩
    rw [value_eq e]
    exact r2.trans (dot_step (m := l1.length + l2.length) (by rw [hlen]; push_cast; rfl) hnr
      (by rw [d2]; linarith) hb)
  | @fma l l1 a b s hp _ ih =>
    intro hf hn hM
    have hf' : ∀ p ∈ (a, b) :: l1, _ := fun p hq => hf p (hp.mem_iff.2 hq)
    have hlen : l.length = l1.length + 1 := by rw [hp.length_eq, List.length_cons]
    obtain ⟨d1, d2⟩ := dot_perm hp
    have d3 : dotExact ((a, b) :: l1) = value a * value b + dotExact l1 := by simp [dotExact]
    have d4 : dotSize ((a, b) :: l1) = |(value a * value b : ℝ)| + dotSize l1 := by simp [dotSize]
    rw [d3] at d1
    rw [d4] at d2
    have z1 := dotSize_nonneg l1
    have z2 := abs_nonneg (value a * value b : ℝ)
    obtain ⟨f1, f2⟩ := hf' (a, b) (by simp)
    obtain ⟨a1, b1⟩ := ih (fun p q => hf' p (List.mem_cons_of_mem _ q)) (by omega) (by linarith)
    have hle : l ≠ [] := by rintro rfl; simp at hlen
    rw [if_neg hle]
    have e := toExt_fma (toExt_value f1) (toExt_value f2) (toExt_value a1)
    have hsum : |((value a * value b + value s : ℚ) : ℝ) - dotExact l|
        ≤ if l1 = [] then 0 else dotBound l1.length (dotSize l1) := by
      rw [d1]
      push_cast
      rw [show (value a * value b + value s : ℝ) - (value a * value b + dotExact l1)
        = value s - dotExact l1 by ring]
      exact b1
    have hnr : (l1.length + 1 : ℝ) ≤ 2 ^ 20 := by
      have : ((l.length : ℕ) : ℝ) ≤ 2 ^ 20 := by exact_mod_cast hn
      rw [hlen] at this
      push_cast at this
      exact this
    have hl0 : (0 : ℝ) ≤ l1.length := Nat.cast_nonneg _
    have hb : (if l1 = [] then 0 else dotBound l1.length (dotSize l1))
        ≤ (2 * (l1.length + 1) - 2) / 2 ^ 53 * dotSize l + 3 * l1.length * tiny := by
      have hs : dotSize l1 ≤ dotSize l := by rw [d2]; linarith
      have hz : 0 ≤ dotSize l := by rw [d2]; linarith
      split_ifs with h0
      · rw [h0]
        simp
      · unfold dotBound
        have x1 : (2 * l1.length : ℝ) / 2 ^ 53 * dotSize l1 ≤ 2 * l1.length / 2 ^ 53 * dotSize l :=
          mul_le_mul_of_nonneg_left hs (by positivity)
        have x2 : (2 * (l1.length + 1 : ℝ) - 2) = 2 * l1.length := by ring
        rw [x2]
        nlinarith
    have hbig : (if l1 = [] then 0 else dotBound l1.length (dotSize l1)) ≤ (2 : ℝ) ^ (1000 : ℤ) := by
      split_ifs with h0
      · exact (zpow_pos (by norm_num) _).le
      · exact dotBound_le (by omega) z1 (by linarith)
    obtain ⟨r1, r2⟩ := rounded_err (x := value a * value b + value s) (dotExact_le l) (hM.trans up) hsum hbig
    rw [r1] at e
    refine ⟨isFinite_of e, ?_⟩
    rw [value_eq e]
    refine r2.trans (dot_step (m := l1.length + 1) (by rw [hlen]; push_cast; rfl) hnr
      (by rw [d2]; linarith) (hb.trans (le_of_eq ?_)))
    ring

end GChop
