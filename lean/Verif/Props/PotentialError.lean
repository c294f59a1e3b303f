import Verif.Lemmas.BinaryClose
import Verif.Lemmas.Fused
import Verif.Props.PotentialSingle

/-!
# C77: accuracy of the compiled potential

How far the single precision result of the fortran loop can be from the softened N-body sum.
-/

namespace GChop
open Pd Flt Fmt

namespace Fmt
variable {fmt : Fmt}

/-- multiples of a power of two with few digits are numbers of the format -/
theorem srnd_mul_pow {n : ℕ} (h : n ≤ 2 ^ fmt.prec) {e : ℤ} (he : fmt.emin ≤ e) :
    fmt.srnd ((n : ℚ) * 2 ^ e) = n * 2 ^ e := by
  have hp := fmt.prec_pos
  rcases Nat.eq_zero_or_pos n with rfl | hn
  · simp [fmt.srnd_zero]
  rcases h.eq_or_lt with rfl | hlt
  · have : ((2 ^ fmt.prec : ℕ) : ℚ) * 2 ^ e = 2 ^ ((fmt.prec : ℤ) + e) := by
      rw [zpow_add₀ (by norm_num)]
      push_cast
      rw [zpow_natCast]
    rw [this]
    exact fmt.srnd_pow (by omega)
  · have h2 : (0 : ℚ) < 2 ^ e := zpow_pos (by norm_num) _
    have hn' : (0 : ℚ) < n := by exact_mod_cast hn
    have hy : (0 : ℚ) < n * 2 ^ e := mul_pos hn' h2
    have hlt' : (n : ℚ) * 2 ^ e < 2 ^ ((fmt.prec : ℤ) + e) := by
      rw [zpow_add₀ (by norm_num), zpow_natCast]
      exact mul_lt_mul_of_pos_right (by exact_mod_cast hlt) h2
    have hlog : Int.log 2 ((n : ℚ) * 2 ^ e) < fmt.prec + e := by
      apply (Int.lt_zpow_iff_log_lt (b := 2) (by norm_num) hy).1
      exact_mod_cast hlt'
    have hu : fmt.uexp ((n : ℚ) * 2 ^ e) ≤ e := by unfold uexp; omega
    rw [fmt.srnd_of_nonneg hy.le]
    refine fmt.roundPos_of_multiple (n := n * 2 ^ (e - fmt.uexp ((n : ℚ) * 2 ^ e)).toNat) ?_
    rw [fmt.ulp_eq]
    push_cast
    rw [mul_assoc, ← zpow_natCast, Int.toNat_of_nonneg (by omega), ← zpow_add₀ (by norm_num)]
    congr 2
    ring

/-- differences of numbers that are zero or at least `2^lo` are zero or not too small -/
theorem diff_mid {lo hi : ℤ} {v w : ℚ} (hv : fmt.srnd v = v) (hw : fmt.srnd w = w)
    (h1 : Mid lo hi |v|) (h2 : Mid lo hi |w|) (hlo : fmt.emin + (fmt.prec - 1 : Int) ≤ lo) :
    Mid (lo - (fmt.prec - 1 : Int)) (hi + 1) |v - w| := by
  have aux : ∀ v : ℚ, fmt.srnd v = v → Mid lo hi |v| → ∃ n : ℤ, v = n * 2 ^ (lo - (fmt.prec - 1 : Int)) := by
    intro v hv h
    rcases h with h | ⟨h1, _⟩
    · exact ⟨0, by simpa using h⟩
    · have hpos : 0 < |v| := lt_of_lt_of_le (zpow_pos (by norm_num) _) h1
      have hg : fmt.roundPos |v| = |v| := by rw [← fmt.srnd_abs, hv]
      have hlog : lo ≤ Int.log 2 |v| := by
        apply (Int.zpow_le_iff_le_log (b := 2) (by norm_num) hpos).1
        exact_mod_cast h1
      have hl2 : Int.log 2 ((2 : ℚ) ^ lo) = lo := by
        exact_mod_cast Int.log_zpow (R := ℚ) (b := 2) (by norm_num) lo
      have hu : fmt.uexp ((2 : ℚ) ^ lo) ≤ fmt.uexp |v| := by
        unfold uexp; rw [hl2]; omega
      obtain ⟨n, hn⟩ := fmt.multiple_of_grid hu hg
      have hul : fmt.ulp ((2 : ℚ) ^ lo) = 2 ^ (lo - (fmt.prec - 1 : Int)) := by
        rw [fmt.ulp_eq]
        congr 1
        unfold uexp; rw [hl2]; omega
      rw [hul] at hn
      rcases abs_choice v with h | h
      · exact ⟨n, by rw [← hn, h]⟩
      · exact ⟨-n, by push_cast; rw [neg_mul, ← hn, h, neg_neg]⟩
  obtain ⟨a, ha⟩ := aux v hv h1
  obtain ⟨b, hb⟩ := aux w hw h2
  have hd : v - w = ((a - b : ℤ) : ℚ) * 2 ^ (lo - (fmt.prec - 1 : Int)) := by
    rw [ha, hb]; push_cast; ring
  have h2p : (0 : ℚ) < 2 ^ (lo - (fmt.prec - 1 : Int)) := zpow_pos (by norm_num) _
  by_cases h0 : a - b = 0
  · left
    rw [hd, h0]
    simp
  · right
    constructor
    · rw [hd, abs_mul, abs_of_pos h2p]
      have h3 : (1 : ℚ) ≤ |((a - b : ℤ) : ℚ)| := by
        rw [← Int.cast_abs]
        exact_mod_cast Int.one_le_abs h0
      nlinarith
    · have hh : (2 : ℚ) ^ (hi + 1) = 2 ^ hi + 2 ^ hi := by
        rw [zpow_add_one₀ (by norm_num)]; ring
      rw [hh]
      exact (abs_sub v w).trans (add_le_add h1.le h2.le)

end Fmt

/-! ## One pair -/

theorem grid_of_toExt {fmt : Fmt} {a : Flt fmt} {v : ℚ} (h : toExt a = .fin v) : fmt.srnd v = v := by
  obtain ⟨s, m, rfl, rfl⟩ := toExt_fin h
  have h1 := toExt_ofExact_sval false s m
  rw [toExt_ofExact] at h1
  unfold Fmt.clip at h1
  split_ifs at h1
  simpa using h1

theorem near_exact {fmt : Fmt} {a : Flt fmt} {v : ℚ} {lo hi : ℤ} (h : toExt a = .fin v)
    (hm : Mid lo hi v) : Near a lo hi 0 (v : ℝ) :=
  ⟨by exact_mod_cast hm.nonneg, v, h, hm, Close.refl _ _⟩

/-! ## Sums of squares, with and without fused multiply-add -/

theorem Fused.near {fmt : Fmt} {ι : Type} {f : ι → Flt fmt} {d : ι → ℚ} {t : ι → ℝ} {lo hi top : ℤ}
    {k : ℕ} (hlo : fmt.emin + (fmt.prec - 1 : Int) ≤ lo) (hhi : fmt.emin ≤ hi) (htop : top ≤ fmt.emax)
    {l : List (Flt fmt × Flt fmt)} {s : Flt fmt} (h : Fused l s) :
    ∀ is : List ι, is.map (fun i => (f i, f i)) = l →
      (∀ i ∈ is, toExt (f i) = .fin (d i) ∧ Mid lo hi (d i * d i) ∧
        Close fmt.q k ((d i * d i : ℚ) : ℝ) (t i) ∧ 0 ≤ t i) →
      is.length ≤ 2 ^ fmt.prec → (is.length : ℚ) * 2 ^ hi ≤ 2 ^ top →
      0 ≤ (is.map t).sum ∧ ∃ v : ℚ, toExt s = .fin v ∧ (v = 0 ∨ (2 : ℚ) ^ lo ≤ v) ∧
        v ≤ is.length * 2 ^ hi ∧ Close fmt.q (k + is.length) (v : ℝ) (is.map t).sum := by
  have hq := fmt.one_le_q
  have nonneg : ∀ {u : ℚ}, (u = 0 ∨ (2 : ℚ) ^ lo ≤ u) → 0 ≤ u := by
    rintro u (rfl | h)
    · exact le_rfl
    · exact (zpow_pos (by norm_num) _).le.trans h
  have hp2 : (0 : ℚ) < 2 ^ hi := zpow_pos (by norm_num) _
  induction h with
  | nil =>
    intro is h _ _ _
    rw [List.map_eq_nil_iff] at h
    subst h
    exact ⟨by simp, 0, toExt_zero, Or.inl rfl, by simp, by simp [Close]⟩
  | mul a b =>
    intro is h hf hlen hB
    obtain ⟨i, rfl, hi'⟩ := List.map_eq_singleton_iff.1 h
    obtain ⟨rfl, rfl⟩ := Prod.mk.inj hi'
    obtain ⟨e1, e2, e3, h0⟩ := hf i (by simp)
    obtain ⟨r1, r2⟩ := e2.srnd (fmt := fmt) hlo
    have htop' : (2 : ℚ) ^ hi ≤ 2 ^ top := by simpa using hB
    have hht : hi ≤ top := (zpow_le_zpow_iff_right₀ (by norm_num)).1 htop'
    refine ⟨by simpa using h0, fmt.srnd (d i * d i),
      (toExt_mul e1 e1).trans (clip_of_le r1 (hht.trans htop)), ?_, by simpa using r1.le, ?_⟩
    · rcases r1 with r1 | r1
      · exact Or.inl r1
      · exact Or.inr r1.1
    · simp only [List.map_cons, List.map_nil, List.sum_cons, List.sum_nil, add_zero, List.length_singleton]
      rw [add_comm]
      exact r2.trans hq e3
  | zero _ ih =>
    intro is h hf hlen hB
    obtain ⟨h0, v, e1, e2, e3, e4⟩ := ih is h hf hlen hB
    refine ⟨h0, v, ?_, e2, e3, e4⟩
    have hz : toExt (Num.ofRat 0 : Flt fmt) = .fin 0 := toExt_zero
    rw [toExt_add hz e1, zero_add, grid_of_toExt e1]
    apply fmt.clip_fin
    rw [abs_of_nonneg (nonneg e2)]
    exact (e3.trans hB).trans (fmt.pow_le_maxFin htop)
  | @add l l1 l2 s1 s2 hp n1 n2 _ _ ih1 ih2 =>
    intro is h hf hlen hB
    obtain ⟨js, p1, p2⟩ := perm_of_map _ hp is h
    obtain ⟨j1, j2, rfl, e1, e2⟩ := List.map_eq_append_iff.1 p2
    have hf' := fun i (hi : i ∈ j1 ++ j2) => hf i (p1.mem_iff.2 hi)
    have hs : (is.map t).sum = (j1.map t).sum + (j2.map t).sum := by
      rw [(p1.map t).sum_eq, List.map_append, List.sum_append]
    have hl : is.length = j1.length + j2.length := by
      rw [p1.length_eq, List.length_append]
    have q1 : 1 ≤ j1.length := List.length_pos_iff.2 (by rintro rfl; exact n1 e1.symm)
    have q2 : 1 ≤ j2.length := List.length_pos_iff.2 (by rintro rfl; exact n2 e2.symm)
    have cut : ∀ n : ℕ, n ≤ is.length → (n : ℚ) * 2 ^ hi ≤ 2 ^ top := fun n hn =>
      (mul_le_mul_of_nonneg_right (by exact_mod_cast hn) hp2.le).trans hB
    obtain ⟨a0, v, v1, v2, v3, v4⟩ := ih1 j1 e1 (fun i hi => hf' i (by simp [hi])) (by omega)
      (cut _ (by omega))
    obtain ⟨b0, w, w1, w2, w3, w4⟩ := ih2 j2 e2 (fun i hi => hf' i (by simp [hi])) (by omega)
      (cut _ (by omega))
    have v0 := nonneg v2
    have w0 := nonneg w2
    have hsum : v + w ≤ is.length * 2 ^ hi := by
      rw [hl]
      push_cast
      rw [add_mul]
      exact add_le_add v3 w3
    have hmid : Mid lo top (v + w) := by
      have := hsum.trans (cut _ le_rfl)
      rcases v2 with rfl | v2
      · rcases w2 with rfl | w2
        · left; simp
        · right; exact ⟨by simpa using w2, this⟩
      · right; exact ⟨by linarith, this⟩
    obtain ⟨r1, r2⟩ := hmid.srnd (fmt := fmt) hlo
    refine ⟨by rw [hs]; exact add_nonneg a0 b0, fmt.srnd (v + w),
      (toExt_add v1 w1).trans (clip_of_le r1 htop), ?_, ?_, ?_⟩
    · rcases r1 with r1 | r1
      · exact Or.inl r1
      · exact Or.inr r1.1
    · exact fmt.srnd_le hsum (srnd_mul_pow hlen hhi)
    · rw [hs, show k + is.length = 1 + (k + is.length - 1) by omega]
      refine r2.trans hq ?_
      push_cast
      exact (v4.mono hq (by exact_mod_cast v0) a0 (by omega)).add
        (w4.mono hq (by exact_mod_cast w0) b0 (by omega))
  | @fma l l1 a b s1 hp _ ih =>
    intro is h hf hlen hB
    obtain ⟨js, p1, p2⟩ := perm_of_map _ hp is h
    obtain ⟨j, j1, rfl, e1, e2⟩ := List.map_eq_cons_iff.1 p2
    obtain ⟨rfl, rfl⟩ := Prod.mk.inj e1
    have hf' := fun i (hi : i ∈ j :: j1) => hf i (p1.mem_iff.2 hi)
    have hs : (is.map t).sum = t j + (j1.map t).sum := by
      rw [(p1.map t).sum_eq, List.map_cons, List.sum_cons]
    have hl : is.length = j1.length + 1 := by
      rw [p1.length_eq, List.length_cons]
    have cut : ∀ n : ℕ, n ≤ is.length → (n : ℚ) * 2 ^ hi ≤ 2 ^ top := fun n hn =>
      (mul_le_mul_of_nonneg_right (by exact_mod_cast hn) hp2.le).trans hB
    obtain ⟨v1, v2, v3, a0⟩ := hf' j (by simp)
    obtain ⟨b0, w, w1, w2, w3, w4⟩ := ih j1 e2 (fun i hi => hf' i (by simp [hi])) (by omega)
      (cut _ (by omega))
    have v0 := v2.nonneg
    have w0 := nonneg w2
    have hsum : d j * d j + w ≤ is.length * 2 ^ hi := by
      rw [hl]
      push_cast
      have := v2.le
      linarith
    have hmid : Mid lo top (d j * d j + w) := by
      have := hsum.trans (cut _ le_rfl)
      rcases v2 with v2 | v2
      · rw [v2, zero_add] at this ⊢
        rcases w2 with rfl | w2
        · exact Or.inl rfl
        · exact Or.inr ⟨w2, this⟩
      · right; exact ⟨by linarith, this⟩
    obtain ⟨r1, r2⟩ := hmid.srnd (fmt := fmt) hlo
    refine ⟨by rw [hs]; exact add_nonneg a0 b0, fmt.srnd (d j * d j + w),
      (toExt_fma v1 v1 w1).trans (clip_of_le r1 htop), ?_, ?_, ?_⟩
    · rcases r1 with r1 | r1
      · exact Or.inl r1
      · exact Or.inr r1.1
    · exact fmt.srnd_le hsum (srnd_mul_pow hlen hhi)
    · rw [hs, show k + is.length = 1 + (k + j1.length) by omega]
      refine r2.trans hq ?_
      rw [Rat.cast_add]
      exact (v3.mono hq (by exact_mod_cast v0) a0 (by omega)).add w4

/-- differences of numbers in range -/
theorem near_diff {a b : Float32'} {v w : ℚ} (ha : toExt a = .fin v) (hb : toExt b = .fin w)
    (h1 : Mid (-30) 50 |v|) (h2 : Mid (-30) 50 |w|) :
    ∃ d : ℚ, toExt (a -. b) = .fin d ∧ Mid (-106) 102 (d * d) ∧
      Close Fmt.binary32.q 2 ((d * d : ℚ) : ℝ) (((v : ℝ) - w) ^ 2) := by
  have hd := diff_mid (fmt := Fmt.binary32) (grid_of_toExt ha) (grid_of_toExt hb) h1 h2 (by decide)
  have hd : Mid (-53) 51 |v - w| := hd
  obtain ⟨r1, r2⟩ := hd.srnd (fmt := Fmt.binary32) (by decide)
  rw [Fmt.binary32.srnd_of_nonneg (abs_nonneg _), ← Fmt.binary32.srnd_abs] at r1 r2
  set d := Fmt.binary32.srnd (v - w)
  have hsub : toExt (a -. b) = .fin d := by
    rw [toExt_sub ha hb]
    exact Fmt.binary32.clip_fin (r1.le.trans (Fmt.binary32.pow_le_maxFin (by decide)))
  refine ⟨d, hsub, ?_, ?_⟩
  · rw [← abs_mul_abs_self]
    exact r1.mul r1
  · have e : ((v : ℝ) - w) ^ 2 = (|v - w| : ℚ) * (|v - w| : ℚ) := by
      rw [sq]
      push_cast
      rw [abs_mul_abs_self]
    rw [e, ← abs_mul_abs_self]
    push_cast at r2 ⊢
    exact r2.mul Fmt.binary32.one_le_q (by positivity) (by positivity) (by positivity)
      (by positivity) r2

/-- the sum of three squares of differences -/
theorem near_dot {dt : List (Float32' × Float32') → Float32'} (hdt : ∀ l, Fused l (dt l))
    {a b c : Float32'} {t u w : ℚ} {T U W : ℝ}
    (h1 : toExt a = .fin t ∧ Mid (-106) 102 (t * t) ∧ Close Fmt.binary32.q 2 ((t * t : ℚ) : ℝ) T ∧ 0 ≤ T)
    (h2 : toExt b = .fin u ∧ Mid (-106) 102 (u * u) ∧ Close Fmt.binary32.q 2 ((u * u : ℚ) : ℝ) U ∧ 0 ≤ U)
    (h3 : toExt c = .fin w ∧ Mid (-106) 102 (w * w) ∧ Close Fmt.binary32.q 2 ((w * w : ℚ) : ℝ) W ∧ 0 ≤ W) :
    Near (dt [(a, a), (b, b), (c, c)]) (-106) 104 5 (T + U + W) := by
  obtain ⟨h0, v, e1, e2, e3, e4⟩ := (hdt [(a, a), (b, b), (c, c)]).near (lo := -106) (hi := 102) (top := 104)
    (k := 2) (f := fun p : Float32' × ℚ × ℝ => p.1) (d := fun p => p.2.1) (t := fun p => p.2.2)
    (by decide) (by decide) (by decide) [(a, t, T), (b, u, U), (c, w, W)] rfl
    (by
      intro p hp
      simp only [List.mem_cons, List.not_mem_nil, or_false] at hp
      rcases hp with rfl | rfl | rfl
      · exact h1
      · exact h2
      · exact h3) (show 3 ≤ 2 ^ Fmt.binary32.prec by decide) (by norm_num)
  have hs : ([(a, t, T), (b, u, U), (c, w, W)].map fun p : Float32' × ℚ × ℝ => p.2.2).sum = T + U + W := by
    simp [add_assoc]
  rw [hs] at h0 e4
  refine ⟨h0, v, e1, ?_, e4⟩
  rcases e2 with e2 | e2
  · exact Or.inl e2
  · exact Or.inr ⟨e2, e3.trans (by norm_num)⟩

/-- the numbers of the backends: coordinates, masses, softening and how far they can be from one -/
structure InRange (x y z m : List Float32') (soft : Float32') (n : Nat) (X Y Z M : Nat → ℚ)
    (e : ℚ) : Prop where
  hx : ∀ j < n, toExt (x.getD j nan) = .fin (X j) ∧ Mid (-30) 50 |X j|
  hy : ∀ j < n, toExt (y.getD j nan) = .fin (Y j) ∧ Mid (-30) 50 |Y j|
  hz : ∀ j < n, toExt (z.getD j nan) = .fin (Z j) ∧ Mid (-30) 50 |Z j|
  hm : ∀ j < n, toExt (m.getD j nan) = .fin (M j) ∧ Mid (-40) 50 (M j)
  hs : toExt soft = .fin e ∧ Mid (-30) 50 e

/-- the softened distance squared -/
noncomputable def soft2 (X Y Z : Nat → ℚ) (e : ℚ) (i j : Nat) : ℝ :=
  (((X i : ℝ) - X j) ^ 2 + ((Y i : ℝ) - Y j) ^ 2 + ((Z i : ℝ) - Z j) ^ 2) + (e : ℝ) * e

theorem near_dist {dt : List (Float32' × Float32') → Float32'} (hdt : ∀ l, Fused l (dt l))
    {x y z m : List Float32'} {soft : Float32'} {n : Nat} {X Y Z M : Nat → ℚ} {e : ℚ}
    (h : InRange x y z m soft n X Y Z M e) {i j : Nat} (hi : i < n) (hj : j < n) :
    Near (@fortranDist _ (singleDotBy dt) x y z (Num.sq soft) i j) (-53) 53 4
      (Real.sqrt (soft2 X Y Z e i j)) := by
  obtain ⟨_, x1, x2, x3⟩ := near_diff (h.hx i hi).1 (h.hx j hj).1 (h.hx i hi).2 (h.hx j hj).2
  obtain ⟨_, y1, y2, y3⟩ := near_diff (h.hy i hi).1 (h.hy j hj).1 (h.hy i hi).2 (h.hy j hj).2
  obtain ⟨_, z1, z2, z3⟩ := near_diff (h.hz i hi).1 (h.hz j hj).1 (h.hz i hi).2 (h.hz j hj).2
  have s2 := near_dot hdt ⟨x1, x2, x3, sq_nonneg _⟩ ⟨y1, y2, y3, sq_nonneg _⟩ ⟨z1, z2, z3, sq_nonneg _⟩
  have ns := near_exact h.hs.1 h.hs.2
  have sq := ns.mul ns (by decide) (by decide)
  have s3 := s2.add (sq.mono (by decide) (by decide) (by decide)) (by decide) (by decide)
  have s4 := s3.mono (lo' := 2 * (-53)) (hi' := 2 * 53) (k' := 2 * 3) (by decide) (by decide)
    (by decide)
  exact s4.sqrt (by decide) (by decide)

theorem near_term {dt : List (Float32' × Float32') → Float32'} (hdt : ∀ l, Fused l (dt l))
    {x y z m : List Float32'} {soft : Float32'} {n : Nat} {X Y Z M : Nat → ℚ} {e : ℚ}
    (h : InRange x y z m soft n X Y Z M e) {i j : Nat} (hi : i < n) (hj : j < n)
    (hpos : 0 < soft2 X Y Z e i j) :
    Near (m.getD j nan /. @fortranDist _ (singleDotBy dt) x y z (Num.sq soft) i j) (-93) 103 5
      ((M j : ℝ) / Real.sqrt (soft2 X Y Z e i j)) :=
  (near_exact (h.hm j hj).1 (h.hm j hj).2).div (near_dist hdt h hi hj) (Real.sqrt_pos.2 hpos)
    (by decide) (by decide)

/-! ## The sum -/

/-- the exact sum of the first `n` terms -/
noncomputable def exactSum (X Y Z M : Nat → ℚ) (e : ℚ) (i n : Nat) : ℝ :=
  ∑ j ∈ Finset.range n, if i = j then 0 else (M j : ℝ) / Real.sqrt (soft2 X Y Z e i j)

theorem inner_near {dt : List (Float32' × Float32') → Float32'} (hdt : ∀ l, Fused l (dt l))
    {x y z m : List Float32'} {soft : Float32'} {n : Nat} {X Y Z M : Nat → ℚ} {e : ℚ}
    (h : InRange x y z m soft n X Y Z M e) {i : Nat} (hi : i < n) (hn : n ≤ 2 ^ 22)
    (hpos : ∀ j < n, i ≠ j → 0 < soft2 X Y Z e i j) (k : Nat) (hk : k ≤ n) :
    0 ≤ exactSum X Y Z M e i k ∧
    ∃ v : ℚ, toExt (@fortranInner _ (singleDotBy dt) x y z m (Num.sq soft) i k) = .fin v ∧
      (v = 0 ∨ (2 : ℚ) ^ (-93 : ℤ) ≤ v) ∧ v ≤ k * 2 ^ (103 : ℤ) ∧
      Close Fmt.binary32.q (k + 5) (v : ℝ) (exactSum X Y Z M e i k) := by
  induction k with
  | zero =>
    refine ⟨by simp [exactSum], 0, toExt_zero, Or.inl rfl, by simp, by simp [Close, exactSum]⟩
  | succ k ih =>
    obtain ⟨h0, v, e1, e2, e3, e4⟩ := ih (by omega)
    have hv0 : 0 ≤ v := by
      rcases e2 with rfl | e2
      · exact le_rfl
      · exact (zpow_pos (by norm_num) _).le.trans e2
    have hq := Fmt.binary32.one_le_q
    by_cases hik : i = k
    · have hs : exactSum X Y Z M e i (k + 1) = exactSum X Y Z M e i k := by
        simp [exactSum, Finset.sum_range_succ, hik]
      rw [hs]
      refine ⟨h0, v, by simpa [fortranInner, hik] using e1, e2, ?_,
        e4.mono hq (by exact_mod_cast hv0) h0 (by omega)⟩
      refine e3.trans (mul_le_mul_of_nonneg_right ?_ (zpow_pos (by norm_num) _).le)
      exact_mod_cast Nat.le_succ k
    · obtain ⟨ht, w, f1, f2, f3⟩ := near_term hdt h hi (j := k) (by omega) (hpos k (by omega) hik)
      have hw0 := f2.nonneg
      have hs : exactSum X Y Z M e i (k + 1)
          = exactSum X Y Z M e i k + (M k : ℝ) / Real.sqrt (soft2 X Y Z e i k) := by
        simp [exactSum, Finset.sum_range_succ, hik]
      rw [hs]
      have hsum : v + w ≤ ((k + 1 : ℕ) : ℚ) * 2 ^ (103 : ℤ) := by
        have := f2.le
        push_cast
        linarith
      have hbig : ((k + 1 : ℕ) : ℚ) * 2 ^ (103 : ℤ) ≤ 2 ^ (126 : ℤ) := by
        have h1 : ((k + 1 : ℕ) : ℚ) ≤ 2 ^ 22 := by exact_mod_cast (by omega : k + 1 ≤ 2 ^ 22)
        have h2 : (0 : ℚ) < 2 ^ (103 : ℤ) := zpow_pos (by norm_num) _
        calc ((k + 1 : ℕ) : ℚ) * 2 ^ (103 : ℤ) ≤ 2 ^ 22 * 2 ^ (103 : ℤ) :=
              mul_le_mul_of_nonneg_right h1 h2.le
          _ ≤ _ := by norm_num
      have hmid : Mid (-93) 126 (v + w) := by
        rcases e2 with rfl | e2
        · rw [zero_add]; exact f2.mono le_rfl (by decide)
        · right
          exact ⟨by linarith, hsum.trans hbig⟩
      obtain ⟨r1, r2⟩ := hmid.srnd (fmt := Fmt.binary32) (by decide)
      refine ⟨add_nonneg h0 ht, Fmt.binary32.srnd (v + w), ?_, ?_, ?_, ?_⟩
      · simp only [fortranInner, ne_eq, hik, not_false_eq_true, if_true]
        exact (toExt_add e1 f1).trans (clip_of_le r1 (by decide))
      · rcases r1 with r1 | r1
        · exact Or.inl r1
        · exact Or.inr r1.1
      · refine Fmt.binary32.srnd_le hsum (srnd_mul_pow ?_ (by decide))
        show k + 1 ≤ 2 ^ 24
        omega
      · rw [show k + 1 + 5 = 1 + (k + 5) by ring]
        refine r2.trans hq ?_
        push_cast
        exact e4.add (f3.mono hq (by exact_mod_cast hw0) ht (by omega))

/-! ## Conversions and the softening -/

/-- a format inside another one -/
theorem toExt_cast_exact {f g : Fmt} (h1 : f.prec ≤ g.prec) (h2 : g.emin ≤ f.emin)
    (h3 : f.maxFin ≤ g.maxFin) (a : Flt f) : toExt (cast a : Flt g) = toExt a := by
  cases a with
  | inf s => cases s <;> rfl
  | nan => rfl
  | fin s m =>
    show toExt (ofExact s (sval s m) : Flt g) = .fin (sval s m)
    rw [toExt_ofExact]
    have hm : g.roundPos m.val = m.val := by
      rcases m.nonneg.eq_or_lt with h | h
      · rw [← h, g.roundPos_zero]
      · have hu : g.uexp m.val ≤ f.uexp m.val := by unfold Fmt.uexp; omega
        obtain ⟨n, hn⟩ := f.multiple_of_grid (x := m.val) le_rfl m.grid
        refine g.roundPos_of_multiple (n := n * 2 ^ (f.uexp m.val - g.uexp m.val).toNat) ?_
        rw [g.ulp_eq]
        push_cast
        rw [mul_assoc, ← zpow_natCast, Int.toNat_of_nonneg (by omega), ← zpow_add₀ (by norm_num),
          sub_add_cancel, ← f.ulp_eq]
        exact hn
    have hs : g.srnd (sval s m) = sval s m := by
      cases s with
      | false => rw [show sval false m = m.val from rfl, g.srnd_of_nonneg m.nonneg, hm]
      | true =>
        rw [show sval true m = -m.val from rfl, g.srnd_neg, g.srnd_of_nonneg m.nonneg, hm]
    rw [hs]
    apply g.clip_fin
    have : |sval s m| = m.val := by
      cases s
      · exact abs_of_nonneg m.nonneg
      · rw [show sval true m = -m.val from rfl, abs_neg]
        exact abs_of_nonneg m.nonneg
    rw [this]
    exact m.le_max.trans h3

theorem toExt_up (a : Float32') : toExt (cast a : Float64) = toExt a :=
  toExt_cast_exact (by decide) (by decide) (by decide +kernel) a

/-- `e` is the largest softening among the types that have particles, none of which is NaN -/
def LargestSoftening (b : BGalaxy Float64) (e : Float64) : Prop :=
  let used := (if b.stars = [] then [] else [b.softS]) ++
    (if b.dm = [] then [] else [b.softDm]) ++ (if b.gas = [] then [] else [b.softG])
  e ∈ used ∧ ∀ s ∈ used, (s <=. e) = true

theorem foldl_max_spec {fmt : Fmt} (l : List (Flt fmt)) (a : Flt fmt) (ha : Num.isNaN a = false)
    (h : ∀ c ∈ l, Num.isNaN c = false) :
    l.foldl (fun a b => if (a <. b) = true then b else a) a ∈ a :: l ∧
      ∀ c ∈ a :: l, (c <=. l.foldl (fun a b => if (a <. b) = true then b else a) a) = true := by
  induction l generalizing a with
  | nil =>
    refine ⟨List.mem_cons_self, ?_⟩
    intro c hc
    rw [List.mem_singleton] at hc
    rw [hc]
    exact (NumOrd.le_total ha ha).elim id id
  | cons b l ih =>
    have hb := h b List.mem_cons_self
    have hl : ∀ c ∈ l, Num.isNaN c = false := fun c hc => h c (List.mem_cons_of_mem _ hc)
    simp only [List.foldl_cons]
    by_cases hab : (a <. b) = true
    · rw [if_pos hab]
      obtain ⟨h1, h2⟩ := ih b hb hl
      refine ⟨List.mem_cons_of_mem _ h1, ?_⟩
      intro c hc
      rcases List.mem_cons.1 hc with rfl | hc
      · refine NumOrd.le_trans ?_ (h2 b List.mem_cons_self)
        rw [NumOrd.lt_def] at hab
        exact (Bool.and_eq_true_iff.1 hab).1
      · exact h2 c hc
    · rw [if_neg hab]
      obtain ⟨h1, h2⟩ := ih a ha hl
      refine ⟨?_, ?_⟩
      · rcases List.mem_cons.1 h1 with h1 | h1
        · rw [h1]; exact List.mem_cons_self
        · exact List.mem_cons_of_mem _ (List.mem_cons_of_mem _ h1)
      · intro c hc
        rcases List.mem_cons.1 hc with rfl | hc
        · exact h2 _ List.mem_cons_self
        · rcases List.mem_cons.1 hc with rfl | hc
          · refine NumOrd.le_trans ?_ (h2 a List.mem_cons_self)
            rcases NumOrd.le_total ha hb with hle | hle
            · rw [NumOrd.lt_def, hle] at hab
              simpa using hab
            · exact hle
          · exact h2 c (List.mem_cons_of_mem _ hc)

theorem toExt_antisymm {fmt : Fmt} {a b : Flt fmt} (h1 : (a <=. b) = true) (h2 : (b <=. a) = true) :
    toExt a = toExt b := by
  have h1 : Ext.le (toExt a) (toExt b) = true := h1
  have h2 : Ext.le (toExt b) (toExt a) = true := h2
  generalize toExt a = a at *
  generalize toExt b = b at *
  cases a <;> cases b <;> simp_all [Ext.le]
  exact le_antisymm h1 h2

theorem toExt_seriesMax {l : List Float64} {e : Float64} (h1 : e ∈ l)
    (h2 : ∀ s ∈ l, (s <=. e) = true) : toExt (seriesMax l) = toExt e := by
  have hn : ∀ s ∈ l, Num.isNaN s = false := fun s hs => (NumOrd.not_nan_of_le (h2 s hs)).1
  have hf : l.filter (fun a => !Num.isNaN a) = l := by
    apply List.filter_eq_self.2
    intro a ha
    rw [hn a ha]
    rfl
  unfold seriesMax
  rw [hf]
  cases l with
  | nil => cases h1
  | cons a l =>
    obtain ⟨h3, h4⟩ := foldl_max_spec l a (hn a List.mem_cons_self)
      fun c hc => hn c (List.mem_cons_of_mem _ hc)
    exact toExt_antisymm (h2 _ h3) (h4 _ h1)

theorem LargestSoftening.toExt_eq {b : BGalaxy Float64} {e : Float64} (h : LargestSoftening b e) :
    toExt (seriesMax b.softs) = toExt e := by
  have hm : ∀ s, s ∈ b.softs ↔ s ∈ (if b.stars = [] then [] else [b.softS]) ++
      (if b.dm = [] then [] else [b.softDm]) ++ (if b.gas = [] then [] else [b.softG]) := by
    intro s
    have aux : ∀ (l : List (Body Float64)) (t : Float64),
        s ∈ l.map (fun _ => t) ↔ s ∈ (if l = [] then [] else [t]) := by
      intro l t
      cases l with
      | nil => simp
      | cons a l => simp
    simp only [BGalaxy.softs, List.mem_append, aux]
  exact toExt_seriesMax ((hm _).2 h.1) fun s hs => h.2 s ((hm s).1 hs)

/-! ## C77 -/

/-- the number after conversion to single precision (zero if that is not finite) -/
def sv (a : Float64) : ℚ :=
  match toExt (cast a : Float32') with
  | .fin v => v
  | _ => 0

/-- finite in single precision, and there zero or of a size between `2^lo` and `2^hi` -/
def Moderate (lo hi : ℤ) (a : Float64) : Prop :=
  toExt (cast a : Float32') = .fin (sv a) ∧ (sv a = 0 ∨ ((2 : ℚ) ^ lo ≤ |sv a| ∧ |sv a| ≤ 2 ^ hi))

/-- the softened N-body sum of the single precision data -/
noncomputable def singleSum (l : List (Body Float64)) (e : Float64) (i : Fin l.length) : ℝ :=
  ∑ j : Fin l.length, if i = j then 0 else
    (sv l[j].m : ℝ) / Real.sqrt (((sv l[i].x : ℝ) - sv l[j].x) ^ 2 + ((sv l[i].y : ℝ) - sv l[j].y) ^ 2
      + ((sv l[i].z : ℝ) - sv l[j].z) ^ 2 + (sv e : ℝ) ^ 2)

/-- The data is in the range in which single precision works: at most `2^22` particles, numbers that
are zero or of moderate size in single precision, no two particles that coincide in single precision
(unless there is a softening). -/
structure SingleData {fG : Fmt} (G : Flt fG) (g : ℚ) (b : BGalaxy Float64) (e : Float64) : Prop where
  noPot : b.hasPot = false
  gval : toExt G = .fin g
  grange : (2 : ℚ) ^ (-30 : ℤ) ≤ g ∧ g ≤ 1
  soft : LargestSoftening b e
  size : b.all.length ≤ 2 ^ 22
  pos : ∀ a ∈ b.all, Moderate (-30) 50 a.x ∧ Moderate (-30) 50 a.y ∧ Moderate (-30) 50 a.z
  mass : ∀ a ∈ b.all, Moderate (-40) 50 a.m ∧ 0 ≤ sv a.m
  softRange : Moderate (-30) 50 e ∧ 0 ≤ sv e
  sep : ∀ i j : Fin b.all.length, i ≠ j → sv e ≠ 0 ∨ sv b.all[i].x ≠ sv b.all[j].x ∨
    sv b.all[i].y ≠ sv b.all[j].y ∨ sv b.all[i].z ≠ sv b.all[j].z

/-- the columns in single precision are in range, and the exact sum is the one over the particles -/
theorem SingleData.range {fG : Fmt} {G : Flt fG} {g : ℚ} {b : BGalaxy Float64} {e : Float64}
    (h : SingleData G g b e) (i : Fin b.all.length) : ∃ X Y Z M : Nat → ℚ,
      InRange (b.all.map fun a => Flt.cast a.x) (b.all.map fun a => Flt.cast a.y)
        (b.all.map fun a => Flt.cast a.z) (b.all.map fun a => Flt.cast a.m)
        (Flt.cast (seriesMax b.softs)) b.all.length X Y Z M (sv e) ∧
      (∀ j < b.all.length, (i : Nat) ≠ j → 0 < soft2 X Y Z (sv e) i j) ∧
      exactSum X Y Z M (sv e) i b.all.length = singleSum b.all e i := by
  obtain ⟨hp, hG, hg, he, hn, hpos, hmass, hsoft, hsep⟩ := h
  let col : (Body Float64 → Float64) → Nat → ℚ := fun f j => (b.all[j]?.map fun a => sv (f a)).getD 0
  have hcol : ∀ (f : Body Float64 → Float64) (lo hi : ℤ), (∀ a ∈ b.all, Moderate lo hi (f a)) →
      ∀ j < b.all.length, toExt ((b.all.map fun a => (Flt.cast (f a) : Float32')).getD j nan) = .fin (col f j) ∧
        Mid lo hi |col f j| := by
    intro f lo hi h j hj
    have hj' : b.all[j]? = some b.all[j] := List.getElem?_eq_getElem hj
    have hm := h b.all[j] (List.getElem_mem hj)
    have e1 : col f j = sv (f b.all[j]) := by simp [col, hj']
    rw [e1]
    refine ⟨?_, ?_⟩
    · rw [List.getD_eq_getElem?_getD, List.getElem?_map, hj']
      exact hm.1
    · rcases hm.2 with h | h
      · left; simp [h]
      · exact Or.inr h
  have hval : ∀ (f : Body Float64 → Float64) (j : Fin b.all.length), col f j = sv (f b.all[j]) := by
    intro f j
    simp [col]
  have hr : InRange (b.all.map fun a => Flt.cast a.x) (b.all.map fun a => Flt.cast a.y)
      (b.all.map fun a => Flt.cast a.z) (b.all.map fun a => Flt.cast a.m) (Flt.cast (seriesMax b.softs)) b.all.length
      (col (·.x)) (col (·.y)) (col (·.z)) (col (·.m)) (sv e) := by
    refine ⟨hcol _ _ _ fun a ha => (hpos a ha).1, hcol _ _ _ fun a ha => (hpos a ha).2.1,
      hcol _ _ _ fun a ha => (hpos a ha).2.2, fun j hj => ?_, ?_, ?_⟩
    · obtain ⟨h1, h2⟩ := hcol (·.m) _ _ (fun a ha => (hmass a ha).1) j hj
      refine ⟨h1, ?_⟩
      have h3 := hval (·.m) ⟨j, hj⟩
      have h4 : 0 ≤ col (·.m) j := by
        rw [show col (·.m) j = sv (b.all[j]).m from h3]
        exact (hmass _ (List.getElem_mem hj)).2
      rwa [abs_of_nonneg h4] at h2
    · rw [toExt_cast, he.toExt_eq, ← toExt_cast]
      exact hsoft.1.1
    · rcases hsoft.1.2 with h | h
      · exact Or.inl h
      · rw [abs_of_nonneg hsoft.2] at h
        exact Or.inr h
  have hs2 : ∀ i j : Fin b.all.length, soft2 (col (·.x)) (col (·.y)) (col (·.z)) (sv e) i j
      = ((sv b.all[i].x : ℝ) - sv b.all[j].x) ^ 2 + ((sv b.all[i].y : ℝ) - sv b.all[j].y) ^ 2
        + ((sv b.all[i].z : ℝ) - sv b.all[j].z) ^ 2 + (sv e : ℝ) ^ 2 := by
    intro i j
    unfold soft2
    rw [hval, hval, hval, hval, hval, hval, sq (sv e : ℝ)]
  have hsep' : ∀ j < b.all.length, (i : Nat) ≠ j → 0 < soft2 (col (·.x)) (col (·.y)) (col (·.z)) (sv e) i j := by
    intro j hj hij
    have := hs2 i ⟨j, hj⟩
    rw [show soft2 (col (·.x)) (col (·.y)) (col (·.z)) (sv e) i j = _ from this]
    have hne : i ≠ ⟨j, hj⟩ := fun h => hij (congrArg Fin.val h)
    have aux : ∀ {v w : ℚ}, v ≠ w → 0 < ((v : ℝ) - w) ^ 2 := by
      intro v w h
      have : (v : ℝ) - w ≠ 0 := sub_ne_zero.2 (by exact_mod_cast h)
      positivity
    rcases hsep i ⟨j, hj⟩ hne with h | h | h | h
    · have : (sv e : ℝ) ≠ 0 := by exact_mod_cast h
      positivity
    · have := aux h; positivity
    · have := aux h; positivity
    · have := aux h; positivity
  have hsum : exactSum (col (·.x)) (col (·.y)) (col (·.z)) (col (·.m)) (sv e) i b.all.length
      = singleSum b.all e i := by
    unfold exactSum singleSum
    rw [← Fin.sum_univ_eq_sum_range (fun j => if (i : Nat) = j then 0 else
      (col (·.m) j : ℝ) / Real.sqrt (soft2 (col (·.x)) (col (·.y)) (col (·.z)) (sv e) i j)) b.all.length]
    apply Finset.sum_congr rfl
    intro j _
    rw [hs2 i j, hval]
    simp only [Fin.ext_iff]
  exact ⟨_, _, _, _, hr, hsep', hsum⟩

/-- the sum of the compiled loop for one particle -/
theorem SingleData.fortran_near {dt : List (Float32' × Float32') → Float32'} (hdt : ∀ l, Fused l (dt l))
    {fG : Fmt} {G : Flt fG} {g : ℚ} {b : BGalaxy Float64} {e : Float64} (h : SingleData G g b e)
    (i : Fin b.all.length) :
    Near (@fortranInner _ (singleDotBy dt) (b.all.map fun a => (Flt.cast a.x : Float32'))
      (b.all.map fun a => Flt.cast a.y) (b.all.map fun a => Flt.cast a.z) (b.all.map fun a => Flt.cast a.m)
      (Num.sq (Flt.cast (seriesMax b.softs))) i b.all.length) (-93) 125 (b.all.length + 5)
      (singleSum b.all e i) := by
  obtain ⟨X, Y, Z, M, hr, hsep', hsum⟩ := h.range i
  have hn := h.size
  obtain ⟨h0, v, e1, e2, e3, e4⟩ := inner_near hdt hr i.2 hn hsep' b.all.length le_rfl
  rw [hsum] at h0 e4
  refine ⟨h0, v, e1, ?_, e4⟩
  rcases e2 with h | h
  · exact Or.inl h
  · right
    refine ⟨h, e3.trans ?_⟩
    have h1 : ((b.all.length : ℕ) : ℚ) ≤ 2 ^ 22 := by exact_mod_cast hn
    calc (b.all.length : ℚ) * 2 ^ (103 : ℤ) ≤ 2 ^ 22 * 2 ^ (103 : ℤ) :=
          mul_le_mul_of_nonneg_right h1 (zpow_pos (by norm_num) _).le
      _ ≤ _ := by norm_num

/-- C77: every potential of the compiled backend is finite and agrees with the softened N-body sum
of the single precision data up to `n + 6` roundings, whether or not the compiler fuses the squares
with the additions. -/
theorem C77_accuracy {dt : List (Float32' × Float32') → Float32'} (hdt : ∀ l, Fused l (dt l))
    {G : Float32'} {g : ℚ} {b : BGalaxy Float64} {e : Float64}
    (h : SingleData G g b e) (junk : Nat → Nat → Float32') :
    ∃ p : Nat → Float64,
      @potential _ _ _ (singleDotBy dt) (singleEnv G true junk) (Galaxy.ofBodies b) "fortran"
        = .ok (Galaxy.ofBodies (b.withPot p)) ∧
      ∀ i : Fin b.all.length, ∃ v : ℚ, toExt (p i) = .fin (-v) ∧
        (g * singleSum b.all e i) * (1 - 2 ^ (-24 : ℤ)) ^ (b.all.length + 6) ≤ v ∧
        v * (1 - 2 ^ (-24 : ℤ)) ^ (b.all.length + 6) ≤ g * singleSum b.all e i := by
  refine ⟨_, @potential_ofBodies _ _ _ (singleDotBy dt) _ b "fortran" h.noPot (Or.inl ⟨rfl, rfl⟩), fun i => ?_⟩
  have hG := h.gval
  have hg := h.grange
  have hnear := h.fortran_near hdt i
  have hq := Fmt.binary32.one_le_q
  have hgn : Near G (-30) 0 0 (g : ℝ) := near_exact hG (Or.inr ⟨hg.1, by simpa using hg.2⟩)
  obtain ⟨t0, w, f1, f2, f3⟩ := hnear.mul hgn (by decide) (by decide)
  refine ⟨w, ?_, ?_⟩
  · have f1' := toExt_neg f1
    rw [← toExt_up] at f1'
    exact f1'
  · have hu : (1 : ℝ) - 2 ^ (-24 : ℤ) = Fmt.binary32.q⁻¹ := by
      rw [Fmt.q, inv_inv]; rfl
    rw [hu, mul_comm (g : ℝ)]
    have hqp : 0 < Fmt.binary32.q ^ (b.all.length + 6) := by positivity
    rw [inv_pow, ← div_eq_mul_inv, ← div_eq_mul_inv, div_le_iff₀ hqp, div_le_iff₀ hqp,
      mul_comm (w : ℝ), mul_comm _ (Fmt.binary32.q ^ (b.all.length + 6))]
    exact ⟨f3.2, f3.1⟩

/-- C77: the relative error is at most `(n + 6) / 2^23`. -/
theorem C77_relative_error {dt : List (Float32' × Float32') → Float32'} (hdt : ∀ l, Fused l (dt l))
    {G : Float32'} {g : ℚ} {b : BGalaxy Float64} {e : Float64}
    (h : SingleData G g b e) (junk : Nat → Nat → Float32') :
    ∃ p : Nat → Float64,
      @potential _ _ _ (singleDotBy dt) (singleEnv G true junk) (Galaxy.ofBodies b) "fortran"
        = .ok (Galaxy.ofBodies (b.withPot p)) ∧
      ∀ i : Fin b.all.length, ∃ v : ℚ, toExt (p i) = .fin v ∧
        |(v : ℝ) - -(g * singleSum b.all e i)|
          ≤ (b.all.length + 6) / 2 ^ 23 * (g * singleSum b.all e i) := by
  obtain ⟨p, h1, h2⟩ := C77_accuracy hdt h junk
  refine ⟨p, h1, fun i => ?_⟩
  obtain ⟨v, e1, e2, e3⟩ := h2 i
  refine ⟨-v, e1, ?_⟩
  set t := (g : ℝ) * singleSum b.all e i
  set k := b.all.length + 6 with hk
  have hkr : ((b.all.length : ℝ) + 6) = (k : ℝ) := by rw [hk]; push_cast; ring
  rw [hkr]
  have hk2 : (k : ℝ) ≤ 2 ^ 23 := by
    have := h.size
    have : k ≤ 2 ^ 23 := by rw [hk]; omega
    exact_mod_cast this
  have hb : 1 + (k : ℝ) * (-2 ^ (-24 : ℤ)) ≤ (1 + (-2 ^ (-24 : ℤ))) ^ k :=
    one_add_mul_le_pow (by norm_num) k
  have hw : (1 : ℝ) - 2 ^ (-24 : ℤ) = 1 + (-2 ^ (-24 : ℤ)) := by ring
  rw [hw] at e2 e3
  set w := ((1 : ℝ) + (-2 ^ (-24 : ℤ))) ^ k
  have hu : (2 : ℝ) ^ (-24 : ℤ) = 1 / 2 ^ 24 := by norm_num
  rw [hu] at hb
  have hw1 : w ≤ 1 := pow_le_one₀ (by norm_num) (by norm_num)
  have hwh : 1 / 2 ≤ w := by
    refine le_trans ?_ hb
    linarith
  have ht : 0 ≤ t := by
    have hg : (0 : ℝ) ≤ g := by
      have : (0 : ℚ) ≤ g := (zpow_pos (by norm_num) _).le.trans h.grange.1
      exact_mod_cast this
    refine mul_nonneg hg (Finset.sum_nonneg fun j _ => ?_)
    split_ifs
    · exact le_rfl
    · refine div_nonneg ?_ (Real.sqrt_nonneg _)
      exact_mod_cast (h.mass _ (List.getElem_mem j.2)).2
  have hv : 0 ≤ (v : ℝ) := by nlinarith
  rw [abs_le]
  push_cast
  constructor <;> nlinarith

/-! ## What single precision loses -/

/-- C77: separation in double precision is not enough.  Two stars of mass 1 that are `2^-10` apart
have finite potentials, with both backends; moved by `2^16` (an exact operation in double precision)
they coincide in single precision, and then the compiled backend gives `-inf` and the numpy backend
leaves the pair out. -/
theorem C77_moved_pair :
    let G : Float32' := .ofExact false (1 / 2 ^ 17)
    let near := axisGalaxy [(1, 0), (1, 1 / 2 ^ 10)]
    let far := axisGalaxy [(1, 2 ^ 16), (1, 2 ^ 16 + 1 / 2 ^ 10)]
    let env := singleEnv G true fun _ _ => .ofExact false 0
    (∀ i : Fin 2, toExt far.all[i].x = .fin (sv near.all[i].x + 2 ^ 16)) ∧
    (∃ p, potential env (Galaxy.ofBodies near) "fortran" = .ok (Galaxy.ofBodies (near.withPot p)) ∧
      toExt (p 0) = .fin (-1 / 2 ^ 7) ∧ toExt (p 1) = .fin (-1 / 2 ^ 7)) ∧
    (∃ p, potential env (Galaxy.ofBodies near) "numpy" = .ok (Galaxy.ofBodies (near.withPot p)) ∧
      toExt (p 0) = .fin (-1 / 2 ^ 7) ∧ toExt (p 1) = .fin (-1 / 2 ^ 7)) ∧
    (∃ p, potential env (Galaxy.ofBodies far) "fortran" = .ok (Galaxy.ofBodies (far.withPot p)) ∧
      toExt (p 0) = .ninf ∧ toExt (p 1) = .ninf) ∧
    (∃ p, potential env (Galaxy.ofBodies far) "numpy" = .ok (Galaxy.ofBodies (far.withPot p)) ∧
      toExt (p 0) = .fin 0 ∧ toExt (p 1) = .fin 0) := by
  refine ⟨by decide +kernel, ⟨_, potential_ofBodies _ _ _ rfl (Or.inl ⟨rfl, rfl⟩), ?_, ?_⟩,
    ⟨_, potential_ofBodies _ _ _ rfl (Or.inr rfl), ?_, ?_⟩,
    ⟨_, potential_ofBodies _ _ _ rfl (Or.inl ⟨rfl, rfl⟩), ?_, ?_⟩,
    ⟨_, potential_ofBodies _ _ _ rfl (Or.inr rfl), ?_, ?_⟩⟩ <;> decide +kernel

/-- the near pair is in the range of C77 -/
theorem nearPair_ok : SingleData (.ofExact false (1 / 2 ^ 17) : Float32') (1 / 2 ^ 17)
    (axisGalaxy [(1, 0), (1, 1 / 2 ^ 10)]) (.ofExact false 0) where
  noPot := rfl
  gval := by decide +kernel
  grange := by norm_num
  soft := ⟨by decide +kernel, by decide +kernel⟩
  size := by decide
  pos := by unfold Moderate; decide +kernel
  mass := by unfold Moderate; decide +kernel
  softRange := by unfold Moderate; decide +kernel
  sep := by decide +kernel

end GChop
