import Verif.Lemmas.Summation
import Verif.Props.PotentialError

/-!
# C83: what the numpy backend of `potential` computes in single precision
-/

namespace GChop
open Pd Flt Fmt

/-! ## Sums of numbers that are not negative, in any order -/

theorem Added.near {fmt : Fmt} {ι : Type} {f : ι → Flt fmt} {t : ι → ℝ} {lo hi top : ℤ} {k : ℕ}
    (hlo : fmt.emin + (fmt.prec - 1 : Int) ≤ lo) (hhi : fmt.emin ≤ hi) (htop : top ≤ fmt.emax)
    {l : List (Flt fmt)} {s : Flt fmt} (h : Added l s) :
    ∀ is : List ι, is.map f = l → (∀ i ∈ is, Near (f i) lo hi k (t i)) →
      is.length ≤ 2 ^ fmt.prec → (is.length : ℚ) * 2 ^ hi ≤ 2 ^ top →
      0 ≤ (is.map t).sum ∧ ∃ v : ℚ, toExt s = .fin v ∧ (v = 0 ∨ (2 : ℚ) ^ lo ≤ v) ∧
        v ≤ is.length * 2 ^ hi ∧ Close fmt.q (k + is.length) (v : ℝ) (is.map t).sum := by
  have hq := fmt.one_le_q
  induction h with
  | nil =>
    intro is h _ _ _
    rw [List.map_eq_nil_iff] at h
    subst h
    exact ⟨by simp, 0, toExt_zero, Or.inl rfl, by simp, by simp [Close]⟩
  | one a =>
    intro is h hf _ _
    obtain ⟨i, rfl, rfl⟩ := List.map_eq_singleton_iff.1 h
    obtain ⟨h0, v, e1, e2, e3⟩ := hf i (by simp)
    refine ⟨by simpa using h0, v, e1, ?_, by simpa using e2.le, ?_⟩
    · rcases e2 with e2 | e2
      · exact Or.inl e2
      · exact Or.inr e2.1
    · simp only [List.map_cons, List.map_nil, List.sum_cons, List.sum_nil, add_zero]
      exact e3.mono hq (by exact_mod_cast e2.nonneg) h0 (by simp)
  | zero _ ih =>
    intro is h hf hlen hB
    obtain ⟨h0, v, e1, e2, e3, e4⟩ := ih is h hf hlen hB
    refine ⟨h0, v, ?_, e2, e3, e4⟩
    have hz : toExt (Num.ofRat 0 : Flt fmt) = .fin 0 := toExt_zero
    rw [toExt_add hz e1, zero_add, grid_of_toExt e1]
    apply fmt.clip_fin
    have hv : 0 ≤ v := by
      rcases e2 with rfl | e2
      · exact le_rfl
      · exact (zpow_pos (by norm_num) _).le.trans e2
    rw [abs_of_nonneg hv]
    exact (e3.trans hB).trans (fmt.pow_le_maxFin htop)
  | @add l l1 l2 s1 s2 hp n1 n2 _ _ ih1 ih2 =>
    intro is h hf hlen hB
    obtain ⟨js, p1, p2⟩ := perm_of_map f hp is h
    obtain ⟨j1, j2, rfl, e1, e2⟩ := List.map_eq_append_iff.1 p2
    have hf' : ∀ i ∈ j1 ++ j2, Near (f i) lo hi k (t i) := fun i hi => hf i (p1.mem_iff.2 hi)
    have hs : (is.map t).sum = (j1.map t).sum + (j2.map t).sum := by
      rw [(p1.map t).sum_eq, List.map_append, List.sum_append]
    have hl : is.length = j1.length + j2.length := by
      rw [p1.length_eq, List.length_append]
    have q1 : 1 ≤ j1.length := List.length_pos_iff.2 (by rintro rfl; exact n1 e1.symm)
    have q2 : 1 ≤ j2.length := List.length_pos_iff.2 (by rintro rfl; exact n2 e2.symm)
    have hp2 : (0 : ℚ) < 2 ^ hi := zpow_pos (by norm_num) _
    have cut : ∀ n : ℕ, n ≤ is.length → (n : ℚ) * 2 ^ hi ≤ 2 ^ top := fun n hn =>
      (mul_le_mul_of_nonneg_right (by exact_mod_cast hn) hp2.le).trans hB
    obtain ⟨a0, v, v1, v2, v3, v4⟩ := ih1 j1 e1 (fun i hi => hf' i (by simp [hi])) (by omega)
      (cut _ (by omega))
    obtain ⟨b0, w, w1, w2, w3, w4⟩ := ih2 j2 e2 (fun i hi => hf' i (by simp [hi])) (by omega)
      (cut _ (by omega))
    have nonneg : ∀ {u : ℚ}, (u = 0 ∨ (2 : ℚ) ^ lo ≤ u) → 0 ≤ u := by
      rintro u (rfl | h)
      · exact le_rfl
      · exact (zpow_pos (by norm_num) _).le.trans h
    have v0 := nonneg v2
    have w0 := nonneg w2
    have hsum : v + w ≤ is.length * 2 ^ hi := by
      rw [hl]
      push_cast
      rw [add_mul]
      exact add_le_add v3 w3
    have hmid : Mid lo top (v + w) := by
      have := hsum.trans (cut _ le_rfl)
      rcases v2 with rfl | v2
      · rcases w2 with rfl | w2
        · left; simp
        · right; exact ⟨by simpa using w2, this⟩
      · right; exact ⟨by linarith, this⟩
    obtain ⟨r1, r2⟩ := hmid.srnd (fmt := fmt) hlo
    refine ⟨by rw [hs]; exact add_nonneg a0 b0, fmt.srnd (v + w),
      (toExt_add v1 w1).trans (clip_of_le r1 htop), ?_, ?_, ?_⟩
    · rcases r1 with r1 | r1
      · exact Or.inl r1
      · exact Or.inr r1.1
    · exact fmt.srnd_le hsum (srnd_mul_pow hlen hhi)
    · rw [hs, show k + is.length = 1 + (k + is.length - 1) by omega]
      refine r2.trans hq ?_
      push_cast
      exact (v4.mono hq (by exact_mod_cast v0) a0 (by omega)).add
        (w4.mono hq (by exact_mod_cast w0) b0 (by omega))

/-! ## One entry of the matrix -/

theorem numpyDist_eq {fmt : Fmt} (x y z : List (Flt fmt)) (soft : Flt fmt) {i j : Nat} (h : i ≠ j) :
    numpyDist x y z soft i j = fortranDist x y z (Num.sq soft) j i := by
  rw [fortranDist_flt]
  unfold numpyDist
  rw [if_neg h]

theorem numpyDist_self {S : Type} [Num S] (x y z : List S) (soft : S) (i : Nat) :
    numpyDist x y z soft i i = Num.ofRat 0 := by
  unfold numpyDist
  rw [if_pos rfl]

theorem soft2_comm (X Y Z : Nat → ℚ) (e : ℚ) (i j : Nat) : soft2 X Y Z e i j = soft2 X Y Z e j i := by
  unfold soft2
  ring

/-- a number that stands for a positive one is not equal to zero -/
theorem Flt.Near.ne_zero {fmt : Fmt} {a : Flt fmt} {lo hi : ℤ} {k : ℕ} {t : ℝ} (h : Near a lo hi k t)
    (ht : 0 < t) : (a ==. Num.ofRat 0) = false := by
  obtain ⟨-, v, e1, -, e3⟩ := h
  have hv : v ≠ 0 := by
    rintro rfl
    have := e3.2
    simp at this
    linarith
  rw [← Bool.not_eq_true, Flt.eq_zero_iff]
  rintro ⟨s, m, rfl, hm⟩
  apply hv
  simp only [toExt, Ext.fin.injEq] at e1
  rw [← e1]
  exact sval_of_zero hm

/-- entry `j` of the row of particle `i` -/
def numpyEntry (junk : Nat → Nat → Float32') (x y z m : List Float32') (soft : Float32')
    (i j : Nat) : Float32' :=
  if !(numpyDist x y z soft i j ==. Num.ofRat 0) then m.getD j nan /. numpyDist x y z soft i j
  else junk i j

theorem near_entry {x y z m : List Float32'} {soft : Float32'} {n : Nat} {X Y Z M : Nat → ℚ} {e : ℚ}
    (h : InRange x y z m soft n X Y Z M e) {i j : Nat} (hi : i < n) (hj : j < n)
    (hpos : i ≠ j → 0 < soft2 X Y Z e i j) (junk : Nat → Nat → Float32') {r : ℚ}
    (hr : toExt (junk i i) = .fin r) (hm : Mid (-93) 103 r) :
    Near (numpyEntry junk x y z m soft i j) (-93) 103 5
      (if i = j then (r : ℝ) else (M j : ℝ) / Real.sqrt (soft2 X Y Z e i j)) := by
  unfold numpyEntry
  by_cases hij : i = j
  · subst hij
    have : ((Num.ofRat 0 : Float32') ==. Num.ofRat 0) = true := by decide +kernel
    rw [numpyDist_self, this]
    simp only [Bool.not_true, Bool.false_eq_true, if_false, if_true]
    exact (near_exact hr hm).mono le_rfl le_rfl (by decide)
  · have hd := near_dist (dt := Num.dot) fused_leftFold h hj hi
    have hp := hpos hij
    rw [soft2_comm] at hp
    rw [numpyDist_eq _ _ _ _ hij, hd.ne_zero (Real.sqrt_pos.2 hp)]
    simp only [Bool.not_false, if_true, hij, if_false]
    rw [soft2_comm]
    exact (near_exact (h.hm j hj).1 (h.hm j hj).2).div hd (Real.sqrt_pos.2 hp) (by decide) (by decide)

/-! ## C83 -/

theorem sum_with_diagonal (n i : Nat) (hi : i < n) (r : ℝ) (t : Nat → ℝ) :
    ((List.range n).map fun j => if i = j then r else t j).sum
      = (∑ j ∈ Finset.range n, if i = j then 0 else t j) + r := by
  have h1 : ∀ f : Nat → ℝ, ((List.range n).map f).sum = ∑ j ∈ Finset.range n, f j := by
    intro f
    simp [Finset.sum, Finset.range, Multiset.range]
  have h2 : ∀ j, (if i = j then r else t j) = (if i = j then 0 else t j) + if i = j then r else 0 := by
    intro j
    split_ifs <;> simp
  rw [h1, Finset.sum_congr rfl fun j _ => h2 j, Finset.sum_add_distrib, Finset.sum_ite_eq,
    if_pos (Finset.mem_range.2 hi)]

/-- `k` roundings of a number that is not negative -/
theorem relative_of_pow {k : ℕ} (hk : k ≤ 2 ^ 23) {t v : ℝ} (ht : 0 ≤ t) (hv : 0 ≤ v)
    (h : Close Fmt.binary32.q k v t) : |v - t| ≤ k / 2 ^ 23 * t := by
  have hk2 : (k : ℝ) ≤ 2 ^ 23 := by exact_mod_cast hk
  have hu : (1 : ℝ) - 2 ^ (-24 : ℤ) = Fmt.binary32.q⁻¹ := by
    rw [Fmt.q, inv_inv]; rfl
  have hqp : 0 < Fmt.binary32.q ^ k := by
    have := Fmt.binary32.one_le_q
    positivity
  have hb : 1 + (k : ℝ) * (-2 ^ (-24 : ℤ)) ≤ (1 + (-2 ^ (-24 : ℤ))) ^ k :=
    one_add_mul_le_pow (by norm_num) k
  rw [← sub_eq_add_neg (1 : ℝ), hu, inv_pow] at hb
  obtain ⟨w, hw⟩ : ∃ w, w = (Fmt.binary32.q ^ k)⁻¹ := ⟨_, rfl⟩
  have e2 : t * w ≤ v := by
    rw [hw, ← div_eq_mul_inv, div_le_iff₀ hqp, mul_comm]
    exact h.2
  have e3 : v * w ≤ t := by
    rw [hw, ← div_eq_mul_inv, div_le_iff₀ hqp, mul_comm]
    exact h.1
  rw [← hw, show (2 : ℝ) ^ (-24 : ℤ) = 1 / 2 ^ 24 by norm_num] at hb
  have hwh : 1 / 2 ≤ w := by
    refine le_trans ?_ hb
    linarith
  have hw1 : w ≤ 1 := by
    rw [hw]
    exact inv_le_one_of_one_le₀ (one_le_pow₀ Fmt.binary32.one_le_q)
  rw [abs_le]
  constructor <;> nlinarith

/-- the sum of the row of one particle -/
theorem SingleData.numpy_near (sm : List Float32' → Float32') (hs : ∀ l, Added l (sm l)) {fG : Fmt}
    {G : Flt fG} {g : ℚ} {b : BGalaxy Float64} {e : Float64} (h : SingleData G g b e)
    (junk : Nat → Nat → Float32') (i : Fin b.all.length) {J : ℚ} (hJ : toExt (junk i i) = .fin J ∧
      (J = 0 ∨ ((2 : ℚ) ^ (-93 : ℤ) ≤ J ∧ J ≤ 2 ^ (103 : ℤ)))) :
    Near (sm ((List.range b.all.length).map (numpyEntry junk (b.all.map fun a => Flt.cast a.x)
      (b.all.map fun a => Flt.cast a.y) (b.all.map fun a => Flt.cast a.z)
      (b.all.map fun a => Flt.cast a.m) (Flt.cast (seriesMax b.softs)) i))) (-93) 125 (5 + b.all.length)
      (singleSum b.all e i + J) := by
  obtain ⟨X, Y, Z, M, hr, hsep, hsum⟩ := h.range i
  have hn := h.size
  have hadd := hs ((List.range b.all.length).map (numpyEntry junk (b.all.map fun a => Flt.cast a.x)
    (b.all.map fun a => Flt.cast a.y) (b.all.map fun a => Flt.cast a.z)
    (b.all.map fun a => Flt.cast a.m) (Flt.cast (seriesMax b.softs)) i))
  obtain ⟨h0, v, e1, e2, e3, e4⟩ := hadd.near (lo := -93) (hi := 103) (top := 125) (k := 5)
    (t := fun j => if (i : Nat) = j then (J : ℝ) else (M j : ℝ) / Real.sqrt (soft2 X Y Z (sv e) i j))
    (by decide) (by decide) (by decide) _ rfl
    (fun j hj => near_entry hr i.2 (List.mem_range.1 hj) (hsep j (List.mem_range.1 hj)) junk hJ.1 hJ.2)
    (by rw [List.length_range]; exact hn.trans (by decide))
    (by
      rw [List.length_range]
      have h1 : ((b.all.length : ℕ) : ℚ) ≤ 2 ^ 22 := by exact_mod_cast hn
      calc (b.all.length : ℚ) * 2 ^ (103 : ℤ) ≤ 2 ^ 22 * 2 ^ (103 : ℤ) :=
            mul_le_mul_of_nonneg_right h1 (zpow_pos (by norm_num) _).le
        _ ≤ _ := by norm_num)
  rw [sum_with_diagonal _ _ i.2 (J : ℝ) fun j => (M j : ℝ) / Real.sqrt (soft2 X Y Z (sv e) i j)] at h0 e4
  have hsum' : (∑ j ∈ Finset.range b.all.length, if (i : Nat) = j then 0 else
      (M j : ℝ) / Real.sqrt (soft2 X Y Z (sv e) i j)) = singleSum b.all e i := hsum
  rw [hsum'] at h0 e4
  rw [List.length_range] at e3 e4
  refine ⟨h0, v, e1, ?_, e4⟩
  rcases e2 with h | h
  · exact Or.inl h
  · right
    refine ⟨h, e3.trans ?_⟩
    have h1 : ((b.all.length : ℕ) : ℚ) ≤ 2 ^ 22 := by exact_mod_cast hn
    calc (b.all.length : ℚ) * 2 ^ (103 : ℤ) ≤ 2 ^ 22 * 2 ^ (103 : ℤ) :=
          mul_le_mul_of_nonneg_right h1 (zpow_pos (by norm_num) _).le
      _ ≤ _ := by norm_num

/-- C83: the numpy backend gives minus `G` times the exact softened N-body sum of the single precision
data plus what the output buffer of `np.divide` held on the diagonal, up to a relative error of
`(n + 6) / 2^23`, for every order of the additions. -/
theorem C83_numpy (sm : List Float32' → Float32') (hs : ∀ l, Added l (sm l)) {G : Float32'} {g : ℚ}
    {b : BGalaxy Float64} {e : Float64} (h : SingleData G g b e) (built : Bool)
    (junk : Nat → Nat → Float32') (J : Nat → ℚ)
    (hJ : ∀ i < b.all.length, toExt (junk i i) = .fin (J i) ∧
      (J i = 0 ∨ ((2 : ℚ) ^ (-93 : ℤ) ≤ J i ∧ J i ≤ 2 ^ (103 : ℤ)))) :
    ∃ p : Nat → Float64,
      @potential _ _ _ (singleSumBy sm) (singleEnv G built junk) (Galaxy.ofBodies b) "numpy"
        = .ok (Galaxy.ofBodies (b.withPot p)) ∧
      ∀ i : Fin b.all.length, ∃ v : ℚ, toExt (p i) = .fin v ∧
        |(v : ℝ) - -(g * (singleSum b.all e i + J i))|
          ≤ (b.all.length + 6) / 2 ^ 23 * (g * (singleSum b.all e i + J i)) := by
  refine ⟨_, @potential_ofBodies _ _ _ (singleSumBy sm) _ b "numpy" h.noPot (Or.inr rfl), fun i => ?_⟩
  have hn := h.size
  have hnear := h.numpy_near sm hs junk i (hJ i i.2)
  have hgn : Near G (-30) 0 0 (g : ℝ) :=
    near_exact h.gval (Or.inr ⟨h.grange.1, by simpa using h.grange.2⟩)
  obtain ⟨t0, w, f1, f2, f3⟩ := hnear.mul hgn (by decide) (by decide)
  refine ⟨-w, ?_, ?_⟩
  · have f1' : toExt (Num.neg (sm ((List.range b.all.length).map
        (numpyEntry junk (b.all.map fun a => Flt.cast a.x) (b.all.map fun a => Flt.cast a.y)
          (b.all.map fun a => Flt.cast a.z) (b.all.map fun a => Flt.cast a.m)
          (Flt.cast (seriesMax b.softs)) i)) *. G : Float32')) = .fin (-w) := toExt_neg f1
    rw [← toExt_up] at f1'
    exact f1'
  · have := relative_of_pow (k := 5 + b.all.length + 0 + 1) (by omega) t0 (by exact_mod_cast f2.nonneg) f3
    push_cast at this ⊢
    rw [show -(w : ℝ) - -(g * (singleSum b.all e i + J i)) = -(w - (singleSum b.all e i + J i) * g) by ring,
      abs_neg]
    refine this.trans (le_of_eq ?_)
    ring

/-- C83: with a diagonal of zeros in the output buffer both backends agree: each pair of potentials
differs by at most `(n + 6) / 2^22` of the exact value. -/
theorem C83_agree {dt : List (Float32' × Float32') → Float32'} (hdt : ∀ l, Fused l (dt l))
    (sm : List Float32' → Float32') (hs : ∀ l, Added l (sm l)) {G : Float32'} {g : ℚ}
    {b : BGalaxy Float64} {e : Float64} (h : SingleData G g b e) (junk : Nat → Nat → Float32')
    (hJ : ∀ i < b.all.length, toExt (junk i i) = .fin 0) :
    ∃ p p' : Nat → Float64,
      @potential _ _ _ (singleDotBy dt) (singleEnv G true junk) (Galaxy.ofBodies b) "fortran"
        = .ok (Galaxy.ofBodies (b.withPot p)) ∧
      @potential _ _ _ (singleSumBy sm) (singleEnv G true junk) (Galaxy.ofBodies b) "numpy"
        = .ok (Galaxy.ofBodies (b.withPot p')) ∧
      ∀ i : Fin b.all.length, ∃ v v' : ℚ, toExt (p i) = .fin v ∧ toExt (p' i) = .fin v' ∧
        |(v : ℝ) - v'| ≤ (b.all.length + 6) / 2 ^ 22 * (g * singleSum b.all e i) := by
  obtain ⟨p, h1, h2⟩ := C77_relative_error hdt h junk
  obtain ⟨p', h3, h4⟩ := C83_numpy sm hs h true junk (fun _ => 0) fun i hi => ⟨hJ i hi, Or.inl rfl⟩
  refine ⟨p, p', h1, h3, fun i => ?_⟩
  obtain ⟨v, e1, e2⟩ := h2 i
  obtain ⟨v', e3, e4⟩ := h4 i
  refine ⟨v, v', e1, e3, ?_⟩
  rw [Rat.cast_zero, add_zero] at e4
  have h5 := abs_sub_le (v : ℝ) (-(g * singleSum b.all e i)) v'
  rw [abs_sub_comm (-(g * singleSum b.all e i : ℝ))] at h5
  refine h5.trans ((add_le_add e2 e4).trans (le_of_eq ?_))
  ring

/-- C83: otherwise they do not.  Two stars of mass 1 at distance `2^-10` and `2^20` on the diagonal:
the potentials of the numpy backend are `-8 - 2^-7`, those of the compiled one `-2^-7`. -/
theorem C83_diagonal :
    let b := axisGalaxy [(1, 0), (1, 1 / 2 ^ 10)]
    let env := singleEnv (.ofExact false (1 / 2 ^ 17)) true fun _ _ => .ofExact false (2 ^ 20)
    (∃ p, potential env (Galaxy.ofBodies b) "fortran" = .ok (Galaxy.ofBodies (b.withPot p)) ∧
      toExt (p 0) = .fin (-1 / 2 ^ 7) ∧ toExt (p 1) = .fin (-1 / 2 ^ 7)) ∧
    (∃ p, potential env (Galaxy.ofBodies b) "numpy" = .ok (Galaxy.ofBodies (b.withPot p)) ∧
      toExt (p 0) = .fin (-8 - 1 / 2 ^ 7) ∧ toExt (p 1) = .fin (-8 - 1 / 2 ^ 7)) := by
  refine ⟨⟨_, potential_ofBodies _ _ _ rfl (Or.inl ⟨rfl, rfl⟩), ?_, ?_⟩,
    ⟨_, potential_ofBodies _ _ _ rfl (Or.inr rfl), ?_, ?_⟩⟩ <;> decide +kernel

/-- the two stars with numpy's order of summation -/
example := C83_agree fused_fmaChain npSum added_npSum nearPair_ok (fun _ _ => .ofExact false 0) fun _ _ => toExt_zero

end GChop
