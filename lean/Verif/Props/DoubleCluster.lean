import Verif.Lemmas.BinaryAdd
import Verif.Lemmas.BinaryEdges
import Verif.Props.ClusterExact

/-!
# C79: `AutoGaussianMixture` in double precision
-/

namespace GChop
open Flt

/-! ## The number of components -/

/-- the value of a finite number, bounded in size -/
def Bic (e : ℤ) (a : Float64) : Prop := Num.isFinite a = true ∧ |value a| ≤ 2 ^ e

theorem add_step {s b : Float64} {v w : ℚ} (hs : toExt s = .fin v) (hb : toExt b = .fin w)
    (h : |v + w| ≤ 2 ^ (43 : ℤ)) :
    ∃ u, toExt (s +. b) = .fin u ∧ |u - (v + w)| ≤ 1 / 2 ^ 11 := by
  refine ⟨Fmt.binary64.srnd (v + w), ?_, ?_⟩
  · rw [toExt_add hs hb]
    exact clip_srnd h (by decide) (by decide)
  · have := Fmt.binary64.srnd_abs_err h (by decide)
    refine this.trans ?_
    show (2 : ℚ) ^ ((43 : ℤ) - 53) / 2 ≤ _
    norm_num

theorem sum_five {a b c d e : Float64} (ha : Bic 40 a) (hb : Bic 40 b) (hc : Bic 40 c)
    (hd : Bic 40 d) (he : Bic 40 e) :
    ∃ u, toExt (Num.sum [a, b, c, d, e]) = .fin u ∧
      |u - (value a + value b + value c + value d + value e)| ≤ 5 / 2 ^ 11 := by
  have e43 : (2 : ℚ) ^ (43 : ℤ) = 8796093022208 := by norm_num
  have e40 : (2 : ℚ) ^ (40 : ℤ) = 1099511627776 := by norm_num
  obtain ⟨ha1, ha2⟩ := ha
  obtain ⟨hb1, hb2⟩ := hb
  obtain ⟨hc1, hc2⟩ := hc
  obtain ⟨hd1, hd2⟩ := hd
  obtain ⟨he1, he2⟩ := he
  rw [e40, abs_le] at ha2 hb2 hc2 hd2 he2
  obtain ⟨u1, t1, r1⟩ := add_step (toExt_zero (fmt := Fmt.binary64)) (toExt_value ha1)
    (by rw [e43, abs_le]; constructor <;> linarith)
  rw [abs_le] at r1
  obtain ⟨u2, t2, r2⟩ := add_step t1 (toExt_value hb1)
    (by rw [e43, abs_le]; constructor <;> linarith)
  rw [abs_le] at r2
  obtain ⟨u3, t3, r3⟩ := add_step t2 (toExt_value hc1)
    (by rw [e43, abs_le]; constructor <;> linarith)
  rw [abs_le] at r3
  obtain ⟨u4, t4, r4⟩ := add_step t3 (toExt_value hd1)
    (by rw [e43, abs_le]; constructor <;> linarith)
  rw [abs_le] at r4
  obtain ⟨u5, t5, r5⟩ := add_step t4 (toExt_value he1)
    (by rw [e43, abs_le]; constructor <;> linarith)
  rw [abs_le] at r5
  refine ⟨u5, t5, ?_⟩
  rw [abs_le]
  constructor <;> linarith

/-- the mean of the last five values, exactly -/
def exactMean (bics : List Float64) : ℚ := lastFive (bics.map value)

theorem last_five {l : List Float64} (h : l.length = 5) : ∃ a b c d e, l = [a, b, c, d, e] := by
  match l, h with
  | [a, b, c, d, e], _ => exact ⟨a, b, c, d, e, rfl⟩

theorem mean_err {bics : List Float64} (h5 : 5 ≤ bics.length) (hb : ∀ b ∈ bics, Bic 40 b) :
    ∃ u, toExt (lastFiveMean bics) = .fin u ∧ |u - exactMean bics| ≤ 3 / 2 ^ 12 ∧
      |exactMean bics| ≤ 2 ^ (40 : ℤ) := by
  have e40 : (2 : ℚ) ^ (40 : ℤ) = 1099511627776 := by norm_num
  obtain ⟨a, b, c, d, e, hl⟩ := last_five (l := bics.drop (bics.length - 5))
    (by rw [List.length_drop]; omega)
  have hm : ∀ x ∈ [a, b, c, d, e], Bic 40 x := fun x hx =>
    hb x (List.mem_of_mem_drop (by rw [hl]; exact hx))
  have ha := hm a (by simp)
  have hb := hm b (by simp)
  have hc := hm c (by simp)
  have hd := hm d (by simp)
  have he := hm e (by simp)
  obtain ⟨s, hs, hr⟩ := sum_five ha hb hc hd he
  have hmean : exactMean bics = (value a + value b + value c + value d + value e) / 5 := by
    unfold exactMean lastFive
    rw [List.length_map, ← List.map_drop, hl]
    simp
    ring
  have h5' : toExt (Num.ofRat 5 : Float64) = .fin 5 := by decide +kernel
  obtain ⟨-, ha2⟩ := ha
  obtain ⟨-, hb2⟩ := hb
  obtain ⟨-, hc2⟩ := hc
  obtain ⟨-, hd2⟩ := hd
  obtain ⟨-, he2⟩ := he
  rw [e40, abs_le] at ha2 hb2 hc2 hd2 he2
  rw [abs_le] at hr
  have hq : |s / 5| ≤ 2 ^ (41 : ℤ) := by
    rw [show (2 : ℚ) ^ (41 : ℤ) = 2199023255552 by norm_num, abs_le]
    constructor <;> linarith
  refine ⟨Fmt.binary64.srnd (s / 5), ?_, ?_, ?_⟩
  · unfold lastFiveMean
    rw [hl, toExt_div hs h5' (by norm_num)]
    exact clip_srnd hq (by decide) (by decide)
  · have h1 := Fmt.binary64.srnd_abs_err hq (by decide)
    have h2 : (2 : ℚ) ^ ((41 : ℤ) - (Fmt.binary64.prec : ℕ)) / 2 ≤ 1 / 2 ^ 13 := by
      show (2 : ℚ) ^ ((41 : ℤ) - 53) / 2 ≤ _
      norm_num
    have h3 := h1.trans h2
    rw [abs_le] at h3 ⊢
    rw [hmean]
    constructor <;> linarith
  · rw [hmean, e40, abs_le]
    constructor <;> linarith

/-- the computed excess of one value over the mean -/
theorem delta_err {bics : List Float64} (h5 : 5 ≤ bics.length) (hb : ∀ b ∈ bics, Bic 40 b)
    {b : Float64} (hm : b ∈ bics) :
    ∃ u, toExt (b -. lastFiveMean bics) = .fin u ∧ |u - (value b - exactMean bics)| ≤ 1 / 2 ^ 10 := by
  have e40 : (2 : ℚ) ^ (40 : ℤ) = 1099511627776 := by norm_num
  obtain ⟨m, h1, h2, h3⟩ := mean_err h5 hb
  obtain ⟨f, hv⟩ := hb b hm
  rw [e40, abs_le] at h3 hv
  rw [abs_le] at h2
  have hq : |value b - m| ≤ 2 ^ (42 : ℤ) := by
    rw [show (2 : ℚ) ^ (42 : ℤ) = 4398046511104 by norm_num, abs_le]
    constructor <;> linarith
  refine ⟨Fmt.binary64.srnd (value b - m), ?_, ?_⟩
  · rw [toExt_sub (toExt_value f) h1]
    exact clip_srnd hq (by decide) (by decide)
  · have h1 := Fmt.binary64.srnd_abs_err hq (by decide)
    have h2 : (2 : ℚ) ^ ((42 : ℤ) - (Fmt.binary64.prec : ℕ)) / 2 ≤ 1 / 2 ^ 12 := by
      show (2 : ℚ) ^ ((42 : ℤ) - 53) / 2 ≤ _
      norm_num
    have h3 := h1.trans h2
    rw [abs_le] at h3 ⊢
    constructor <;> linarith

/-- C79: with the default `c_bic` (or a larger one) the selection never fails on values of size up to
`2^40`, and rounding moves the criterion by at most `2^-10`: the value of the chosen candidate exceeds
the exact mean of the last five by at most `c_bic + 2^-10`, and no smaller candidate lies below the
exact mean plus `c_bic - 2^-10`. -/
theorem C79_selection (ctt : List Nat) (bics : List Float64) (hl : ctt.length = bics.length)
    (h5 : 5 ≤ bics.length) (hb : ∀ b ∈ bics, Bic 40 b) (cBic : Float64)
    (hc : ((Num.ofRat (1 / 10) : Float64) <=. cBic) = true) :
    ∃ n, selectComponents cBic ctt bics = .ok n ∧
      (Num.isFinite cBic = true →
        (∃ (i : Nat) (b : Float64), ctt[i]? = some n ∧ bics[i]? = some b ∧
          value b - exactMean bics ≤ value cBic + 1 / 2 ^ 10) ∧
        ∀ (i m : Nat) (b : Float64), ctt[i]? = some m → bics[i]? = some b →
          value b - exactMean bics ≤ value cBic - 1 / 2 ^ 10 → n ≤ m) := by
  obtain ⟨h1, h2⟩ := C44_choice cBic ctt bics
  have hten : ∃ t : ℚ, toExt (Num.ofRat (1 / 10) : Float64) = .fin t ∧ 1 / 2 ^ 10 ≤ t := by
    refine ⟨value (Num.ofRat (1 / 10) : Float64), toExt_value (by decide +kernel), by decide +kernel⟩
  obtain ⟨t, ht1, ht2⟩ := hten
  have hok : ∃ n, ∃ (i : Nat) (b : Float64), ctt[i]? = some n ∧ bics[i]? = some b ∧
      ((b -. lastFiveMean bics) <=. cBic) = true := by
    obtain ⟨x, hx, hle⟩ := exists_le_lastFive (bics.map value) (by simpa using h5)
    obtain ⟨b, hbm, rfl⟩ := List.mem_map.1 hx
    obtain ⟨i, hi⟩ := List.mem_iff_getElem?.1 hbm
    have hlt : i < ctt.length := by rw [hl]; exact (List.getElem?_eq_some_iff.1 hi).1
    refine ⟨ctt[i], i, b, List.getElem?_eq_getElem hlt, hi, ?_⟩
    refine NumOrd.le_trans ?_ hc
    obtain ⟨u, hu, he⟩ := delta_err h5 hb hbm
    show Ext.le (toExt (b -. lastFiveMean bics)) (toExt (Num.ofRat (1 / 10) : Float64)) = true
    rw [hu, ht1]
    have hle : value b ≤ exactMean bics := hle
    rw [abs_le] at he
    simp only [Ext.le, decide_eq_true_eq]
    linarith
  cases hs : selectComponents cBic ctt bics with
  | error e => exact absurd hok ((h2 e).1 hs).2
  | ok n =>
    obtain ⟨⟨i, b, a1, a2, a3⟩, a4⟩ := (h1 n).1 hs
    refine ⟨n, rfl, fun hf => ⟨⟨i, b, a1, a2, ?_⟩, ?_⟩⟩
    · obtain ⟨u, hu, he⟩ := delta_err h5 hb (List.mem_of_getElem? a2)
      have a3 : Ext.le (toExt (b -. lastFiveMean bics)) (toExt cBic) = true := a3
      rw [hu, toExt_value hf] at a3
      simp only [Ext.le, decide_eq_true_eq] at a3
      rw [abs_le] at he
      linarith
    · intro i m b c1 c2 c3
      refine a4 m ⟨i, b, c1, c2, ?_⟩
      obtain ⟨u, hu, he⟩ := delta_err h5 hb (List.mem_of_getElem? c2)
      show Ext.le (toExt (b -. lastFiveMean bics)) (toExt cBic) = true
      rw [hu, toExt_value hf]
      simp only [Ext.le, decide_eq_true_eq]
      rw [abs_le] at he
      linarith

/-- C79: with `c_bic = 0`, which exact arithmetic allows (C44), rounding can leave no candidate.  All
values are `-0.11`; their mean comes out lower. -/
theorem C79_zero_cut :
    selectComponents (Num.ofRat 0 : Float64) componentsToTry
      (List.replicate 14 (Num.ofRat (-11 / 100))) = .error .valueError := by decide +kernel

/-- the values need not be equal to choose among them -/
example : selectComponents (Num.ofRat (1 / 10) : Float64) componentsToTry
    ((List.range 14).map fun i : Nat => Num.ofRat (18 - i)) = .ok 13 := by decide +kernel

example : ∀ b ∈ (List.range 14).map (fun i : Nat => (Num.ofRat (18 - i) : Float64)), Bic 40 b := by
  unfold Bic
  decide +kernel

/-! ## The four probabilities -/

/-- one membership probability added to a sum of `k` -/
theorem prob_step {s x : Float64} {k : ℕ} {v : ℚ} {t : ℝ} (hk : k + 1 ≤ 2 ^ 53)
    (hs : toExt s = .fin v) (h0 : 0 ≤ v) (h1 : v ≤ k) (hc : Close Fmt.binary64.q k v t)
    (hx : Num.isFinite x = true) (hx0 : 0 ≤ value x) (hx1 : value x ≤ 1) :
    ∃ u : ℚ, toExt (s +. x) = .fin u ∧ 0 ≤ u ∧ u ≤ (k + 1 : ℕ) ∧
      Close Fmt.binary64.q (k + 1) u (t + value x) := by
  have hq := Fmt.binary64.one_le_q
  have hv : value s = v := value_eq hs
  have hle : v + value x ≤ (k + 1 : ℕ) := by push_cast; linarith
  have hn : 0 ≤ v + value x := by linarith
  have hr0 : 0 ≤ Fmt.binary64.srnd (v + value x) := by
    have := Fmt.binary64.srnd_mono hn
    rwa [Fmt.srnd_zero] at this
  have hr1 : Fmt.binary64.srnd (v + value x) ≤ (k + 1 : ℕ) :=
    Fmt.binary64.srnd_le hle (srnd_nat (fmt := Fmt.binary64) hk)
  refine ⟨_, ?_, hr0, hr1, ?_⟩
  · rw [toExt_add hs (toExt_value hx)]
    apply Fmt.clip_fin
    rw [abs_of_nonneg hr0]
    refine hr1.trans (le_trans ?_ (Fmt.binary64.pow_le_maxFin (e := 53) (by decide)))
    exact_mod_cast hk
  · have e1 : Close Fmt.binary64.q 1 ((Fmt.binary64.srnd (v + value x) : ℚ) : ℝ)
        ((v + value x : ℚ) : ℝ) := by
      apply Fmt.close_of_err
      have := srnd_add_rel s x
      rw [hv, abs_of_nonneg hn] at this
      have h2 := (Rat.cast_le (K := ℝ)).2 this
      push_cast at h2
      unfold Fmt.unit
      push_cast
      exact h2
    have e2 : Close Fmt.binary64.q k ((v + value x : ℚ) : ℝ) (t + value x) := by
      push_cast
      refine hc.add ?_
      refine (Close.refl _ _).mono hq ?_ ?_ (Nat.zero_le k) <;> exact_mod_cast hx0
    rw [Nat.add_comm k 1]
    exact e1.trans hq e2

theorem prob_fold (row : List Float64)
    (hrow : ∀ x ∈ row, Num.isFinite x = true ∧ 0 ≤ value x ∧ value x ≤ 1) (is : List Nat)
    (his : ∀ i ∈ is, i < row.length) (k : ℕ) (hk : k + is.length ≤ 2 ^ 53) (s : Float64) (v : ℚ) (t : ℝ)
    (hs : toExt s = .fin v) (h0 : 0 ≤ v) (h1 : v ≤ k) (ht : 0 ≤ t) (hc : Close Fmt.binary64.q k v t) :
    ∃ u : ℚ, toExt (is.foldl (fun acc i => acc +. row.getD i Num.nan) s) = .fin u ∧ 0 ≤ u ∧
      Close Fmt.binary64.q (k + is.length) u
        (t + ((is.map fun i => (value (row.getD i Num.nan) : ℝ))).sum) := by
  induction is generalizing k s v t with
  | nil => exact ⟨v, hs, h0, by simpa using hc⟩
  | cons i is ih =>
    have hi := his i (by simp)
    obtain ⟨x1, x2, x3⟩ := hrow (row.getD i Num.nan) (by
      rw [List.getD_eq_getElem?_getD, List.getElem?_eq_getElem hi]
      exact List.getElem_mem hi)
    rw [List.length_cons] at hk
    obtain ⟨u, u1, u2, u3, u4⟩ := prob_step (by omega) hs h0 h1 hc x1 x2 x3
    obtain ⟨w, w1, w2, w3⟩ := ih (fun j hj => his j (by simp [hj])) (k + 1) (by omega) _ u _ u1 u2 u3
      (by have : (0 : ℝ) ≤ value (row.getD i Num.nan) := by exact_mod_cast x2
          linarith) u4
    refine ⟨w, w1, w2, ?_⟩
    simp only [List.map_cons, List.sum_cons, List.length_cons]
    rw [← add_assoc t, show k + (is.length + 1) = k + 1 + is.length by omega]
    exact w3

/-- C79: the four probabilities of a star are finite and not negative, and their sum is the sum of
its membership probabilities up to a relative error of `n / 2^52`, `n` being the number of gaussians. -/
theorem C79_probabilities (nComponents : Nat) (hn : nComponents ≤ 2 ^ 50) (center : Mat Float64)
    (hm : ∀ i < nComponents, ∀ k < 2, Num.isNaN ((center.rows.getD i []).getD k Num.nan) = false)
    (row : List Float64) (hl : row.length = nComponents)
    (hrow : ∀ x ∈ row, Num.isFinite x = true ∧ 0 ≤ value x ∧ value x ≤ 1) :
    (∀ k < 4, Num.isFinite (structureSum center nComponents k row) = true ∧
      0 ≤ value (structureSum center nComponents k row)) ∧
    |((List.range 4).map fun k => value (structureSum center nComponents k row)).sum
        - (row.map value).sum| ≤ nComponents / 2 ^ 52 * (row.map value).sum := by
  have hq := Fmt.binary64.one_le_q
  set cls : Nat → Option Nat := fun i =>
    structureOf ((center.rows.getD i []).getD 0 Num.nan) ((center.rows.getD i []).getD 1 Num.nan)
    with hcls
  have hnn : ∀ i, (0 : ℝ) ≤ value (row.getD i Num.nan) := by
    intro i
    rw [List.getD_eq_getElem?_getD]
    cases hg : row[i]? with
    | none =>
      have : value (Num.nan : Float64) = 0 := rfl
      simp [this]
    | some x => exact_mod_cast (hrow x (List.mem_of_getElem? hg)).2.1
  have hS : ∀ k, ∃ u : ℚ, toExt (structureSum center nComponents k row) = .fin u ∧ 0 ≤ u ∧
      Close Fmt.binary64.q nComponents u
        (((List.range nComponents).filter fun i => cls i = some k).map
          fun i => (value (row.getD i Num.nan) : ℝ)).sum := by
    intro k
    have hlen : ((List.range nComponents).filter fun i => cls i = some k).length ≤ nComponents := by
      refine (List.length_filter_le _ _).trans ?_
      simp
    obtain ⟨u, u1, u2, u3⟩ := prob_fold row hrow ((List.range nComponents).filter fun i => cls i = some k)
      (by
        intro i hi
        have := (List.mem_filter.1 hi).1
        rw [List.mem_range] at this
        omega) 0 (by omega) (Num.zero : Float64) 0 0 toExt_zero le_rfl (by simp) le_rfl (by simp [Close])
    refine ⟨u, u1, u2, ?_⟩
    rw [zero_add, zero_add] at u3
    refine u3.mono hq (by exact_mod_cast u2) ?_ hlen
    apply List.sum_nonneg
    intro y hy
    obtain ⟨i, _, rfl⟩ := List.mem_map.1 hy
    exact hnn i
  refine ⟨fun k _ => ?_, ?_⟩
  · obtain ⟨u, u1, u2, _⟩ := hS k
    exact ⟨isFinite_of u1, by rw [value_eq u1]; exact u2⟩
  · obtain ⟨u0, a0, b0, c0⟩ := hS 0
    obtain ⟨u1, a1, b1, c1⟩ := hS 1
    obtain ⟨u2, a2, b2, c2⟩ := hS 2
    obtain ⟨u3, a3, b3, c3⟩ := hS 3
    have hsum : ((List.range 4).map fun k => value (structureSum center nComponents k row)).sum
        = u0 + u1 + u2 + u3 := by
      simp only [List.range_succ, List.range_zero, List.nil_append, List.map_append, List.map_cons,
        List.map_nil, List.sum_append, List.sum_cons, List.sum_nil, value_eq a0, value_eq a1,
        value_eq a2, value_eq a3]
      ring
    have hall := ((c0.add c1).add c2).add c3
    rw [sum_by_class cls (fun i => (value (row.getD i Num.nan) : ℝ)) (List.range nComponents)
      (fun i hi => C45_structure _ _ (hm i (List.mem_range.1 hi) 0 (by omega))
        (hm i (List.mem_range.1 hi) 1 (by omega)))] at hall
    have hrowsum : ((List.range nComponents).map fun i => (value (row.getD i Num.nan) : ℝ)).sum
        = (((row.map value).sum : ℚ) : ℝ) := by
      have : (List.range nComponents).map (fun i => (value (row.getD i Num.nan) : ℝ))
          = (row.map value).map fun v : ℚ => (v : ℝ) := by
        apply List.ext_getElem?
        intro i
        rw [List.map_map, List.getElem?_map, List.getElem?_map]
        by_cases hi : i < nComponents
        · rw [List.getElem?_range hi, Option.map_some, List.getD_eq_getElem?_getD,
            List.getElem?_eq_getElem (by omega : i < row.length)]
          rfl
        · rw [List.getElem?_eq_none (by simpa using hi), List.getElem?_eq_none (by omega)]
          rfl
      rw [this]
      exact (map_list_sum (Rat.castHom ℝ) _).symm
    rw [hrowsum] at hall
    rw [hsum]
    set T := (row.map value).sum with hT
    have hT0 : 0 ≤ T := by
      rw [hT]
      apply List.sum_nonneg
      intro y hy
      obtain ⟨x, hx, rfl⟩ := List.mem_map.1 hy
      exact (hrow x hx).2.1
    have hu : Fmt.binary64.unit = 1 / 2 ^ 53 := by
      show (2 : ℝ) ^ (-53 : ℤ) = _
      norm_num
    have hnr : (nComponents : ℝ) ≤ 2 ^ 50 := by exact_mod_cast hn
    have hfin := Fmt.Close.err (fmt := Fmt.binary64) (a := ((u0 + u1 + u2 + u3 : ℚ) : ℝ)) (b := (T : ℝ))
      (by push_cast; exact hall) (by exact_mod_cast (by linarith : 0 ≤ u0 + u1 + u2 + u3))
      (by exact_mod_cast hT0) (by rw [hu]; linarith)
    rw [hu] at hfin
    have : |u0 + u1 + u2 + u3 - T| ≤ 2 * (nComponents : ℚ) * (1 / 2 ^ 53) * T := by
      apply (Rat.cast_le (K := ℝ)).1
      push_cast
      push_cast at hfin
      exact hfin
    refine this.trans (le_of_eq ?_)
    ring

/-- C79 for `split`: whenever it returns, and no mean of the fitted mixture is NaN, the four
probabilities of each star add up to its membership probabilities up to that error. -/
theorem C79_split {V σ M : Type} (sk : GmmLib V σ M Float64) (hsk : sk.Shapes) (cBic : Float64)
    (p : GmmParams V) (sched : List Nat) (s : σ) (X : List (List Float64)) (labels : List Int)
    (probs : Option (Mat Float64)) (s' : σ)
    (h : autoSplit sk cBic p sched s X = .ok ((labels, probs), s')) :
    ∃ gmm proba four, sk.predictProba gmm X = .ok proba ∧ probs = some four ∧
      four.rows.length = X.length ∧
      (sk.nComponents gmm ≤ 2 ^ 50 →
        (∀ i < sk.nComponents gmm, ∀ k < 2,
          Num.isNaN (((sk.means gmm).rows.getD i []).getD k Num.nan) = false) →
        ∀ (i : Nat) (row out : List Float64), proba.rows[i]? = some row → four.rows[i]? = some out →
          row.length = sk.nComponents gmm →
          (∀ x ∈ row, Num.isFinite x = true ∧ 0 ≤ value x ∧ value x ≤ 1) →
          out.length = 4 ∧ (∀ x ∈ out, Num.isFinite x = true ∧ 0 ≤ value x) ∧
          |(out.map value).sum - (row.map value).sum|
            ≤ sk.nComponents gmm / 2 ^ 52 * (row.map value).sum) := by
  obtain ⟨gmm, proba, h1, h2, -, -, -⟩ := C45_split sk hsk cBic p sched s X labels probs s' h
  refine ⟨gmm, proba, _, h1, h2, by simpa using (hsk.proba gmm X proba h1).1, ?_⟩
  intro hn hm i row out hr ho hl hrow
  simp only [List.getElem?_map, hr, Option.map_some, Option.some.injEq] at ho
  subst ho
  obtain ⟨h3, h4⟩ := C79_probabilities (sk.nComponents gmm) hn (sk.means gmm) hm row hl hrow
  refine ⟨by simp, ?_, ?_⟩
  · intro x hx
    obtain ⟨k, hk, rfl⟩ := List.mem_map.1 hx
    exact h3 k (List.mem_range.1 hk)
  · rw [List.map_map]
    exact h4

/-- a star with memberships 0.1, 0.2, 0.3, 0.4 in two disk gaussians, one halo and one bulge gaussian -/
example :
    let center : Mat Float64 := ⟨[[Num.ofRat (-1/2), Num.ofRat (9/10)], [Num.ofRat (-1/2), Num.ofRat 1],
      [Num.ofRat (-1/2), Num.ofRat 0], [Num.ofRat (-9/10), Num.ofRat 0]], 2⟩
    let row : List Float64 := [Num.ofRat (1/10), Num.ofRat (2/10), Num.ofRat (3/10), Num.ofRat (4/10)]
    (∀ i < 4, ∀ k < 2, Num.isNaN ((center.rows.getD i []).getD k Num.nan) = false) ∧
    (∀ x ∈ row, Num.isFinite x = true ∧ 0 ≤ value x ∧ value x ≤ 1) ∧
    structureSum center 4 2 row ≠ Num.ofRat (3/10) ∧
    (List.range 4).map (fun k => structureSum center 4 k row)
      = [Num.ofRat (3/10), Num.ofRat (4/10), Num.ofRat (1/10) +. Num.ofRat (2/10), Num.ofRat 0] := by
  decide +kernel

end GChop
