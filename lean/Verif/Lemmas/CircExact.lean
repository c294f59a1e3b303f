import Verif.Lemmas.Profile
import Verif.Lemmas.Ext
import Verif.Lemmas.Vec

/-!
# `jcirc` with exact arithmetic
-/

set_option linter.unusedSectionVars false

namespace GChop
open Ext

variable {K : Type} [Field K] [LinearOrder K] [IsStrictOrderedRing K] [FloorRing K] [HasSqrt K]

/-! ### bin edges -/

theorem arange_fin {a b s : K} (hs : 0 < s) :
    Np.arange (fin a : Ext K) (fin b) (fin s) = .ok
      ((List.range ⌈(b - a) / s⌉.toNat).map fun i : Nat => (fin (a + i * s) : Ext K)) := by
  unfold Np.arange
  have h0 : ((fin s : Ext K) ==. Num.zero) = false := by simp [Num.zero, hs.ne']
  simp only [num_isNaN, h0, Bool.false_eq_true, if_false]
  congr 1
  apply List.map_congr_left
  intro i _
  by_cases h1 : i = 0
  · simp [h1]
  · by_cases h2 : i = 1
    · simp [h2]
    · simp [h1, h2, Num.ofInt]

theorem arange_sorted {a s : K} (hs : 0 < s) (n : Nat) :
    ((List.range n).map fun i : Nat => (fin (a + i * s) : Ext K)).Pairwise
      fun x y => (x <. y) = true := by
  rw [List.pairwise_map]
  apply List.pairwise_lt_range.imp
  intro i j hij
  simp only [num_lt, decide_eq_true_eq]
  have : (i : K) < j := by exact_mod_cast hij
  nlinarith

theorem arange_lt {a b s : K} (hs : 0 < s) {i : Nat} (hi : i < ⌈(b - a) / s⌉.toNat) :
    a + i * s < b := by
  have h1 : (i : ℤ) < ⌈(b - a) / s⌉ := by omega
  rw [Int.lt_ceil] at h1
  rw [lt_div_iff₀ hs] at h1
  push_cast at h1
  linarith

theorem arange_pos {a b s : K} (hs : 0 < s) (hab : a < b) : 0 < ⌈(b - a) / s⌉.toNat := by
  have : 0 < ⌈(b - a) / s⌉ := by
    rw [Int.lt_ceil]
    push_cast
    exact div_pos (by linarith) hs
  omega

/-- positive bins give increasing edges from -1, all negative -/
theorem energyBins_fin {b0 b1 : K} (h0 : 0 < b0) (h1 : 0 < b1) :
    ∃ aux, energyBins (fin b0 : Ext K) (fin b1) = .ok aux ∧ EdgesOK aux ∧
      aux.head? = some (fin (-1)) ∧
      ∀ a ∈ aux, ∃ k : K, a = fin k ∧ -1 ≤ k ∧ k < 0 := by
  unfold energyBins
  simp only [num_ofRat, arange_fin h0, arange_fin h1, Py.ok_bind, Py.pure_eq]
  have hp : 0 < ⌈((((-1/10 : ℚ) : K)) - ((-1 : ℚ) : K)) / b0⌉.toNat :=
    arange_pos h0 (by push_cast; norm_num)
  have hlt0 := fun i => arange_lt (a := ((-1 : ℚ) : K)) (b := ((-1/10 : ℚ) : K)) h0 (i := i)
  have hlt1 := fun i => arange_lt (a := ((-1/10 : ℚ) : K)) (b := ((0 : ℚ) : K)) h1 (i := i)
  generalize ⌈((((-1/10 : ℚ) : K)) - ((-1 : ℚ) : K)) / b0⌉.toNat = n0 at *
  generalize ⌈((((0 : ℚ) : K)) - ((-1/10 : ℚ) : K)) / b1⌉.toNat = n1 at *
  have hhead : ((List.range n0).map fun i : Nat => (fin (((-1 : ℚ) : K) + i * b0) : Ext K)).head?
      = some (fin (-1)) := by
    obtain ⟨n, rfl⟩ : ∃ n, n0 = n + 1 := ⟨n0 - 1, by omega⟩
    simp [List.range_succ_eq_map]
  have hhead' : (((List.range n0).map fun i : Nat => (fin (((-1 : ℚ) : K) + i * b0) : Ext K)) ++
      (List.range n1).map fun i : Nat => (fin (((-1/10 : ℚ) : K) + i * b1) : Ext K)).head?
      = some (fin (-1)) := by
    rw [List.head?_append, hhead]; rfl
  refine ⟨_, rfl, ⟨?_, fin (-1), hhead', by simp⟩, hhead', ?_⟩
  · refine List.pairwise_append.2 ⟨arange_sorted h0 n0, arange_sorted h1 n1, ?_⟩
    intro x hx y hy
    simp only [List.mem_map, List.mem_range] at hx hy
    obtain ⟨i, hi, rfl⟩ := hx
    obtain ⟨j, _, rfl⟩ := hy
    have h2 := hlt0 i hi
    have h3 : 0 ≤ (j : K) * b1 := by positivity
    simp only [num_lt, decide_eq_true_eq]
    linarith
  · intro a ha
    rcases List.mem_append.1 ha with ha | ha
    · simp only [List.mem_map, List.mem_range] at ha
      obtain ⟨i, hi, rfl⟩ := ha
      have h2 := hlt0 i hi
      have h3 : 0 ≤ (i : K) * b0 := by positivity
      push_cast at h2
      refine ⟨_, rfl, ?_, ?_⟩
      · push_cast; linarith
      · push_cast; linarith
    · simp only [List.mem_map, List.mem_range] at ha
      obtain ⟨i, hi, rfl⟩ := ha
      have h2 := hlt1 i hi
      have h3 : 0 ≤ (i : K) * b1 := by positivity
      push_cast at h2
      refine ⟨_, rfl, ?_, ?_⟩
      · push_cast; linarith
      · push_cast; linarith

/-! ### interpolation -/

/-- interpolation in an increasing table of finite numbers stays between the bounds of `y` -/
theorem interp1_range {locate : List (Ext K) → Ext K → Nat} (hl : Np.LocateOK locate)
    (pts : List (K × K)) (hne : pts ≠ []) (hx : pts.Pairwise fun p q => p.1 < q.1)
    (lo hi : K) (hy : ∀ p ∈ pts, lo ≤ p.2 ∧ p.2 ≤ hi) (key : Ext K) (hkey : key = nan ∨ ∃ k, key = fin k) :
    (Np.interp1 locate (pts.map fun p => fin p.1) (pts.map fun p => fin p.2) key = nan ∨
    ∃ r, lo ≤ r ∧ r ≤ hi ∧
      Np.interp1 locate (pts.map fun p => fin p.1) (pts.map fun p => fin p.2) key = fin r) := by
  have hat : ∀ (f : K × K → K) (k : Nat) (hk : k < pts.length),
      (pts.map fun p => (fin (f p) : Ext K)).getD k Num.nan = fin (f pts[k]) := by
    intro f k hk
    simp [List.getD, hk]
  have hpos : 0 < pts.length := List.length_pos_iff.2 hne
  have hyy : ∀ (k : Nat) (hk : k < pts.length), lo ≤ pts[k].2 ∧ pts[k].2 ≤ hi :=
    fun k hk => hy _ (List.getElem_mem hk)
  unfold Np.interp1
  simp only [List.length_map]
  split
  · rename_i h1
    rw [hat (fun p => p.2) 0 hpos]
    exact Or.inr ⟨_, (hyy 0 hpos).1, (hyy 0 hpos).2, rfl⟩
  rename_i h1
  rcases hkey with rfl | ⟨k, rfl⟩
  · left; simp
  simp only [num_isNaN, Bool.false_eq_true, if_false]
  rw [hat (fun p => p.1) (pts.length - 1) (by omega), hat (fun p => p.2) (pts.length - 1) (by omega),
    hat (fun p => p.1) 0 hpos, hat (fun p => p.2) 0 hpos]
  right
  split
  · exact ⟨_, (hyy _ _).1, (hyy _ _).2, rfl⟩
  rename_i h2
  split
  · exact ⟨_, (hyy _ _).1, (hyy _ _).2, rfl⟩
  rename_i h3
  simp only [num_lt, decide_eq_true_eq, not_lt] at h2 h3
  obtain ⟨hj, hsorted⟩ := hl (pts.map fun p => fin p.1) (fin k) (by simpa using hne)
  rw [List.length_map] at hj
  obtain ⟨ha, hb⟩ := hsorted (by
      rw [List.pairwise_map]
      exact hx.imp fun h => by simpa using h.le) (by
      intro a ha
      rw [List.getElem?_map, List.getElem?_eq_getElem hpos] at ha
      cases ha
      simpa using h3)
  generalize locate (pts.map fun p => fin p.1) (fin k) = j at *
  rw [hat (fun p => p.1) j hj, hat (fun p => p.2) j hj]
  split
  · exact ⟨_, (hyy _ _).1, (hyy _ _).2, rfl⟩
  rename_i h4
  have hj1 : j + 1 < pts.length := by omega
  split
  · exact ⟨_, (hyy _ _).1, (hyy _ _).2, rfl⟩
  rw [hat (fun p => p.1) (j + 1) hj1, hat (fun p => p.2) (j + 1) hj1]
  have hxx : pts[j].1 < pts[j + 1].1 := List.pairwise_iff_getElem.1 hx j (j + 1) hj hj1 (by omega)
  have hka : pts[j].1 ≤ k := by
    have := ha _ (by rw [List.getElem?_map, List.getElem?_eq_getElem hj]; rfl)
    simpa using this
  have hkb : k < pts[j + 1].1 := by
    have := hb (j + 1) _ (by omega) (by rw [List.getElem?_map, List.getElem?_eq_getElem hj1]; rfl)
    simpa using this
  have hd : 0 < pts[j + 1].1 - pts[j].1 := by linarith
  rw [num_sub, num_sub, num_div _ _ hd.ne', num_sub, num_mul, num_add, num_isNaN]
  simp only [Bool.false_eq_true, if_false]
  obtain ⟨p1, p2⟩ := hyy j hj
  obtain ⟨q1, q2⟩ := hyy (j + 1) hj1
  refine ⟨_, ?_, ?_, rfl⟩
  · have : (pts[j + 1].2 - pts[j].2) / (pts[j + 1].1 - pts[j].1) * (k - pts[j].1) + pts[j].2
        = ((pts[j + 1].2 - lo) * (k - pts[j].1) + (pts[j].2 - lo) * (pts[j + 1].1 - k))
          / (pts[j + 1].1 - pts[j].1) + lo := by
      field_simp; ring
    rw [this]
    have : 0 ≤ ((pts[j + 1].2 - lo) * (k - pts[j].1) + (pts[j].2 - lo) * (pts[j + 1].1 - k))
          / (pts[j + 1].1 - pts[j].1) := by
      apply div_nonneg _ hd.le
      have e1 := mul_nonneg (sub_nonneg.2 q1) (sub_nonneg.2 hka)
      have e2 := mul_nonneg (sub_nonneg.2 p1) (sub_nonneg.2 hkb.le)
      linarith
    linarith
  · have : (pts[j + 1].2 - pts[j].2) / (pts[j + 1].1 - pts[j].1) * (k - pts[j].1) + pts[j].2
        = hi - ((hi - pts[j + 1].2) * (k - pts[j].1) + (hi - pts[j].2) * (pts[j + 1].1 - k))
          / (pts[j + 1].1 - pts[j].1) := by
      field_simp; ring
    rw [this]
    have : 0 ≤ ((hi - pts[j + 1].2) * (k - pts[j].1) + (hi - pts[j].2) * (pts[j + 1].1 - k))
          / (pts[j + 1].1 - pts[j].1) := by
      apply div_nonneg _ hd.le
      have e1 := mul_nonneg (sub_nonneg.2 q2) (sub_nonneg.2 hka)
      have e2 := mul_nonneg (sub_nonneg.2 p2) (sub_nonneg.2 hkb.le)
      linarith
    linarith

/-! ### scaling -/

theorem signInf_pos {c : K} (h : 0 < c) : signInf c = (pinf : Ext K) := by simp [signInf, h]

theorem signInf_mul {c : K} (h : 0 < c) (a : K) : (signInf (c * a) : Ext K) = signInf a := by
  unfold signInf
  simp [mul_pos_iff_of_pos_left h, mul_neg_iff, h, not_lt.2 h.le]

/-- multiplication by a positive number -/
def scale (c : K) (a : Ext K) : Ext K := fin c *. a

@[simp] theorem scale_fin (c a : K) : scale c (fin a) = fin (c * a) := rfl
@[simp] theorem scale_nan (c : K) : scale c nan = nan := rfl
theorem scale_pinf {c : K} (h : 0 < c) : scale c pinf = pinf := signInf_pos h
theorem scale_ninf {c : K} (h : 0 < c) : scale c ninf = ninf := by
  show neg (signInf c) = _
  rw [signInf_pos h]; rfl

theorem scale_isNaN {c : K} (h : 0 < c) (a : Ext K) : Num.isNaN (scale c a) = Num.isNaN a := by
  cases a <;> simp [scale_pinf h, scale_ninf h]

theorem scale_le {c : K} (h : 0 < c) (a b : Ext K) :
    (scale c a <=. scale c b) = (a <=. b) := by
  cases a <;> cases b <;> simp only [scale_pinf h, scale_ninf h, scale_fin, scale_nan] <;> try rfl
  simp [mul_le_mul_iff_right₀ h]

theorem scale_lt {c : K} (h : 0 < c) (a b : Ext K) :
    (scale c a <. scale c b) = (a <. b) := by
  rw [NumOrd.lt_def, NumOrd.lt_def, scale_le h, scale_le h]

theorem scale_abs {c : K} (h : 0 < c) (a : Ext K) : Num.abs (scale c a) = scale c (Num.abs a) := by
  cases a with
  | fin x => simp [abs_mul, abs_of_pos h]
  | pinf => simp only [scale_pinf h]; exact (scale_pinf h).symm
  | ninf => simp only [scale_ninf h]; exact (scale_pinf h).symm
  | nan => rfl

theorem scale_div {c : K} (h : 0 < c) (a b : Ext K) :
    (scale c a /. scale c b) = (a /. b) := by
  cases a with
  | fin x =>
    cases b with
    | fin y =>
      by_cases hy : y = 0
      · subst hy
        rw [scale_fin, scale_fin, mul_zero, num_div_zero, num_div_zero, signInf_mul h]
      · rw [scale_fin, scale_fin, num_div _ _ hy, num_div _ _ (mul_ne_zero h.ne' hy)]
        rw [mul_div_mul_left _ _ h.ne']
    | pinf => rw [scale_pinf h]; rfl
    | ninf => rw [scale_ninf h]; rfl
    | nan => rfl
  | pinf =>
    rw [scale_pinf h]
    cases b with
    | fin y =>
      show (if c * y < 0 then _ else _) = (if y < 0 then _ else _)
      simp [mul_neg_iff, h, not_lt.2 h.le]
    | pinf => rw [scale_pinf h]
    | ninf => rw [scale_ninf h]
    | nan => rfl
  | ninf =>
    rw [scale_ninf h]
    cases b with
    | fin y =>
      show (if c * y < 0 then _ else _) = (if y < 0 then _ else _)
      simp [mul_neg_iff, h, not_lt.2 h.le]
    | pinf => rw [scale_pinf h]
    | ninf => rw [scale_ninf h]
    | nan => rfl
  | nan => rfl

theorem scale_isBound {c : K} (h : 0 < c) (a : Ext K) : isBound (scale c a) = isBound a := by
  cases a with
  | fin x =>
    have h1 : (c * x ≤ 0) ↔ x ≤ 0 := by
      rw [mul_nonpos_iff]
      constructor
      · rintro (h2 | h2)
        · exact h2.2
        · exact absurd h2.1 (not_le.2 h)
      · intro h2; exact Or.inl ⟨h.le, h2⟩
    have h2 : ∀ y : K, ((fin y : Ext K) ==. ninf) = false := fun _ => rfl
    simp [isBound, h1, h2]
  | pinf => rw [scale_pinf h]
  | ninf => rw [scale_ninf h]
  | nan => rfl

theorem scale_min2 {c : K} (h : 0 < c) (a b : Ext K) :
    Np.min2 (scale c a) (scale c b) = scale c (Np.min2 a b) := by
  unfold Np.min2
  rw [scale_isNaN h, scale_isNaN h, scale_lt h]
  split
  · rfl
  · split
    · rfl
    · split <;> rfl

theorem scale_max2 {c : K} (h : 0 < c) (a b : Ext K) :
    Np.max2 (scale c a) (scale c b) = scale c (Np.max2 a b) := by
  unfold Np.max2
  rw [scale_isNaN h, scale_isNaN h, scale_lt h]
  split
  · rfl
  · split
    · rfl
    · split <;> rfl

theorem foldl_hom {α : Type} (g : α → α) (op : α → α → α) (h : ∀ a b, op (g a) (g b) = g (op a b))
    (l : List α) (a : α) : (l.map g).foldl op (g a) = g (l.foldl op a) := by
  induction l generalizing a with
  | nil => rfl
  | cons x l ih => rw [List.map_cons, List.foldl_cons, h, ih, List.foldl_cons]

theorem scale_amin {c : K} (h : 0 < c) (l : List (Ext K)) :
    Np.amin (l.map (scale c)) = (Np.amin l).map (scale c) := by
  cases l with
  | nil => rfl
  | cons a l => exact congrArg Except.ok (foldl_hom _ _ (scale_min2 h) l a)

theorem scale_amax {c : K} (h : 0 < c) (l : List (Ext K)) :
    Np.amax (l.map (scale c)) = (Np.amax l).map (scale c) := by
  cases l with
  | nil => rfl
  | cons a l => exact congrArg Except.ok (foldl_hom _ _ (scale_max2 h) l a)

theorem trueFirst_map {α : Type} {p : α → Bool} {f : α → α} {l : List α}
    (h : ∀ a ∈ l, p (f a) = p a) : trueFirst p (l.map f) = trueFirst p l := by
  induction l with
  | nil => rfl
  | cons x l ih =>
    have ih := ih fun a ha => h a (List.mem_cons_of_mem _ ha)
    unfold trueFirst at ih ⊢
    have hx := h x List.mem_cons_self
    rw [List.map_cons, List.dropWhile_cons, List.dropWhile_cons, hx]
    split
    · exact ih
    · rw [List.all_cons, List.all_cons, hx, List.all_map]
      congr 1
      rw [Bool.eq_iff_iff, List.all_eq_true, List.all_eq_true]
      constructor
      · intro h' a ha
        have := h' a ha
        rwa [Function.comp_apply, h a (List.mem_cons_of_mem _ ha)] at this
      · intro h' a ha
        have := h' a ha
        rwa [Function.comp_apply, h a (List.mem_cons_of_mem _ ha)]

/-- A change of every particle that multiplies the energy by `c` and the angular momentum
components by `d` does not change the result. -/
theorem jcirc_scale (env : CircEnv (Ext K)) (b : BGalaxy (Ext K)) (f : Body (Ext K) → Body (Ext K))
    {c d : K} (hc : 0 < c) (hd : 0 < d) (he : ∀ a ∈ b.all, (f a).energy = scale c a.energy)
    (hz : ∀ a ∈ b.all, (f a).jz = scale d a.jz) (hr : ∀ a ∈ b.all, (f a).jr = scale d a.jr)
    (bin0 bin1 : Ext K) :
    jcirc env (Galaxy.ofBodies (b.mapBodies f)) bin0 bin1 =
      jcirc env (Galaxy.ofBodies b) bin0 bin1 := by
  cases hp : b.hasPot with
  | false => rw [jcirc_noPot env b hp, jcirc_noPot env (b.mapBodies f) hp]
  | true =>
    have hb : ∀ a ∈ b.all, isBound (f a).energy = isBound a.energy := by
      intro a ha; rw [he a ha, scale_isBound hc]
    have hall : (b.mapBodies f).all = b.all.map f := by
      simp [BGalaxy.mapBodies, BGalaxy.all]
    have hbound : (b.mapBodies f).bound = b.bound.map f := by
      unfold BGalaxy.bound
      rw [hall, List.filter_map]
      congr 1
      exact List.filter_congr fun a ha => hb a ha
    have hmem : ∀ a ∈ b.bound, a ∈ b.all := fun a ha => (List.mem_filter.1 ha).1
    have hst : ∀ a ∈ b.stars, a ∈ b.all := fun a ha => by simp [BGalaxy.all, ha]
    have e1 : Np.amin ((b.mapBodies f).bound.map Body.energy)
        = (Np.amin (b.bound.map Body.energy)).map (scale c) := by
      rw [hbound, ← scale_amin hc, List.map_map, List.map_map]
      congr 1
      exact List.map_congr_left fun a ha => he a (hmem a ha)
    have e2 : Np.amax ((b.mapBodies f).bound.map fun a => Num.abs a.jz)
        = (Np.amax (b.bound.map fun a => Num.abs a.jz)).map (scale d) := by
      rw [hbound, ← scale_amax hd, List.map_map, List.map_map]
      congr 1
      refine List.map_congr_left fun a ha => ?_
      simp only [Function.comp_apply, hz a (hmem a ha), scale_abs hd]
    have e3 : Np.amax ((b.mapBodies f).bound.map fun a => Num.abs a.jr)
        = (Np.amax (b.bound.map fun a => Num.abs a.jr)).map (scale d) := by
      rw [hbound, ← scale_amax hd, List.map_map, List.map_map]
      congr 1
      refine List.map_congr_left fun a ha => ?_
      simp only [Function.comp_apply, hr a (hmem a ha), scale_abs hd]
    have e4 : circNorm env (b.mapBodies f) bin0 bin1 = (circNorm env b bin0 bin1).map
        fun n => ⟨scale c n.eMin, scale d n.jzMax, scale d n.jrMax, n.pts⟩ := by
      unfold circNorm
      rw [e1, e2, e3]
      cases h1 : Np.amin (b.bound.map Body.energy) with
      | error e => rfl
      | ok eMin =>
      cases h2 : Np.amax (b.bound.map fun a => Num.abs a.jz) with
      | error e => rfl
      | ok jzMax =>
      cases h3 : energyBins bin0 bin1 with
      | error e => rfl
      | ok aux =>
      have p1 : (b.mapBodies f).bound.map (fun a => a.energy /. Num.abs (scale c eMin))
          = b.bound.map fun a => a.energy /. Num.abs eMin := by
        rw [hbound, List.map_map]
        refine List.map_congr_left fun a ha => ?_
        simp only [Function.comp_apply, he a (hmem a ha), scale_abs hc, scale_div hc]
      have p2 : (b.mapBodies f).bound.map (fun a => a.jz /. scale d jzMax)
          = b.bound.map fun a => a.jz /. jzMax := by
        rw [hbound, List.map_map]
        refine List.map_congr_left fun a ha => ?_
        simp only [Function.comp_apply, hz a (hmem a ha), scale_div hd]
      simp only [Except.map, Py.ok_bind, p1, p2]
      cases profile env aux (b.bound.map fun a => a.energy /. Num.abs eMin)
        (b.bound.map fun a => a.jz /. jzMax) with
      | error e => rfl
      | ok pts =>
        simp only [Py.ok_bind]
        cases Np.amax (b.bound.map fun a => Num.abs a.jr) <;> rfl
    rw [jcirc_ofBodies env b hp, jcirc_ofBodies env (b.mapBodies f) hp, e4]
    cases hn : circNorm env b bin0 bin1 with
    | error e => rfl
    | ok n =>
      have hstars : (b.mapBodies f).stars = b.stars.map f := rfl
      have ht : trueFirst (fun a => isBound a.energy) (b.stars.map f)
          = trueFirst (fun a => isBound a.energy) b.stars := by
        exact trueFirst_map fun a ha => hb a (hst a ha)
      simp only [Except.map, Except.bind, hstars, ht]
      split
      · congr 1
        have q1 : ∀ a ∈ b.stars, CircNorm.e ⟨scale c n.eMin, scale d n.jzMax, scale d n.jrMax, n.pts⟩
            (f a) = n.e a := by
          intro a ha
          simp only [CircNorm.e, he a (hst a ha), scale_abs hc, scale_div hc]
        have q2 : ∀ a ∈ b.stars, CircNorm.jz ⟨scale c n.eMin, scale d n.jzMax, scale d n.jrMax, n.pts⟩
            (f a) = n.jz a := by
          intro a ha
          simp only [CircNorm.jz, hz a (hst a ha), scale_div hd]
        have q3 : ∀ a ∈ b.stars, CircNorm.eps ⟨scale c n.eMin, scale d n.jzMax, scale d n.jrMax, n.pts⟩
            env (f a) = n.eps env a := by
          intro a ha
          simp only [CircNorm.eps, CircNorm.jc, q1 a ha, q2 a ha]
        have q4 : ∀ a ∈ b.stars, CircNorm.epsR ⟨scale c n.eMin, scale d n.jzMax, scale d n.jrMax, n.pts⟩
            env (f a) = n.epsR env a := by
          intro a ha
          simp only [CircNorm.epsR, CircNorm.jc, q1 a ha, hr a (hst a ha), scale_div hd]
        unfold circResult
        simp only [JCirc.mk.injEq, List.map_map, and_true]
        refine ⟨?_, ?_, ?_, ?_⟩
        · refine List.map_congr_left fun a ha => ?_
          simp only [Function.comp_apply, hb a (hst a ha), q3 a ha, q1 a ha]
        · rw [List.filter_map, List.map_map]
          have : b.stars.filter ((fun a => isBound a.energy) ∘ f)
              = b.stars.filter fun a => isBound a.energy :=
            List.filter_congr fun a ha => hb a (hst a ha)
          rw [this]
          refine List.map_congr_left fun a ha => ?_
          have ha := (List.mem_filter.1 ha).1
          simp only [Function.comp_apply, q3 a ha, q2 a ha]
        · refine List.map_congr_left fun a ha => ?_
          simp only [Function.comp_apply, hb a (hst a ha), q3 a ha]
        · refine List.map_congr_left fun a ha => ?_
          simp only [Function.comp_apply, hb a (hst a ha), q3 a ha, q4 a ha]
      · rfl

end GChop
