import Verif.Props.HistogramEnergy
import Verif.Props.HistogramDouble

/-!
# C106: the size of the spheroid as stars and bins are added
-/

set_option linter.unusedSectionVars false

namespace GChop
open Flt Ext

variable {F : Type} [Num F] [NumOrd F] {σ τ : Type}

/-! ### sums over lists of bins -/

theorem sum_add (f g : Nat → Nat) (l : List Nat) :
    (l.map fun k => f k + g k).sum = (l.map f).sum + (l.map g).sum := by
  induction l with
  | nil => rfl
  | cons a l ih => simp only [List.map_cons, List.sum_cons, ih]; omega

theorem sum_blocks (f : Nat → Nat) (n q : Nat) :
    ((List.range (n * q)).map f).sum
      = ((List.range n).map fun k => ((List.range q).map fun r => f (k * q + r)).sum).sum := by
  induction n with
  | zero => simp
  | succ n ih =>
    rw [Nat.succ_mul, List.range_add, List.map_append, List.sum_append, ih, List.range_succ,
      List.map_append, List.sum_append, List.map_map]
    simp
    rfl

theorem sum_reverse (f : Nat → Nat) (q : Nat) :
    ((List.range q).map fun r => f (q - 1 - r)).sum = ((List.range q).map f).sum := by
  have : (List.range q).map (fun r => f (q - 1 - r)) = ((List.range q).map f).reverse := by
    apply List.ext_getElem
    · simp
    · intro i h1 h2
      simp
  rw [this]
  simp

theorem sum_min_le (f g : Nat → Nat) (l : List Nat) :
    (l.map fun r => min (f r) (g r)).sum ≤ min (l.map f).sum (l.map g).sum :=
  Nat.le_min.2 ⟨list_sum_le l fun _ _ => Nat.min_le_left _ _,
    list_sum_le l fun _ _ => Nat.min_le_right _ _⟩

/-! ### bins and signs -/

/-- the bins below the zero edge hold the negative values, the others no negative value -/
theorem bin_negative {nBin digits : Int} {edges : List F} {bin0 : Nat}
    (hh : makeHistogram nBin digits = .ok (edges, bin0)) (hs : EdgesSorted edges nBin.toNat)
    (hc : EdgesCover edges nBin.toNat) {k : Nat} (hk : k < nBin.toNat) {e : F}
    (hb : inBinI edges nBin.toNat k e = true) : (e <. Num.ofRat 0) = true ↔ k < bin0 := by
  obtain ⟨hn, -, -, hbn, hz, -⟩ := makeHistogram_inv hh
  have hpos : 0 < nBin.toNat := by omega
  rw [NumOrd.eq_def, Bool.and_eq_true] at hz
  have hbk := hb
  unfold inBinI at hbk
  rw [Bool.and_eq_true] at hbk
  constructor
  · intro hlt
    rcases Nat.lt_or_ge k bin0 with hkb | hkb
    · exact hkb
    · exfalso
      have := lt_of_lt_of_le' hlt
        (NumOrd.le_trans hz.2 (NumOrd.le_trans (hs.le hpos bin0 k hkb (by omega)) hbk.1))
      rw [lt_irrefl'] at this
      cases this
  · intro hkb
    have hbn' : bin0 < nBin.toNat := by
      rcases Nat.lt_or_ge bin0 nBin.toNat with hlt | hge
      · exact hlt
      · exfalso
        have : bin0 = nBin.toNat := by omega
        rw [this] at hz
        have := lt_of_le_of_lt' (NumOrd.le_trans hc.2 hz.1) (NumOrd.zero_lt_one (F := F))
        rw [lt_irrefl'] at this
        cases this
    rw [if_neg (by omega)] at hbk
    exact lt_of_lt_of_le' hbk.2 (NumOrd.le_trans (hs.le hpos (k + 1) bin0 hkb (by omega)) hz.1)

/-- every circularity is in one bin -/
theorem one_bin {n : Nat} (hpos : 0 < n) {edges : List F} (hs : EdgesSorted edges n)
    (hc : EdgesCover edges n) {e : F} (hu : InUnit e) :
    ∃ k < n, inBinI edges n k e = true ∧ ∀ j < n, inBinI edges n j e = true → j = k := by
  obtain ⟨k, hk, hb⟩ := hs.covers hpos (NumOrd.le_trans hc.1 hu.1) (NumOrd.le_trans hu.2 hc.2)
  exact ⟨k, hk, hb, fun j hj hb' => hs.unique hpos hj hk hb' hb⟩

/-- the number of stars in bin `k` -/
abbrev binCount (edges : List F) (n : Nat) (eps : List F) (k : Nat) : Nat :=
  (eps.filter (inBinI edges n k)).length

theorem sum_negative {nBin digits : Int} {edges : List F} {bin0 : Nat}
    (hh : makeHistogram nBin digits = .ok (edges, bin0)) (hs : EdgesSorted edges nBin.toNat)
    (hc : EdgesCover edges nBin.toNat) (eps : List F) (he : ∀ e ∈ eps, InUnit e) :
    ((List.range nBin.toNat).map fun k => if k < bin0 then binCount edges nBin.toNat eps k else 0).sum
      = (eps.filter fun e => e <. Num.ofRat 0).length ∧
    ((List.range nBin.toNat).map fun k => if k < bin0 then 0 else binCount edges nBin.toNat eps k).sum
      = (eps.filter fun e => !(e <. Num.ofRat 0)).length := by
  obtain ⟨hn, -⟩ := makeHistogram_inv hh
  have hpos : 0 < nBin.toNat := by omega
  constructor
  · rw [length_filter_partition eps _ nBin.toNat (fun k e => inBinI edges nBin.toNat k e)
      fun e h => one_bin hpos hs hc (he e h)]
    congr 1
    refine List.map_congr_left fun k hk => ?_
    have hk := List.mem_range.1 hk
    split
    · next hkb =>
      refine congrArg List.length (List.filter_congr fun e _ => ?_)
      cases hb : inBinI edges nBin.toNat k e with
      | false => rfl
      | true => rw [(bin_negative hh hs hc hk hb).2 hkb]; rfl
    · next hkb =>
      symm
      rw [List.length_eq_zero_iff, List.filter_eq_nil_iff]
      intro e _ hf
      rw [Bool.and_eq_true] at hf
      exact hkb ((bin_negative hh hs hc hk hf.1).1 hf.2)
  · rw [length_filter_partition eps _ nBin.toNat (fun k e => inBinI edges nBin.toNat k e)
      fun e h => one_bin hpos hs hc (he e h)]
    congr 1
    refine List.map_congr_left fun k hk => ?_
    have hk := List.mem_range.1 hk
    split
    · next hkb =>
      symm
      rw [List.length_eq_zero_iff, List.filter_eq_nil_iff]
      intro e _ hf
      rw [Bool.and_eq_true] at hf
      rw [(bin_negative hh hs hc hk hf.1).2 hkb] at hf
      exact Bool.noConfusion hf.2
    · next hkb =>
      refine congrArg List.length (List.filter_congr fun e _ => ?_)
      cases hb : inBinI edges nBin.toNat k e with
      | false => rfl
      | true =>
        cases hx : (e <. Num.ofRat 0 : Bool) with
        | false => rfl
        | true => exact absurd ((bin_negative hh hs hc hk hb).1 hx) hkb

/-! ### more stars -/

theorem sphSize_perm (edges : List F) (n b : Nat) {eps eps' : List F} (h : eps.Perm eps') :
    sphSize edges n b eps = sphSize edges n b eps' := by
  unfold sphSize
  congr 1
  refine List.map_congr_left fun k _ => ?_
  rw [(h.filter _).length_eq, (h.filter _).length_eq]

theorem sphSize_append (edges : List F) (n b : Nat) (hb : b ≤ n) (eps extra : List F) :
    sphSize edges n b eps
      + ((List.range n).map fun k => if k < b then binCount edges n extra k else 0).sum
      ≤ sphSize edges n b (eps ++ extra) ∧
    sphSize edges n b (eps ++ extra) ≤ sphSize edges n b eps
      + 2 * ((List.range n).map fun k => if k < b then binCount edges n extra k else 0).sum
      + ((List.range n).map fun k => if k < b then 0 else binCount edges n extra k).sum := by
  have hm := sum_mirror (binCount edges n extra) b n hb
  have hcount : ∀ k, (((eps ++ extra).filter (inBinI edges n k)).length)
      = (eps.filter (inBinI edges n k)).length + binCount edges n extra k := by
    intro k
    rw [List.filter_append, List.length_append]
  constructor
  · unfold sphSize
    rw [← sum_add]
    refine list_sum_le _ fun k _ => ?_
    simp only [hcount]
    split
    · omega
    · split <;> omega
  · have h1 : sphSize edges n b (eps ++ extra) ≤ ((List.range n).map fun k =>
        ((if k < b then (eps.filter (inBinI edges n k)).length
          else if k < 2 * b then min (eps.filter (inBinI edges n (2 * b - 1 - k))).length
            (eps.filter (inBinI edges n k)).length
          else 0) + (if k < b then binCount edges n extra k else 0)) +
        ((if b ≤ k ∧ k < 2 * b then binCount edges n extra (2 * b - 1 - k) else 0) +
          (if k < b then 0 else binCount edges n extra k))).sum := by
      unfold sphSize
      refine list_sum_le _ fun k _ => ?_
      simp only [hcount]
      split
      · omega
      · split
        · rw [if_pos (by omega)]
          omega
        · omega
    rw [sum_add, sum_add, sum_add] at h1
    unfold sphSize at h1 ⊢
    omega

/-- C106: adding stars to `JHistogram`. With `neg` counter-rotating and `pos` other new stars the
spheroid grows by at least `neg` and at most `2 neg + pos` stars, for all generators and states. -/
theorem C106_more_stars (junk : Nat → Int) (junk' : Nat → Int) (rng : Rng σ) (hr : rng.OK)
    (rng' : Rng τ) (hr' : rng'.OK) {nBin digits : Int} {edges : List F} {bin0 : Nat}
    (hh : makeHistogram nBin digits = .ok (edges, bin0)) (hs : EdgesSorted edges nBin.toNat)
    (hc : EdgesCover edges nBin.toNat) (eps extra eps' : List F) (hp : eps'.Perm (eps ++ extra))
    (he : ∀ e ∈ eps', InUnit e) (s s₁ : σ) (t t₁ : τ) (labels labels' : List Int)
    (h : jHistogramSplit junk rng nBin digits (eps.map fun e => [e]) s = .ok (labels, s₁))
    (h' : jHistogramSplit junk' rng' nBin digits (eps'.map fun e => [e]) t = .ok (labels', t₁)) :
    labels.count 0 + (extra.filter fun e => e <. Num.ofRat 0).length ≤ labels'.count 0 ∧
    labels'.count 0 ≤ labels.count 0 + 2 * (extra.filter fun e => e <. Num.ofRat 0).length
      + (extra.filter fun e => !(e <. Num.ofRat 0)).length := by
  obtain ⟨hn, -, -, hbn, -⟩ := makeHistogram_inv hh
  have he1 : ∀ e ∈ eps, InUnit e := fun e h => he e (hp.mem_iff.2 (List.mem_append_left _ h))
  have he2 : ∀ e ∈ extra, InUnit e := fun e h => he e (hp.mem_iff.2 (List.mem_append_right _ h))
  rw [(C38_total junk rng hr hh hs hc eps he1 s s₁ labels h).1,
    (C38_total junk' rng' hr' hh hs hc eps' he t t₁ labels' h').1, sphSize_perm _ _ _ hp,
    ← (sum_negative hh hs hc extra he2).1, ← (sum_negative hh hs hc extra he2).2]
  exact sphSize_append edges _ _ hbn eps extra

/-! ### finer bins -/

/-- `a` and `b` compare in the same way with every number -/
structure SameEdge (a b : F) : Prop where
  le : ∀ x : F, (a <=. x) = (b <=. x)
  ge : ∀ x : F, (x <=. a) = (x <=. b)
  gt : ∀ x : F, (x <. a) = (x <. b)

/-- every `q`-th edge of the fine bins is an edge of the coarse bins -/
def Refines (edges edges' : List F) (n q : Nat) : Prop :=
  ∀ i ≤ n, SameEdge (edge edges i) (edge edges' (i * q))

/-- the stars of a coarse bin are those of its fine bins -/
theorem block_count {α : Type} {n q : Nat} (hq : 0 < q) (P Q : Nat → α → Bool)
    (h1 : ∀ j < n * q, ∀ x, Q j x = true → P (j / q) x = true)
    (h2 : ∀ k < n, ∀ x, P k x = true → ∃ j < n * q, Q j x = true)
    (hP : ∀ i < n, ∀ j < n, ∀ x, P i x = true → P j x = true → i = j)
    (hQ : ∀ i < n * q, ∀ j < n * q, ∀ x, Q i x = true → Q j x = true → i = j)
    (L : List α) {k : Nat} (hk : k < n) :
    (L.filter (P k)).length
      = ((List.range q).map fun r => (L.filter (Q (k * q + r))).length).sum := by
  have hlt : ∀ r < q, k * q + r < n * q := by
    intro r hr
    have : (k + 1) * q ≤ n * q := Nat.mul_le_mul_right _ hk
    rw [Nat.succ_mul] at this
    omega
  have hdiv : ∀ r < q, (k * q + r) / q = k := by
    intro r hr
    rw [Nat.mul_comm, Nat.mul_add_div hq, Nat.div_eq_of_lt hr, Nat.add_zero]
  have := length_filter_partition (L.filter (P k)) (fun _ => true) q (fun r x => Q (k * q + r) x) (by
    intro x hx
    have hx := (List.mem_filter.1 hx).2
    obtain ⟨j, hj, hQj⟩ := h2 k hk x hx
    have hjk : j / q = k := hP _ (Nat.div_lt_of_lt_mul (by rwa [Nat.mul_comm])) k hk x (h1 j hj x hQj) hx
    have hj' : j = k * q + j % q := by
      rw [← hjk, Nat.mul_comm]
      exact (Nat.div_add_mod j q).symm
    refine ⟨j % q, Nat.mod_lt _ hq, by rwa [← hj'], fun i hi hQi => ?_⟩
    have := hQ _ (hlt i hi) j hj x hQi hQj
    omega)
  rw [List.filter_true] at this
  rw [this]
  congr 1
  refine List.map_congr_left fun r hr => ?_
  have hr := List.mem_range.1 hr
  rw [List.filter_filter]
  congr 1
  refine List.filter_congr fun x _ => ?_
  rw [Bool.and_true]
  cases hx : Q (k * q + r) x with
  | false => rfl
  | true =>
    have := h1 _ (hlt r hr) x hx
    rw [hdiv r hr] at this
    rw [this]
    rfl

variable {edges edges' : List F} {n q : Nat}

theorem Refines.sorted (hR : Refines edges edges' n q) (hn : 0 < n) (hq : 0 < q)
    (hs : EdgesSorted edges' (n * q)) : EdgesSorted edges n := by
  intro i hi
  rw [(hR i (by omega)).le, (hR (i + 1) (by omega)).ge]
  exact hs.le (Nat.mul_pos hn hq) _ _ (Nat.mul_le_mul_right _ (by omega))
    (Nat.mul_le_mul_right _ (by omega))

theorem Refines.fine_coarse (hR : Refines edges edges' n q) (hn : 0 < n) (hq : 0 < q)
    (hs : EdgesSorted edges' (n * q)) {j : Nat} (hj : j < n * q) {x : F}
    (hx : inBinI edges' (n * q) j x = true) : inBinI edges n (j / q) x = true := by
  have hk : j / q < n := Nat.div_lt_of_lt_mul (by rwa [Nat.mul_comm])
  have hnq := Nat.mul_pos hn hq
  have hlo : j / q * q ≤ j := Nat.div_mul_le_self j q
  have hhi : j + 1 ≤ (j / q + 1) * q := Nat.lt_mul_of_div_lt (Nat.lt_succ_self _) hq
  have hup : (j / q + 1) * q ≤ n * q := Nat.mul_le_mul_right _ hk
  unfold inBinI at hx ⊢
  rw [Bool.and_eq_true] at hx ⊢
  refine ⟨?_, ?_⟩
  · rw [(hR _ (by omega)).le]
    exact NumOrd.le_trans (hs.le hnq _ _ hlo (by omega)) hx.1
  · have hle := hs.le hnq _ _ hhi hup
    split
    · rw [(hR _ (by omega)).ge]
      have h2 := hx.2
      split at h2
      · exact NumOrd.le_trans h2 hle
      · exact NumOrd.le_trans (le_of_lt' h2) hle
    · next hlast =>
      rw [(hR _ (by omega)).gt]
      have h2 := hx.2
      split at h2
      · next hj' =>
        exfalso
        have h3 : (j / q + 1) * q = n * q := by omega
        have := Nat.eq_of_mul_eq_mul_right hq h3
        omega
      · exact lt_of_lt_of_le' h2 hle

theorem Refines.coarse_fine (hR : Refines edges edges' n q) (hn : 0 < n) (hq : 0 < q)
    (hs : EdgesSorted edges' (n * q)) {k : Nat} (hk : k < n) {x : F}
    (hx : inBinI edges n k x = true) : ∃ j < n * q, inBinI edges' (n * q) j x = true := by
  have hnq := Nat.mul_pos hn hq
  have hsc := hR.sorted hn hq hs
  unfold inBinI at hx
  rw [Bool.and_eq_true] at hx
  obtain ⟨j, hj, h⟩ := hs.covers hnq (e := x) (by
      have := NumOrd.le_trans (hsc.le hn 0 k (by omega) (by omega)) hx.1
      rw [(hR 0 (by omega)).le, Nat.zero_mul] at this
      exact this) (by
      have hle := hsc.le hn (k + 1) n (by omega) (by omega)
      have h2 := hx.2
      have : (x <=. edge edges n) = true := by
        split at h2
        · exact NumOrd.le_trans h2 hle
        · exact NumOrd.le_trans (le_of_lt' h2) hle
      rwa [(hR n (by omega)).ge] at this)
  exact ⟨j, hj, h⟩

theorem Refines.binCount (hR : Refines edges edges' n q) (hn : 0 < n) (hq : 0 < q)
    (hs : EdgesSorted edges' (n * q)) (eps : List F) {k : Nat} (hk : k < n) :
    binCount edges n eps k = ((List.range q).map fun r => binCount edges' (n * q) eps (k * q + r)).sum :=
  block_count hq (inBinI edges n) (inBinI edges' (n * q))
    (fun _ hj _ hx => hR.fine_coarse hn hq hs hj hx) (fun _ hk _ hx => hR.coarse_fine hn hq hs hk hx)
    (fun _ hi _ hj _ h1 h2 => (hR.sorted hn hq hs).unique hn hi hj h1 h2)
    (fun _ hi _ hj _ h1 h2 => hs.unique (Nat.mul_pos hn hq) hi hj h1 h2) eps hk

theorem sphSize_refine (hR : Refines edges edges' n q) (hn : 0 < n) (hq : 0 < q)
    (hs : EdgesSorted edges' (n * q)) {b : Nat} (eps : List F) :
    sphSize edges' (n * q) (b * q) eps ≤ sphSize edges n b eps := by
  unfold sphSize
  rw [sum_blocks]
  refine list_sum_le _ fun k hk => ?_
  have hk := List.mem_range.1 hk
  have hcount : ∀ k < n, (eps.filter (inBinI edges n k)).length
      = ((List.range q).map fun r => (eps.filter (inBinI edges' (n * q) (k * q + r))).length).sum :=
    fun k hk => hR.binCount hn hq hs eps hk
  have hlt : ∀ r < q, ∀ c, k * q + r < c * q ↔ k < c := by
    intro r hr c
    constructor
    · intro h
      exact Nat.lt_of_mul_lt_mul_right (Nat.lt_of_le_of_lt (Nat.le_add_right _ r) h)
    · intro h
      have : (k + 1) * q ≤ c * q := Nat.mul_le_mul_right _ h
      rw [Nat.succ_mul] at this
      omega
  by_cases h1 : k < b
  · rw [if_pos h1, hcount k hk]
    refine list_sum_le _ fun r hr => ?_
    rw [if_pos ((hlt r (List.mem_range.1 hr) b).2 h1)]
  rw [if_neg h1]
  by_cases h2 : k < 2 * b
  · rw [if_pos h2, hcount k hk, hcount (2 * b - 1 - k) (by omega),
      ← sum_reverse (fun r => (eps.filter (inBinI edges' (n * q) ((2 * b - 1 - k) * q + r))).length)]
    refine Nat.le_trans (list_sum_le _ fun r hr => ?_) (sum_min_le _ _ _)
    have hr := List.mem_range.1 hr
    rw [if_neg (fun h => h1 ((hlt r hr b).1 h)), ← Nat.mul_assoc, if_pos ((hlt r hr (2 * b)).2 h2)]
    have hidx : 2 * b * q - 1 - (k * q + r) = (2 * b - 1 - k) * q + (q - 1 - r) := by
      obtain ⟨d, hd⟩ : ∃ d, 2 * b = k + 1 + d := ⟨2 * b - 1 - k, by omega⟩
      rw [hd, show k + 1 + d - 1 - k = d by omega, Nat.add_mul, Nat.add_mul, Nat.one_mul]
      omega
    rw [hidx]
  · rw [if_neg h2]
    refine Nat.le_of_eq (List.sum_eq_zero ?_)
    intro x hx
    obtain ⟨r, hr, rfl⟩ := List.mem_map.1 hx
    have hr := List.mem_range.1 hr
    rw [if_neg (fun h => h1 ((hlt r hr b).1 h)), ← Nat.mul_assoc,
      if_neg (fun h => h2 ((hlt r hr (2 * b)).1 h))]

theorem sameEdge64 {a b : Float64} (h : toExt a = toExt b) : SameEdge a b where
  le x := by show Ext.le (toExt a) (toExt x) = Ext.le (toExt b) (toExt x); rw [h]
  ge x := by show Ext.le (toExt x) (toExt a) = Ext.le (toExt x) (toExt b); rw [h]
  gt x := by show Ext.lt (toExt x) (toExt a) = Ext.lt (toExt x) (toExt b); rw [h]

/-- C106: in double precision, multiplying the number of bins of `JHistogram` never makes the spheroid
larger: `n_bin = 2 m q` against `2 m`, where `m q` divides `10**digits`. -/
theorem C106_finer_double (junk junk' : Nat → Int) (rng : Rng σ) (hr : rng.OK) (rng' : Rng τ)
    (hr' : rng'.OK) (m q d : Nat) (hm : 0 < m) (hq : 0 < q) (hmd : m * q ∣ 10 ^ d) (hd : d ≤ 14)
    (eps : List Float64) (he : ∀ e ∈ eps, InUnit e) (s s₁ : σ) (t t₁ : τ) (labels labels' : List Int)
    (h : jHistogramSplit junk rng (2 * m : ℤ) d (eps.map fun e => [e]) s = .ok (labels, s₁))
    (h' : jHistogramSplit junk' rng' (2 * (m * q : ℕ) : ℤ) d (eps.map fun e => [e]) t
      = .ok (labels', t₁)) : labels'.count 0 ≤ labels.count 0 := by
  have hmq := Nat.mul_pos hm hq
  have hmd0 : m ∣ 10 ^ d := (Dvd.intro q rfl).trans hmd
  have hle : m * q ≤ 10 ^ d := Nat.le_of_dvd (by positivity) hmd
  have hle0 : m ≤ 10 ^ d := Nat.le_of_dvd (by positivity) hmd0
  obtain ⟨a1, a2, a3⟩ := histogram64 hm hle0 (by omega)
  obtain ⟨b1, b2, b3⟩ := histogram64 hmq hle (by omega)
  rw [(C38_total junk rng hr a1 a2 a3 eps he s s₁ labels h).1,
    (C38_total junk' rng' hr' b1 b2 b3 eps he t t₁ labels' h').1]
  have e1 : (2 * m : ℤ).toNat = 2 * m := by omega
  have e2 : (2 * (m * q : ℕ) : ℤ).toNat = 2 * m * q := by
    rw [Nat.mul_assoc]
    omega
  rw [e2] at b2
  rw [e1, e2]
  refine sphSize_refine (fun i hi => sameEdge64 ?_) (by omega) hq b2 eps
  rw [edges64 hm hmd0 hd hi, edges64 hmq hmd hd (by
    rw [← Nat.mul_assoc]; exact Nat.mul_le_mul_right _ hi)]
  congr 2
  have h1 : (m : ℚ) ≠ 0 := by exact_mod_cast hm.ne'
  have h2 : (q : ℚ) ≠ 0 := by exact_mod_cast hq.ne'
  unfold edgeQ
  push_cast
  field_simp

/-! ### the model with energies -/

/-- `min(counter, co)` summed over the energy bins -/
def energyMatches (nE : Nat) (cnt cor : List (F × F)) : Nat :=
  ((List.range nE).map fun j =>
    min (cnt.filter fun r => inBinI (energyEdges nE) nE j r.1).length
      (cor.filter fun r => halfOpen (energyEdges nE) j r.1).length).sum

/-- the size of the spheroid of `JEHistogram` -/
def jeSize (edges : List F) (n b nE : Nat) (rows : List (F × F)) : Nat :=
  ((List.range n).map fun k =>
    if k < b then (rowsIn edges n k rows).length
    else if k < 2 * b then
      if (rowsIn edges n k rows).length ≤ (rowsIn edges n (2 * b - 1 - k) rows).length
      then (rowsIn edges n k rows).length
      else energyMatches nE (rowsIn edges n (2 * b - 1 - k) rows) (rowsIn edges n k rows)
    else 0).sum

theorem rowsIn_length (edges : List F) (n k : Nat) (rows : List (F × F)) :
    (rowsIn edges n k rows).length = ((rows.map Prod.snd).filter (inBinI edges n k)).length := by
  rw [List.filter_map, List.length_map]
  rfl

/-- all labels of a bin are `l` -/
theorem countLab_all {eps : List F} {labels : List Int} (hl : labels.length = eps.length)
    {P : F → Bool} {l : Int}
    (h : ∀ (p : Nat) (e : F), eps[p]? = some e → P e = true → labels[p]? = some l) (l' : Int) :
    countLab eps labels P l' = if l = l' then (eps.filter P).length else 0 := by
  unfold countLab
  induction eps generalizing labels with
  | nil => simp
  | cons e eps ih =>
    cases labels with
    | nil => simp at hl
    | cons x labels =>
      have ih := ih (labels := labels) (by simpa using hl) fun p e' hp hP => by
        have := h (p + 1) e' (by simpa using hp) hP
        simpa using this
      have h0 := h 0 e (by simp)
      rw [List.zip_cons_cons, List.filter_cons, List.filter_cons]
      cases hP : P e with
      | false => simpa [hP] using ih
      | true =>
        have hx : x = l := by simpa using h0 hP
        subst hx
        by_cases hll : x = l'
        · subst hll
          simp at ih
          simp [ih]
        · simp [hll] at ih
          simp [hll]
          simpa using ih

theorem je_total (junk : Nat → Int) (rng : Rng σ) (hr : rng.OK) {nBin digits : Int} (nBinE : Int)
    (hE : EdgesSorted (energyEdges nBinE.toNat : List F) nBinE.toNat)
    {edges : List F} {bin0 : Nat} (hh : makeHistogram nBin digits = .ok (edges, bin0))
    (hs : EdgesSorted edges nBin.toNat) (hc : EdgesCover edges nBin.toNat)
    (rows : List (F × F)) (he : ∀ r ∈ rows, InUnit r.2) (s s' : σ) (labels : List Int)
    (h : jeHistogramSplit junk rng nBin digits nBinE (rows.map fun r => [r.1, r.2]) s
      = .ok (labels, s')) :
    labels.count 0 = jeSize edges nBin.toNat bin0 nBinE.toNat rows := by
  obtain ⟨hn, -, -, hbn, -⟩ := makeHistogram_inv hh
  have hpos : 0 < nBin.toNat := by omega
  have h0 := bin0_pos hh hc
  obtain ⟨hlen, -, hside⟩ := C41_labels junk rng hr nBinE hE hh hs hc rows he s s' labels h
  have hlen' : labels.length = (rows.map Prod.snd).length := by simpa using hlen
  have he' : ∀ e ∈ rows.map Prod.snd, InUnit e := by
    intro e hm
    obtain ⟨r, hr, rfl⟩ := List.mem_map.1 hm
    exact he r hr
  rw [count_eq_zip (rows.map Prod.snd) labels hlen', length_filter_partition _ _ nBin.toNat
      (fun k el => inBinI edges nBin.toNat k el.1)
      (fun x hx => one_bin hpos hs hc (he' x.1 (List.of_mem_zip hx).1))]
  unfold jeSize
  congr 1
  refine List.map_congr_left fun k hk => ?_
  have hk := List.mem_range.1 hk
  show countLab (rows.map Prod.snd) labels (inBinI edges nBin.toNat k) 0 = _
  have hget : ∀ (p : Nat) (e : F), (rows.map Prod.snd)[p]? = some e → ∃ r, rows[p]? = some r ∧ r.2 = e := by
    intro p e hp
    rw [List.getElem?_map, Option.map_eq_some_iff] at hp
    exact hp
  split
  · next hkb =>
    rw [countLab_all hlen' (l := 0) (fun p e hp hP => by
      obtain ⟨r, hr, rfl⟩ := hget p e hp
      exact (hside p r hr).1 ((bin_negative hh hs hc hk hP).2 hkb)), if_pos rfl, rowsIn_length]
  · next hkb =>
    split
    · next hk2 =>
      exact (C41_bin junk rng hr nBinE hE hh h0 hs rows s s' labels h k (by omega) hk2 hk).1
    · next hk2 =>
      rw [countLab_all hlen' (l := 1) (fun p e hp hP => by
        obtain ⟨r, hr, rfl⟩ := hget p e hp
        refine (hside p r hr).2 k (by omega) hk ?_
        unfold inBinI at hP
        rw [Bool.and_eq_true] at hP
        exact hP.1), if_neg (by decide)]

/-- C106: `JEHistogram` never puts more stars into the spheroid than `JHistogram` with the same bins, for
all generators. -/
theorem C106_energy_fewer (junk junk' : Nat → Int) (rng : Rng σ) (hr : rng.OK) (rng' : Rng τ)
    (hr' : rng'.OK) {nBin digits : Int} (nBinE : Int)
    (hE : EdgesSorted (energyEdges nBinE.toNat : List F) nBinE.toNat)
    {edges : List F} {bin0 : Nat} (hh : makeHistogram nBin digits = .ok (edges, bin0))
    (hs : EdgesSorted edges nBin.toNat) (hc : EdgesCover edges nBin.toNat)
    (rows : List (F × F)) (he : ∀ r ∈ rows, InUnit r.2) (s s₁ : σ) (t t₁ : τ)
    (labels labels' : List Int)
    (h : jHistogramSplit junk rng nBin digits (rows.map fun r => [r.2]) s = .ok (labels, s₁))
    (h' : jeHistogramSplit junk' rng' nBin digits nBinE (rows.map fun r => [r.1, r.2]) t
      = .ok (labels', t₁)) : labels'.count 0 ≤ labels.count 0 := by
  have he' : ∀ e ∈ rows.map Prod.snd, InUnit e := by
    intro e hm
    obtain ⟨r, hr, rfl⟩ := List.mem_map.1 hm
    exact he r hr
  have h0 := bin0_pos hh hc
  have hX : (rows.map fun r => [r.2]) = (rows.map Prod.snd).map fun e => [e] := by
    rw [List.map_map]; rfl
  rw [hX] at h
  rw [(C38_total junk rng hr hh hs hc _ he' s s₁ labels h).1,
    je_total junk' rng' hr' nBinE hE hh hs hc rows he t t₁ labels' h']
  unfold jeSize sphSize
  refine list_sum_le _ fun k hk => ?_
  have hk := List.mem_range.1 hk
  rw [← rowsIn_length, ← rowsIn_length]
  split
  · exact Nat.le_refl _
  · next hkb =>
    split
    · next hk2 =>
      obtain ⟨h1, h2⟩ := C41_bin junk' rng' hr' nBinE hE hh h0 hs rows t t₁ labels' h' k (by omega) hk2 hk
      split
      · next h3 => exact Nat.le_min.2 ⟨h3, Nat.le_refl _⟩
      · next h3 =>
        rw [if_neg h3] at h1
        have h4 : energyMatches nBinE.toNat (rowsIn edges nBin.toNat (2 * bin0 - 1 - k) rows)
            (rowsIn edges nBin.toNat k rows) ≤ (rowsIn edges nBin.toNat (2 * bin0 - 1 - k) rows).length := by
          unfold energyMatches
          rw [← h1]
          exact h2
        omega
    · exact Nat.le_refl _

/-- the same for the mask of `energyLoop`, whose last bin is open -/
theorem Refines.halfOpen_count {α : Type} (hR : Refines edges edges' n q) (hn : 0 < n) (hq : 0 < q)
    (hs : EdgesSorted edges' (n * q)) (f : α → F) (L : List α) {k : Nat} (hk : k < n) :
    (L.filter fun x => halfOpen edges k (f x)).length
      = ((List.range q).map fun r => (L.filter fun x => halfOpen edges' (k * q + r) (f x)).length).sum := by
  have half : ∀ {es : List F} {m j : Nat} {x : F}, halfOpen es j x = true → inBinI es m j x = true := by
    intro es m j x h
    unfold halfOpen at h
    unfold inBinI
    rw [Bool.and_eq_true] at h ⊢
    refine ⟨h.1, ?_⟩
    split
    · exact le_of_lt' h.2
    · exact h.2
  have hsc := hR.sorted hn hq hs
  have hnq := Nat.mul_pos hn hq
  refine block_count hq (fun k x => halfOpen edges k (f x)) (fun j x => halfOpen edges' j (f x))
    ?_ ?_ ?_ ?_ L hk
  · intro j hj x hx
    have hk : j / q < n := Nat.div_lt_of_lt_mul (by rwa [Nat.mul_comm])
    have hlo : j / q * q ≤ j := Nat.div_mul_le_self j q
    have hhi : j + 1 ≤ (j / q + 1) * q := Nat.lt_mul_of_div_lt (Nat.lt_succ_self _) hq
    have hup : (j / q + 1) * q ≤ n * q := Nat.mul_le_mul_right _ hk
    simp only [halfOpen, Bool.and_eq_true] at hx ⊢
    rw [(hR _ (by omega)).le, (hR _ (by omega)).gt]
    exact ⟨NumOrd.le_trans (hs.le hnq _ _ hlo (by omega)) hx.1,
      lt_of_lt_of_le' hx.2 (hs.le hnq _ _ hhi hup)⟩
  · intro k hk x hx
    obtain ⟨j, hj, hj'⟩ := hR.coarse_fine hn hq hs hk (half (m := n) hx)
    refine ⟨j, hj, ?_⟩
    simp only [halfOpen, Bool.and_eq_true] at hx ⊢
    unfold inBinI at hj'
    rw [Bool.and_eq_true] at hj'
    refine ⟨hj'.1, ?_⟩
    have h2 := hj'.2
    split at h2
    · next hlast =>
      have := lt_of_lt_of_le' hx.2 (hsc.le hn (k + 1) n (by omega) (by omega))
      rw [(hR n (by omega)).gt] at this
      rw [show j + 1 = n * q by omega]
      exact this
    · exact h2
  · intro i hi j hj x h1 h2
    exact hsc.unique hn hi hj (half h1) (half h2)
  · intro i hi j hj x h1 h2
    exact hs.unique hnq hi hj (half h1) (half h2)

theorem energyMatches_refine {nE q : Nat} (hE : 0 < nE) (hq : 0 < q)
    (hR : Refines (energyEdges nE : List F) (energyEdges (nE * q)) nE q)
    (hs : EdgesSorted (energyEdges (nE * q) : List F) (nE * q)) (cnt cor : List (F × F)) :
    energyMatches (nE * q) cnt cor ≤ energyMatches nE cnt cor := by
  unfold energyMatches
  rw [sum_blocks]
  refine list_sum_le _ fun j hj => ?_
  have hj := List.mem_range.1 hj
  refine Nat.le_trans (sum_min_le _ _ _) ?_
  have h1 := block_count hq (fun k (r : F × F) => inBinI (energyEdges nE) nE k r.1)
    (fun k r => inBinI (energyEdges (nE * q)) (nE * q) k r.1)
    (fun _ hj _ hx => hR.fine_coarse hE hq hs hj hx) (fun _ hk _ hx => hR.coarse_fine hE hq hs hk hx)
    (fun _ hi _ hj _ h1 h2 => (hR.sorted hE hq hs).unique hE hi hj h1 h2)
    (fun _ hi _ hj _ h1 h2 => hs.unique (Nat.mul_pos hE hq) hi hj h1 h2) cnt hj
  have h2 := hR.halfOpen_count hE hq hs Prod.fst cor hj
  rw [h1, h2]

/-! ### decompositions of galaxies -/

theorem scatter_count {N : Nat} {c : List (Option Int)} (hN : c.length = N) {S : List Nat}
    (hS : S.Nodup) (hlt : ∀ i ∈ S, i < N) {labels : List Int} (hl : labels.length = S.length)
    (h1 : ∀ p i : Nat, S[p]? = some i → c[i]? = some labels[p]?)
    (h2 : ∀ i < N, i ∉ S → c[i]? = some none) (x : Int) : c.count (some x) = labels.count x := by
  set g : Nat → Option Int := fun i => (c[i]?).getD none with hg
  have e1 : c = (List.range N).map g := by
    apply List.ext_getElem
    · simp [hN]
    · intro i h3 h4
      simp [hg, h3]
  have e2 : labels.map some = S.map g := by
    apply List.ext_getElem
    · simp [hl]
    · intro p h3 h4
      have hp : p < S.length := by simpa using h4
      have := h1 p S[p] (by simp [hp])
      simp only [List.getElem_map, hg, this]
      simp [hl, hp]
  rw [← List.count_map_of_injective labels some (Option.some_injective _), e2, e1,
    List.count_eq_countP, List.count_eq_countP, List.countP_map, List.countP_map,
    List.countP_eq_length_filter, List.countP_eq_length_filter]
  apply List.Perm.length_eq
  apply (List.perm_ext_iff_of_nodup (List.nodup_range.filter _) (hS.filter _)).2
  intro i
  simp only [List.mem_filter, List.mem_range, Function.comp_apply, beq_iff_eq]
  constructor
  · rintro ⟨hi, hx⟩
    refine ⟨?_, hx⟩
    by_contra hn
    rw [hg] at hx
    simp only [h2 i hi hn] at hx
    cases hx
  · rintro ⟨hi, hx⟩
    exact ⟨hlt i hi, hx⟩

/-- the circularities given to `JHistogram.split` by `decompose` -/
def splitEps (b : BGalaxy F) (j : JCirc F) : List F :=
  (splitStars b j ["eps"]).map fun i => j.eps.getD i Num.nan

theorem decompose_count (junk : Nat → Int) (rng : Rng σ) (hr : rng.OK) {nBin digits : Int}
    {edges : List F} {bin0 : Nat} (hh : makeHistogram nBin digits = .ok (edges, bin0))
    (hs : EdgesSorted edges nBin.toNat) (hc : EdgesCover edges nBin.toNat) (s : σ)
    (env : CircEnv F) (cbins : F × F) (b : BGalaxy F) (j : JCirc F)
    (hj : jcirc env (Galaxy.ofBodies b) cbins.1 cbins.2 = .ok j) :
    (∀ e ∈ splitEps b j, InUnit e) ∧
    ∃ labels s' c, jHistogramSplit junk rng nBin digits ((splitEps b j).map fun e => [e]) s
        = .ok (labels, s') ∧
      decompose env cbins (jHistogram junk rng nBin digits s) (Galaxy.ofBodies b) = .ok c ∧
      ∀ x, c.labels.count (some x) = labels.count x := by
  have hlen : j.eps.length = b.stars.length := by
    have hal : CircAligned env cbins b ["eps"] j := circAligned_of_ok hj (by decide)
    exact (hal ⟨"eps", by simp, by decide⟩).2 "eps" (by simp) (by decide)
  have hunit : ∀ e ∈ splitEps b j, InUnit e := by
    intro e he
    unfold splitEps splitStars at he
    obtain ⟨i, hi, rfl⟩ := List.mem_map.1 he
    rw [List.mem_filter, List.mem_range] at hi
    have h1 : j.eps[i]? = some (j.eps.getD i Num.nan) := by
      rw [List.getD_eq_getElem?_getD, List.getElem?_eq_getElem (by omega)]
      rfl
    have h2 : Num.isFinite (j.eps.getD i Num.nan) = true := by
      simpa [rowFinite, starRow, JCirc.attr] using hi.2
    rcases C23_eps_range env b cbins.1 cbins.2 j hj _ (List.mem_of_getElem? h1) with hn | hu
    · rw [NumOrd.finite_not_nan h2] at hn; cases hn
    · exact hu
  refine ⟨hunit, ?_⟩
  obtain ⟨labels, s', hl1, hl2, -⟩ := C37_labels junk rng hr hh hs hc _ hunit s
  have hl3 : labels.length = (splitStars b j ["eps"]).length := by
    rw [hl2]; simp [splitEps]
  obtain ⟨c, c1, c2, c3, c4⟩ := decompose_rows env cbins b j hj ["eps"] (by simp) (by decide)
    (by decide) (fun X _ => (jHistogramSplit junk rng nBin digits X s).map fun ls => (ls.1, none))
    labels (by
      have hrow : (splitStars b j ["eps"]).map (starRow j ["eps"]) = (splitEps b j).map fun e => [e] := by
        unfold splitEps
        rw [List.map_map]
        exact List.map_congr_left fun i _ => rfl
      simp only [hrow, hl1]
      rfl) hl3
  refine ⟨labels, s', c, hl1, c1, fun x => ?_⟩
  refine scatter_count c2 (S := splitStars b j ["eps"]) (List.nodup_range.filter _) ?_ hl3 c3 c4 x
  intro i hi
  have := List.mem_range.1 (List.mem_of_mem_filter hi)
  omega

/-- C106: decomposing a galaxy in doubles with `q` times as many bins labels the same number of stars and
never more of them spheroid. -/
theorem C106_decompose (junk junk' : Nat → Int) (rng : Rng σ) (hr : rng.OK) (rng' : Rng τ)
    (hr' : rng'.OK) (m q d : Nat) (hm : 0 < m) (hq : 0 < q) (hmd : m * q ∣ 10 ^ d) (hd : d ≤ 14)
    (s : σ) (t : τ) (env : CircEnv Float64) (cbins : Float64 × Float64) (b : BGalaxy Float64)
    (j : JCirc Float64) (hj : jcirc env (Galaxy.ofBodies b) cbins.1 cbins.2 = .ok j) :
    ∃ c c', decompose env cbins (jHistogram junk rng (2 * m : ℤ) d s) (Galaxy.ofBodies b) = .ok c ∧
      decompose env cbins (jHistogram junk' rng' (2 * (m * q : ℕ) : ℤ) d t) (Galaxy.ofBodies b) = .ok c' ∧
      c'.labels.count (some 0) ≤ c.labels.count (some 0) ∧
      c'.labels.count (some 0) + c'.labels.count (some 1)
        = c.labels.count (some 0) + c.labels.count (some 1) := by
  have hmq := Nat.mul_pos hm hq
  have hle : m * q ≤ 10 ^ d := Nat.le_of_dvd (by positivity) hmd
  have hle0 : m ≤ 10 ^ d := Nat.le_of_dvd (by positivity) ((Dvd.intro q rfl).trans hmd)
  obtain ⟨a1, a2, a3⟩ := histogram64 hm hle0 (by omega)
  obtain ⟨b1, b2, b3⟩ := histogram64 hmq hle (by omega)
  obtain ⟨hu, l, s', c, h1, h2, h3⟩ := decompose_count junk rng hr a1 a2 a3 s env cbins b j hj
  obtain ⟨-, l', t', c', g1, g2, g3⟩ := decompose_count junk' rng' hr' b1 b2 b3 t env cbins b j hj
  refine ⟨c, c', h2, g2, ?_, ?_⟩
  · rw [g3, h3]
    exact C106_finer_double junk junk' rng hr rng' hr' m q d hm hq hmd hd _ hu s s' t t' l l' h1 g1
  · rw [g3, h3, g3, h3]
    have k1 := C38_total junk rng hr a1 a2 a3 _ hu s s' l h1
    have k2 := C38_total junk' rng' hr' b1 b2 b3 _ hu t t' l' g1
    have k3 : l.count 0 ≤ l.length := List.count_le_length
    have k4 : l'.count 0 ≤ l'.length := List.count_le_length
    obtain ⟨_, _, f1, f2, -⟩ := C37_labels junk rng hr a1 a2 a3 _ hu s
    obtain ⟨_, _, f3, f4, -⟩ := C37_labels junk' rng' hr' b1 b2 b3 _ hu t
    rw [h1] at f1
    rw [g1] at f3
    injection f1 with f1
    injection f3 with f3
    injection f1 with f1 _
    injection f3 with f3 _
    subst f1
    subst f3
    omega

section exact
variable {K : Type} [Field K] [LinearOrder K] [IsStrictOrderedRing K] [FloorRing K] [HasSqrt K]

theorem SameEdge.of_eq {a b : F} (h : a = b) : SameEdge a b := by
  subst h
  exact ⟨fun _ => rfl, fun _ => rfl, fun _ => rfl⟩

/-- C106: in exact arithmetic this needs no condition on the digits, except that the zero edge is where it
should be. -/
theorem C106_finer_exact (junk junk' : Nat → Int) (rng : Rng σ) (hr : rng.OK) (rng' : Rng τ)
    (hr' : rng'.OK) (m q : Nat) (d : ℤ) (hm : 0 < m) (hq : 0 < q) (hd0 : 0 ≤ d)
    (hd : ((m * q : ℕ) : K) < 2 * (10 : K) ^ d) (eps : List K) (he : ∀ e ∈ eps, |e| ≤ 1)
    (s s₁ : σ) (t t₁ : τ) (labels labels' : List Int)
    (h : jHistogramSplit junk rng (2 * m : ℤ) d (eps.map fun e => [Ext.fin e]) s = .ok (labels, s₁))
    (h' : jHistogramSplit junk' rng' (2 * (m * q : ℕ) : ℤ) d (eps.map fun e => [Ext.fin e]) t
      = .ok (labels', t₁)) : labels'.count 0 ≤ labels.count 0 := by
  have hmq := Nat.mul_pos hm hq
  have hd1 : (m : K) < 2 * (10 : K) ^ d := by
    refine lt_of_le_of_lt ?_ hd
    exact_mod_cast Nat.le_mul_of_pos_right m hq
  have hX : (eps.map fun e => [(Ext.fin e : Ext K)]) = (eps.map Ext.fin).map fun e => [e] := by
    rw [List.map_map]; rfl
  have hu : ∀ e ∈ eps.map (Ext.fin : K → Ext K), InUnit e := by
    intro e h
    rw [List.mem_map] at h
    obtain ⟨x, hx, rfl⟩ := h
    have := abs_le.1 (he x hx)
    unfold InUnit
    simp [this.1, this.2]
  rw [hX] at h h'
  have n1 : (0 : ℤ) < 2 * m := by omega
  have n2 : (0 : ℤ) < 2 * (m * q : ℕ) := by omega
  have e1 : (2 * m : ℤ).toNat = 2 * m := by omega
  have e2 : (2 * (m * q : ℕ) : ℤ).toNat = 2 * m * q := by
    rw [Nat.mul_assoc]
    omega
  rw [(C38_total junk rng hr (C40_exact_even m hm d hd1) (exact_sorted _ d n1)
      (exact_cover _ d n1 hd0) _ hu s s₁ labels h).1,
    (C38_total junk' rng' hr' (C40_exact_even (m * q) hmq d hd) (exact_sorted _ d n2)
      (exact_cover _ d n2 hd0) _ hu t t₁ labels' h').1]
  have b2 := exact_sorted (K := K) _ d n2
  rw [e2] at b2
  rw [e1, e2]
  refine sphSize_refine (fun i hi => SameEdge.of_eq ?_) (by omega) hq b2 _
  have hi2 : i * q ≤ 2 * m * q := Nat.mul_le_mul_right _ hi
  rw [roundedEdges_edge _ _ n1 i (by omega), roundedEdges_edge _ _ n2 (i * q) (by omega), e1, e2]
  have h1 : (m : K) ≠ 0 := by exact_mod_cast hm.ne'
  have h2 : (q : K) ≠ 0 := by exact_mod_cast hq.ne'
  congr 2
  unfold edgeK
  push_cast
  field_simp

/-- C106: in exact arithmetic multiplying the number of energy bins of `JEHistogram` never makes the
spheroid larger. -/
theorem C106_energy_finer_exact (junk junk' : Nat → Int) (rng : Rng σ) (hr : rng.OK) (rng' : Rng τ)
    (hr' : rng'.OK) (m nE q : Nat) (d : ℤ) (hm : 0 < m) (hE : 0 < nE) (hq : 0 < q) (hd0 : 0 ≤ d)
    (hd : (m : K) < 2 * (10 : K) ^ d) (rows : List (K × K)) (he : ∀ r ∈ rows, |r.2| ≤ 1)
    (s s₁ : σ) (t t₁ : τ) (labels labels' : List Int)
    (h : jeHistogramSplit junk rng (2 * m : ℤ) d nE (rows.map fun r => [Ext.fin r.1, Ext.fin r.2]) s
      = .ok (labels, s₁))
    (h' : jeHistogramSplit junk' rng' (2 * m : ℤ) d (nE * q : ℕ)
      (rows.map fun r => [Ext.fin r.1, Ext.fin r.2]) t = .ok (labels', t₁)) :
    labels'.count 0 ≤ labels.count 0 := by
  have hX : (rows.map fun r => [(Ext.fin r.1 : Ext K), Ext.fin r.2])
      = (rows.map fun r => ((Ext.fin r.1 : Ext K), (Ext.fin r.2 : Ext K))).map fun r => [r.1, r.2] := by
    rw [List.map_map]; rfl
  have hu : ∀ r ∈ rows.map fun r => ((Ext.fin r.1 : Ext K), (Ext.fin r.2 : Ext K)), InUnit r.2 := by
    intro e h
    rw [List.mem_map] at h
    obtain ⟨x, hx, rfl⟩ := h
    have := abs_le.1 (he x hx)
    unfold InUnit
    simp [this.1, this.2]
  rw [hX] at h h'
  have n1 : (0 : ℤ) < 2 * m := by omega
  have hh := C40_exact_even (K := K) m hm d hd
  rw [je_total junk rng hr nE (exact_energy_sorted _) hh (exact_sorted _ d n1) (exact_cover _ d n1 hd0)
      _ hu s s₁ labels h,
    je_total junk' rng' hr' (nE * q : ℕ) (exact_energy_sorted _) hh (exact_sorted _ d n1)
      (exact_cover _ d n1 hd0) _ hu t t₁ labels' h']
  have b2 := exact_energy_sorted (K := K) ((nE * q : ℕ) : ℤ)
  rw [Int.toNat_natCast] at b2 ⊢
  rw [Int.toNat_natCast]
  have hR : Refines (energyEdges nE : List (Ext K)) (energyEdges (nE * q)) nE q := by
    intro i hi
    refine SameEdge.of_eq ?_
    rw [energyEdges_get _ hE i hi, energyEdges_get _ (Nat.mul_pos hE hq) (i * q)
      (Nat.mul_le_mul_right _ hi)]
    have h1 : (nE : K) ≠ 0 := by exact_mod_cast hE.ne'
    have h2 : (q : K) ≠ 0 := by exact_mod_cast hq.ne'
    congr 1
    push_cast
    field_simp
  unfold jeSize
  refine list_sum_le _ fun k _ => ?_
  split
  · exact Nat.le_refl _
  · split
    · split
      · exact Nat.le_refl _
      · exact energyMatches_refine hE hq hR b2 _ _
    · exact Nat.le_refl _

end exact

/-- C106 (negation): the number of bins has to be multiplied by a whole number. With the stars -0.6 and
0.4 four bins give one spheroid star and six bins two. -/
theorem C106_not_multiple :
    (jHistogramSplit (fun _ => 99) firstRng 4 2 [[(Num.ofRat (-3/5) : Float64)], [Num.ofRat (2/5)]] ()).map
      (·.1) = .ok [0, 1] ∧
    (jHistogramSplit (fun _ => 99) firstRng 6 2 [[(Num.ofRat (-3/5) : Float64)], [Num.ofRat (2/5)]] ()).map
      (·.1) = .ok [0, 0] := by decide +kernel

/-- three stars: energy and circularity -/
def exPairs : List (List Float64) :=
  [[Num.ofRat (-1/4), Num.ofRat (-1/4)], [Num.ofRat (-3/4), Num.ofRat (1/4)],
    [Num.ofRat (-3/4), Num.ofRat (3/4)]]

/-- C106 (negation): with `JEHistogram` twice as many circularity bins can make a larger spheroid. -/
theorem C106_energy_more :
    (jeHistogramSplit (fun _ => 99) firstRng 2 2 2 exPairs ()).map (·.1) = .ok [0, 1, 1] ∧
    (jeHistogramSplit (fun _ => 99) firstRng 4 2 2 exPairs ()).map (·.1) = .ok [0, 0, 1] := by
  decide +kernel

/-- three stars, the first at an energy that is computed as the edge 21 of 60, just below edge 7 of 20 -/
def exEnergyEdge : List (List Float64) :=
  [[Num.ofRat (-5854679515581645/9007199254740992), Num.ofRat (-49/100)], [Num.ofRat (-16/25), Num.ofRat (49/100)],
    [Num.ofRat (-1/10), Num.ofRat (49/100)]]

/-- C106 (negation): in double precision three times as many energy bins as by default can make a larger
spheroid, because the energy edges are computed without rounding to digits. -/
theorem C106_energy_edges :
    (jeHistogramSplit (fun _ => 99) firstRng 100 2 20 exEnergyEdge ()).map (·.1) = .ok [0, 1, 1] ∧
    (jeHistogramSplit (fun _ => 99) firstRng 100 2 60 exEnergyEdge ()).map (·.1) = .ok [0, 0, 1] := by
  decide +kernel

/-- bins twice as fine make the spheroid smaller here -/
example :
    (jHistogramSplit (fun _ => 99) firstRng 2 2 [[(Num.ofRat (-3/5) : Float64)], [Num.ofRat (2/5)]] ()).map
      (·.1) = .ok [0, 0] ∧
    (jHistogramSplit (fun _ => 99) firstRng 4 2 [[(Num.ofRat (-3/5) : Float64)], [Num.ofRat (2/5)]] ()).map
      (·.1) = .ok [0, 1] := by decide +kernel

/-- both bounds of `C106_more_stars` are reached: one counter-rotating star more, one or two spheroid
stars more -/
example :
    (jHistogramSplit (fun _ => 99) firstRng 2 2 [[(Num.ofRat (2/5) : Float64)]] ()).map (·.1)
      = .ok [1] ∧
    (jHistogramSplit (fun _ => 99) firstRng 2 2 [[(Num.ofRat (2/5) : Float64)], [Num.ofRat (-3/5)]] ()).map
      (·.1) = .ok [0, 0] ∧
    (jHistogramSplit (fun _ => 99) firstRng 2 2
      [[(Num.ofRat (2/5) : Float64)], [Num.ofRat (-3/5)], [Num.ofRat (-3/5)]] ()).map (·.1)
      = .ok [0, 0, 0] := by decide +kernel

/-- the hypotheses of `C106_decompose` hold for a galaxy with two stars, with 20 and 100 bins -/
example (junk : Nat → Int) (rng : Rng σ) (hr : rng.OK) (s : σ) : ∃ c c',
    decompose sortEnv defaultCbin (jHistogram junk rng 20 2 s) (Galaxy.ofBodies exThird) = .ok c ∧
    decompose sortEnv defaultCbin (jHistogram junk rng 100 2 s) (Galaxy.ofBodies exThird) = .ok c' ∧
    c'.labels.count (some 0) ≤ c.labels.count (some 0) := by
  obtain ⟨j, hj, -⟩ := exThird_jcirc
  obtain ⟨c, c', h1, h2, h3, -⟩ := C106_decompose junk junk rng hr rng hr 10 5 2 (by norm_num)
    (by norm_num) (by norm_num) (by norm_num) s s sortEnv defaultCbin exThird j hj
  exact ⟨c, c', h1, h2, h3⟩

end GChop
