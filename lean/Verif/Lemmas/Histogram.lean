import Verif.Histogram
import Verif.Props.Threshold

/-!
# Facts about the histogram model: dictionaries, bins, loops
-/

set_option linter.unusedSectionVars false

namespace GChop

namespace Dict
variable {κ ν : Type} [DecidableEq κ]

theorem get?_set (d : Dict κ ν) (k i : κ) (v : ν) :
    get? (set d k v) i = if i = k then some v else get? d i := by
  induction d with
  | nil =>
    simp only [set, get?]
    by_cases h : i = k
    · simp [h]
    · rw [if_neg h, if_neg (Ne.symm h)]
  | cons kv d ih =>
    obtain ⟨k', v'⟩ := kv
    simp only [set]
    by_cases hk : k' = k
    · rw [if_pos hk]
      simp only [get?]
      by_cases h : k' = i
      · rw [if_pos h, if_pos (by rw [← h, hk])]
      · rw [if_neg h, if_neg (by rintro rfl; exact h hk), if_neg h]
    · rw [if_neg hk]
      simp only [get?]
      by_cases h : k' = i
      · rw [if_pos h, if_neg (by rintro rfl; exact hk h), if_pos h]
      · rw [if_neg h, ih, if_neg h]

theorem length_set (d : Dict κ ν) (k : κ) (v : ν) :
    (set d k v).length = if (get? d k).isSome then d.length else d.length + 1 := by
  induction d with
  | nil => simp [set, get?]
  | cons kv d ih =>
    obtain ⟨k', v'⟩ := kv
    by_cases hk : k' = k
    · simp [set, get?, hk]
    · have h1 : set ((k', v') :: d) k v = (k', v') :: set d k v := by simp [set, hk]
      have h2 : get? ((k', v') :: d) k = get? d k := by simp [get?, hk]
      rw [h1, h2, List.length_cons, ih]
      split <;> simp

theorem getItem_of_get? {d : Dict κ ν} {k : κ} {v : ν} (h : get? d k = some v) :
    getItem d k = .ok v := by
  unfold getItem; rw [h]

end Dict

/-- the dictionary has exactly the keys `0 .. n-1`, with values `f` -/
def IsTab {ν : Type} (d : Dict Nat ν) (n : Nat) (f : Nat → ν) : Prop :=
  d.length = n ∧ ∀ i, Dict.get? d i = if i < n then some (f i) else none

namespace IsTab
variable {ν : Type} {d : Dict Nat ν} {n : Nat} {f : Nat → ν}

theorem empty (f : Nat → ν) : IsTab [] 0 f := ⟨rfl, fun i => by simp [Dict.get?]⟩

theorem congr (h : IsTab d n f) {g : Nat → ν} (hg : ∀ i < n, f i = g i) : IsTab d n g := by
  refine ⟨h.1, fun i => ?_⟩
  rw [h.2 i]
  split
  · rename_i hi; rw [hg i hi]
  · rfl

theorem get (h : IsTab d n f) {i : Nat} (hi : i < n) : Dict.getItem d i = .ok (f i) :=
  Dict.getItem_of_get? (by rw [h.2 i, if_pos hi])

/-- a new key at the end -/
theorem push (h : IsTab d n f) : IsTab (Dict.set d n (f n)) (n + 1) f := by
  refine ⟨?_, fun i => ?_⟩
  · rw [Dict.length_set, h.2 n]; simp [h.1]
  · rw [Dict.get?_set, h.2 i]
    by_cases hi : i = n
    · subst hi; simp
    · rw [if_neg hi]
      by_cases hlt : i < n
      · rw [if_pos hlt, if_pos (by omega)]
      · rw [if_neg hlt, if_neg (by omega)]

/-- an existing key -/
theorem upd (h : IsTab d n f) {k : Nat} (hk : k < n) (v : ν) :
    IsTab (Dict.set d k v) n (fun i => if i = k then v else f i) := by
  refine ⟨?_, fun i => ?_⟩
  · rw [Dict.length_set, h.2 k, if_pos hk]; simp [h.1]
  · rw [Dict.get?_set, h.2 i]
    by_cases hi : i = k
    · subst hi; simp [hk]
    · simp [hi]

theorem foldl_push (f : Nat → ν) (m : Nat) :
    IsTab ((List.range m).foldl (fun d i => Dict.set d i (f i)) []) m f := by
  induction m with
  | zero => exact empty f
  | succ m ih =>
    rw [List.range_succ, List.foldl_append]
    exact ih.push

theorem foldl_const (h : IsTab d n f) (m : Nat) (hm : m ≤ n) (v : ν) :
    IsTab ((List.range m).foldl (fun d i => Dict.set d i v) d) n
      (fun i => if i < m then v else f i) := by
  induction m with
  | zero => exact h.congr (by simp)
  | succ m ih =>
    rw [List.range_succ, List.foldl_append]
    refine ((ih (by omega)).upd (k := m) (by omega) v).congr fun i hi => ?_
    by_cases h1 : i = m
    · subst h1; simp
    · rw [if_neg h1]
      by_cases h2 : i < m
      · rw [if_pos h2, if_pos (by omega)]
      · rw [if_neg h2, if_neg (by omega)]

end IsTab

theorem concatEntries_tab {d : Dict Nat (List Nat)} {n : Nat} {f : Nat → List Nat}
    (h : IsTab d n f) (hn : 0 < n) : concatEntries d = .ok ((List.range n).map f).flatten := by
  unfold concatEntries
  rw [if_neg (by rw [h.1]; omega), h.1, mapM_ok (List.range n) _ f]
  · rfl
  · intro i hi
    exact h.get (List.mem_range.1 hi)

theorem makeCountSph_tab {bins : Dict Nat (List Nat)} {n : Nat} {B : Nat → List Nat}
    (hb : IsTab bins n B) (m a : Nat) (hm : a + m ≤ n) (sph : Dict Nat (List Nat))
    (hs : IsTab sph a B) :
    ∃ sph', makeCountSph bins (List.range' a m) sph = .ok sph' ∧ IsTab sph' (a + m) B := by
  induction m generalizing a sph with
  | zero => exact ⟨sph, rfl, hs⟩
  | succ m ih =>
    rw [List.range'_succ]
    simp only [makeCountSph]
    rw [hb.get (show a < n by omega)]
    simp only [Py.ok_bind]
    obtain ⟨sph', h1, h2⟩ := ih (a + 1) (by omega) _ hs.push
    exact ⟨sph', h1, by rwa [show a + (m + 1) = a + 1 + m by omega]⟩

variable {σ : Type}

/-- what the code takes from a co-rotating bin `cor` whose mirror bin is `cnt`, where `P` describes
the selection -/
def Taken (P : List Nat → List Nat → List Nat → Prop) (cnt cor sel : List Nat) : Prop :=
  (cor.length ≤ cnt.length ∧ sel = cor) ∨ (cnt.length < cor.length ∧ P cnt cor sel)

/-- the keys written so far by `makeCorotSph`: `0 .. bin0-1` and `2*bin0-c .. 2*bin0-lim-1` -/
structure CorotInv (B S : Nat → List Nat) (bin0 lim c : Nat) (sph : Dict Nat (List Nat)) : Prop where
  len : sph.length = bin0 + (c - lim)
  low : ∀ i, i < bin0 → Dict.get? sph i = some (B i)
  high : ∀ i, 2 * bin0 - c ≤ i → i < 2 * bin0 - lim → Dict.get? sph i = some (S i)
  mid : ∀ i, bin0 ≤ i → i < 2 * bin0 - c → Dict.get? sph i = none
  top : ∀ i, 2 * bin0 - lim ≤ i → Dict.get? sph i = none

theorem CorotInv.step {B S : Nat → List Nat} {bin0 lim c : Nat} {sph : Dict Nat (List Nat)}
    (h : CorotInv B S bin0 lim c sph) (hlim : lim ≤ c) (hc : c < bin0) (v : List Nat) :
    CorotInv B (fun i => if i = 2 * bin0 - 1 - c then v else S i) bin0 lim (c + 1)
      (Dict.set sph (2 * bin0 - 1 - c) v) := by
  have hnone : Dict.get? sph (2 * bin0 - 1 - c) = none := h.mid _ (by omega) (by omega)
  refine ⟨?_, ?_, ?_, ?_, ?_⟩
  · rw [Dict.length_set, hnone, h.len]; simp; omega
  · intro i hi
    rw [Dict.get?_set, if_neg (by omega), h.low i hi]
  · intro i h1 h2
    rw [Dict.get?_set]
    by_cases hi : i = 2 * bin0 - 1 - c
    · simp [hi]
    · rw [if_neg hi, h.high i (by omega) h2]; simp [hi]
  · intro i h1 h2
    rw [Dict.get?_set, if_neg (by omega), h.mid i h1 (by omega)]
  · intro i h1
    rw [Dict.get?_set, if_neg (by omega), h.top i h1]

/-- The loop over the mirrored bins: it returns with every bin handled as `Taken` says, or one of the
selections raised. -/
theorem makeCorotSph_spec (select : List Nat → List Nat → σ → Py (List Nat × σ))
    (P : List Nat → List Nat → List Nat → Prop) {bins : Dict Nat (List Nat)} {n bin0 lim : Nat}
    {B : Nat → List Nat} (hb : IsTab bins n B) (hn : 2 * bin0 - lim ≤ n) (hbn : bin0 ≤ n)
    (hP : ∀ c, lim ≤ c → c < bin0 → ∀ s sel s',
      select (B c) (B (2 * bin0 - 1 - c)) s = .ok (sel, s') →
      P (B c) (B (2 * bin0 - 1 - c)) sel)
    (m c : Nat) (hm : c + m = bin0) (hlim : lim ≤ c) (S : Nat → List Nat)
    (sph : Dict Nat (List Nat)) (s : σ) (hs : CorotInv B S bin0 lim c sph)
    (hS : ∀ i, 2 * bin0 - c ≤ i → i < 2 * bin0 - lim → Taken P (B (2 * bin0 - 1 - i)) (B i) (S i)) :
    (∃ sph' s' S', makeCorotSph select bin0 bins (List.range' c m) sph s = .ok (sph', s') ∧
      CorotInv B S' bin0 lim bin0 sph' ∧
      ∀ i, bin0 ≤ i → i < 2 * bin0 - lim → Taken P (B (2 * bin0 - 1 - i)) (B i) (S' i)) ∨
    (∃ c' s' e, lim ≤ c' ∧ c' < bin0 ∧ (B c').length < (B (2 * bin0 - 1 - c')).length ∧
      select (B c') (B (2 * bin0 - 1 - c')) s' = .error e ∧
      makeCorotSph select bin0 bins (List.range' c m) sph s = .error e) := by
  induction m generalizing c S sph s with
  | zero =>
    left
    have hc : c = bin0 := by omega
    subst hc
    refine ⟨sph, s, S, rfl, hs, ?_⟩
    intro i h1 h2
    exact hS i (by omega) h2
  | succ m ih =>
    have hc : c < bin0 := by omega
    rw [List.range'_succ]
    simp only [makeCorotSph]
    rw [hb.get (show c < n by omega), hb.get (show 2 * bin0 - 1 - c < n by omega)]
    simp only [Py.ok_bind]
    -- the state after this bin
    have key : ∀ (v : List Nat) (s1 : σ), Taken P (B c) (B (2 * bin0 - 1 - c)) v →
        (∃ sph' s' S', makeCorotSph select bin0 bins (List.range' (c + 1) m)
            (Dict.set sph (2 * bin0 - 1 - c) v) s1 = .ok (sph', s') ∧
          CorotInv B S' bin0 lim bin0 sph' ∧
          ∀ i, bin0 ≤ i → i < 2 * bin0 - lim → Taken P (B (2 * bin0 - 1 - i)) (B i) (S' i)) ∨
        (∃ c' s' e, lim ≤ c' ∧ c' < bin0 ∧ (B c').length < (B (2 * bin0 - 1 - c')).length ∧
          select (B c') (B (2 * bin0 - 1 - c')) s' = .error e ∧
          makeCorotSph select bin0 bins (List.range' (c + 1) m)
            (Dict.set sph (2 * bin0 - 1 - c) v) s1 = .error e) := by
      intro v s1 hv
      refine ih (c + 1) (by omega) (by omega) (fun i => if i = 2 * bin0 - 1 - c then v else S i)
        (Dict.set sph (2 * bin0 - 1 - c) v) s1 (hs.step hlim hc v) ?_
      intro i h1 h2
      by_cases hi : i = 2 * bin0 - 1 - c
      · subst hi
        rw [if_pos rfl, show 2 * bin0 - 1 - (2 * bin0 - 1 - c) = c by omega]
        exact hv
      · rw [if_neg hi]
        exact hS i (by omega) h2
    by_cases hlen : (B c).length ≥ (B (2 * bin0 - 1 - c)).length
    · rw [if_pos hlen]
      exact key (B (2 * bin0 - 1 - c)) s (Or.inl ⟨hlen, rfl⟩)
    · rw [if_neg hlen]
      cases hsel : select (B c) (B (2 * bin0 - 1 - c)) s with
      | error e => exact Or.inr ⟨c, s, e, hlim, hc, by omega, hsel, rfl⟩
      | ok r =>
        obtain ⟨sel, s1⟩ := r
        exact key sel s1 (Or.inr ⟨by omega, hP c hlim hc s sel s1 hsel⟩)

theorem diskLoop_tab {bins sph : Dict Nat (List Nat)} {n M : Nat} {B T : Nat → List Nat}
    (hb : IsTab bins n B) (hs : IsTab sph M T) (hMn : M ≤ n) (m a : Nat) (ham : a + m = M)
    (dsk : Dict Nat (List Nat)) (D : Nat → List Nat) (hd : IsTab dsk n D) :
    ∃ dsk', diskLoop bins sph (List.range' a m) dsk = .ok dsk' ∧
      IsTab dsk' n (fun i => if a ≤ i ∧ i < M
        then Np.unique ((B i).filter fun p => !(T i).contains p) else D i) := by
  induction m generalizing a dsk D with
  | zero => exact ⟨dsk, rfl, hd.congr fun i _ => by rw [if_neg (by omega)]⟩
  | succ m ih =>
    rw [List.range'_succ]
    simp only [diskLoop]
    rw [hb.get (show a < n by omega), hs.get (show a < M by omega)]
    simp only [Py.ok_bind]
    obtain ⟨dsk', h1, h2⟩ := ih (a + 1) (by omega) _ _ (hd.upd (k := a) (by omega)
      (Np.unique ((B a).filter fun p => !(T a).contains p)))
    refine ⟨dsk', h1, h2.congr fun i hi => ?_⟩
    by_cases h3 : a + 1 ≤ i ∧ i < M
    · rw [if_pos h3, if_pos (by omega)]
    · rw [if_neg h3]
      by_cases h4 : i = a
      · subst h4; rw [if_pos rfl, if_pos (by omega)]
      · rw [if_neg h4, if_neg (by omega)]

theorem Np.mem_insertUnique (x y : Nat) (l : List Nat) :
    y ∈ Np.insertUnique x l ↔ y = x ∨ y ∈ l := by
  induction l with
  | nil => simp [Np.insertUnique]
  | cons z l ih =>
    simp only [Np.insertUnique]
    split
    · simp
    · split
      · rename_i h; subst h; simp
      · simp [ih]; tauto

theorem Np.mem_unique (y : Nat) (l : List Nat) : y ∈ Np.unique l ↔ y ∈ l := by
  induction l with
  | nil => simp [Np.unique]
  | cons z l ih =>
    have : Np.unique (z :: l) = Np.insertUnique z (Np.unique l) := rfl
    rw [this, Np.mem_insertUnique, ih]; simp

/-- the number of bins that the spheroid reaches into -/
def mirrorEnd (nBin bin0 : Nat) : Nat := min (2 * bin0) nBin

theorem makeDisk_tab {bins sph : Dict Nat (List Nat)} {n bin0 : Nat} {B T : Nat → List Nat}
    (hb : IsTab bins n B) (hbn : bin0 ≤ n) (hs : IsTab sph (mirrorEnd n bin0) T)
    (hT : ∀ i, i < bin0 → T i = B i) :
    ∃ dsk, makeDisk bins bin0 n sph = .ok dsk ∧
      ∃ D, IsTab dsk n D ∧ (∀ i, i < bin0 → D i = []) ∧
        (∀ i, bin0 ≤ i → i < mirrorEnd n bin0 → ∀ p, p ∈ D i ↔ p ∈ B i ∧ p ∉ T i) ∧
        (∀ i, mirrorEnd n bin0 ≤ i → i < n → D i = B i) := by
  unfold makeDisk
  simp only
  rw [hs.1]
  generalize hlim : (if n ≥ 2 * bin0 then bin0 else n - bin0) = lim
  have hlim' : lim ≤ mirrorEnd n bin0 ∧ lim ≤ bin0 := by
    unfold mirrorEnd; rw [← hlim]; split <;> omega
  have hM : mirrorEnd n bin0 ≤ n := by unfold mirrorEnd; omega
  obtain ⟨dsk, h1, h2⟩ := diskLoop_tab hb hs hM (mirrorEnd n bin0 - lim) lim (by omega) _ _
    (hb.foldl_const bin0 hbn [])
  refine ⟨dsk, h1, _, h2, ?_, ?_, ?_⟩
  · intro i hi
    split
    · rw [hT i hi]
      have : ((B i).filter fun p => !(B i).contains p) = [] := by
        rw [List.filter_eq_nil_iff]; intro a ha; simp [ha]
      rw [this]; rfl
    · rfl
  · intro i h3 h4 p
    rw [if_pos (by omega), Np.mem_unique]
    simp
  · intro i h3 h4
    rw [if_neg (by omega), if_neg]
    have : bin0 ≤ mirrorEnd n bin0 := by unfold mirrorEnd; omega
    omega

/-- the labels, from the outcome of `_make_corot_sph` -/
theorem labelBins_of_corot (junk : Nat → Int)
    (select : List Nat → List Nat → σ → Py (List Nat × σ)) {bins : Dict Nat (List Nat)}
    {N n bin0 : Nat} {B : Nat → List Nat} (hb : IsTab bins n B) (h0 : 0 < bin0) (hbn : bin0 ≤ n)
    (hlt : ∀ i < n, ∀ p ∈ B i, p < N) (s : σ) {sph0 sph : Dict Nat (List Nat)} {s' : σ}
    {S : Nat → List Nat} (hc0 : makeCountSph bins (List.range' 0 bin0) [] = .ok sph0)
    (h1 : makeCorotSph select bin0 bins (List.range' (limAux n bin0) (bin0 - limAux n bin0)) sph0 s
      = .ok (sph, s'))
    (hi : CorotInv B S bin0 (limAux n bin0) bin0 sph)
    (hSsub : ∀ i, bin0 ≤ i → i < mirrorEnd n bin0 → ∀ p ∈ S i, p ∈ B i) :
    ∃ labels, labelBins junk select N n bin0 bins s = .ok (labels, s') ∧ labels.length = N ∧
      ((∀ i < n, ∀ j < n, ∀ p, p ∈ B i → p ∈ B j → i = j) → ∀ k < n, ∀ p ∈ B k, labels[p]? =
        some (if k < bin0 ∨ (k < mirrorEnd n bin0 ∧ p ∈ S k) then 0 else 1)) := by
  have hlimle : limAux n bin0 ≤ bin0 := by unfold limAux; split <;> omega
  have hM : 2 * bin0 - limAux n bin0 = mirrorEnd n bin0 := by
    unfold limAux mirrorEnd; split <;> omega
  have hMn : mirrorEnd n bin0 ≤ n := by unfold mirrorEnd; omega
  have hMb : bin0 ≤ mirrorEnd n bin0 := by unfold mirrorEnd; omega
  have hlb : ∀ r, makeCorotSph select bin0 bins
      (List.range' (limAux n bin0) (bin0 - limAux n bin0)) sph0 s = r →
      labelBins junk select N n bin0 bins s = (do
        let (sph, s) ← r
        let dsk ← makeDisk bins bin0 n sph
        let esf ← concatEntries sph
        let disk ← concatEntries dsk
        let labels ← Np.fillAt (npEmpty junk N) esf 0
        let labels ← Np.fillAt labels disk 1
        return (labels, s)) := by
    intro r hr
    unfold labelBins
    rw [List.range_eq_range', hc0]
    simp only [Py.ok_bind]
    rw [hr]
  have htab : IsTab sph (mirrorEnd n bin0) (fun i => if i < bin0 then B i else S i) := by
    refine ⟨by rw [hi.len]; omega, fun i => ?_⟩
    by_cases hi1 : i < bin0
    · rw [hi.low i hi1, if_pos (by omega)]; simp [hi1]
    · by_cases hi2 : i < mirrorEnd n bin0
      · rw [hi.high i (by omega) (by omega), if_pos hi2]; simp [hi1]
      · rw [hi.top i (by omega), if_neg hi2]
  obtain ⟨dsk, hd1, D, hd2, hD0, hD1, hD2⟩ := makeDisk_tab hb hbn htab
    (by intro i hi1; simp [hi1])
  have memE : ∀ p, p ∈ ((List.range (mirrorEnd n bin0)).map
      fun i => if i < bin0 then B i else S i).flatten ↔
      ∃ i < mirrorEnd n bin0, p ∈ (if i < bin0 then B i else S i) := by
    intro p; simp [List.mem_flatten]
  have memD : ∀ p, p ∈ ((List.range n).map D).flatten ↔ ∃ i < n, p ∈ D i := by
    intro p; simp [List.mem_flatten]
  have hDsub : ∀ i < n, ∀ p ∈ D i, p ∈ B i := by
    intro i hin p hp
    by_cases h2 : i < bin0
    · rw [hD0 i h2] at hp; simp at hp
    · by_cases h3 : i < mirrorEnd n bin0
      · exact ((hD1 i (by omega) h3 p).1 hp).1
      · rw [hD2 i (by omega) hin] at hp; exact hp
  obtain ⟨l1, f1, len1, get1⟩ := Np.fillAt_get (npEmpty junk N)
    (((List.range (mirrorEnd n bin0)).map fun i => if i < bin0 then B i else S i).flatten)
    (0 : Int) (by
      intro p hp
      rw [memE] at hp
      obtain ⟨i, hi1, hp⟩ := hp
      have hpB : p ∈ B i := by
        split at hp
        · exact hp
        · exact hSsub i (by omega) hi1 p hp
      have := hlt i (by omega) p hpB
      simpa [npEmpty] using this)
  obtain ⟨l2, f2, len2, get2⟩ := Np.fillAt_get l1 (((List.range n).map D).flatten) (1 : Int) (by
      intro p hp
      rw [memD] at hp
      obtain ⟨i, hi1, hp⟩ := hp
      have := hlt i hi1 p (hDsub i hi1 p hp)
      rw [len1]
      simpa [npEmpty] using this)
  refine ⟨l2, ?_, by rw [len2, len1]; simp [npEmpty], ?_⟩
  · rw [hlb _ h1]
    simp only [Py.ok_bind]
    rw [hd1]
    simp only [Py.ok_bind]
    rw [concatEntries_tab htab (by omega), concatEntries_tab hd2 (by omega)]
    simp only [Py.ok_bind]
    rw [f1]
    simp only [Py.ok_bind]
    rw [f2]
    rfl
  · intro hdis k hk p hp
    rw [get2 p, get1 p]
    have inD : p ∈ ((List.range n).map D).flatten ↔ p ∈ D k := by
      rw [memD]
      constructor
      · rintro ⟨i, hi1, hi2⟩
        have := hdis i hi1 k hk p (hDsub i hi1 p hi2) hp
        rwa [this] at hi2
      · intro h; exact ⟨k, hk, h⟩
    have inE : p ∈ ((List.range (mirrorEnd n bin0)).map
        fun i => if i < bin0 then B i else S i).flatten ↔
        k < bin0 ∨ (k < mirrorEnd n bin0 ∧ p ∈ S k) := by
      rw [memE]
      constructor
      · rintro ⟨i, hi1, hi2⟩
        have hpB : p ∈ B i := by
          split at hi2
          · exact hi2
          · exact hSsub i (by omega) hi1 p hi2
        have := hdis i (by omega) k hk p hpB hp
        subst this
        split at hi2
        · left; assumption
        · right; exact ⟨hi1, hi2⟩
      · rintro (h | ⟨h, h'⟩)
        · exact ⟨k, by omega, by rw [if_pos h]; exact hp⟩
        · refine ⟨k, h, ?_⟩
          split
          · exact hp
          · exact h'
    by_cases hE : k < bin0 ∨ (k < mirrorEnd n bin0 ∧ p ∈ S k)
    · rw [if_pos hE, if_pos (inE.2 hE), if_neg]
      rw [inD]
      intro hd
      by_cases hkb : k < bin0
      · rw [hD0 k hkb] at hd; simp at hd
      · rcases hE with h | ⟨h, h'⟩
        · exact hkb h
        · have := ((hD1 k (by omega) h p).1 hd).2
          simp only [hkb, if_false] at this
          exact this h'
    · rw [if_neg hE, if_pos]
      rw [inD]
      by_cases hkM : k < mirrorEnd n bin0
      · have hkb : ¬ k < bin0 := fun h => hE (Or.inl h)
        rw [hD1 k (by omega) hkM p]
        refine ⟨hp, ?_⟩
        simp only [hkb, if_false]
        exact fun h => hE (Or.inr ⟨hkM, h⟩)
      · rw [hD2 k (by omega) hk]; exact hp

/-- The labels: the outcome of everything after the bins, for bins `B 0 .. B (n-1)` of particle
numbers below `N`. -/
theorem labelBins_spec (junk : Nat → Int) (select : List Nat → List Nat → σ → Py (List Nat × σ))
    (P : List Nat → List Nat → List Nat → Prop) {bins : Dict Nat (List Nat)} {N n bin0 : Nat}
    {B : Nat → List Nat} (hb : IsTab bins n B) (h0 : 0 < bin0) (hbn : bin0 ≤ n)
    (hlt : ∀ i < n, ∀ p ∈ B i, p < N)
    (hP : ∀ c, c < bin0 → 2 * bin0 - 1 - c < n → ∀ s sel s',
      select (B c) (B (2 * bin0 - 1 - c)) s = .ok (sel, s') → P (B c) (B (2 * bin0 - 1 - c)) sel)
    (hsub : ∀ cnt cor sel, P cnt cor sel → ∀ p ∈ sel, p ∈ cor) (s : σ) :
    (∃ labels s', ∃ S : Nat → List Nat, labelBins junk select N n bin0 bins s = .ok (labels, s') ∧
      labels.length = N ∧
      (∀ i, bin0 ≤ i → i < mirrorEnd n bin0 → Taken P (B (2 * bin0 - 1 - i)) (B i) (S i)) ∧
      ((∀ i < n, ∀ j < n, ∀ p, p ∈ B i → p ∈ B j → i = j) → ∀ k < n, ∀ p ∈ B k, labels[p]? =
        some (if k < bin0 ∨ (k < mirrorEnd n bin0 ∧ p ∈ S k) then 0 else 1))) ∨
    (∃ c s' e, c < bin0 ∧ 2 * bin0 - 1 - c < n ∧
      (B c).length < (B (2 * bin0 - 1 - c)).length ∧
      select (B c) (B (2 * bin0 - 1 - c)) s' = .error e ∧
      labelBins junk select N n bin0 bins s = .error e) := by
  have hlimle : limAux n bin0 ≤ bin0 := by unfold limAux; split <;> omega
  have hM : 2 * bin0 - limAux n bin0 = mirrorEnd n bin0 := by
    unfold limAux mirrorEnd; split <;> omega
  have hMn : mirrorEnd n bin0 ≤ n := by unfold mirrorEnd; omega
  have hMb : bin0 ≤ mirrorEnd n bin0 := by unfold mirrorEnd; omega
  obtain ⟨sph0, hc0, ht0⟩ := makeCountSph_tab hb bin0 0 (by omega) [] (IsTab.empty B)
  rw [Nat.zero_add] at ht0
  have hinv : CorotInv B B bin0 (limAux n bin0) (limAux n bin0) sph0 := by
    refine ⟨by rw [ht0.1]; omega, ?_, ?_, ?_, ?_⟩
    · intro i hi; rw [ht0.2 i, if_pos hi]
    · intro i h1 h2; omega
    · intro i h1 h2; rw [ht0.2 i, if_neg (by omega)]
    · intro i h1; rw [ht0.2 i, if_neg (by omega)]
  rcases makeCorotSph_spec select P hb (lim := limAux n bin0) (by omega) hbn
    (fun c h1 h2 => hP c h2 (by omega)) (bin0 - limAux n bin0) (limAux n bin0) (by omega)
    (Nat.le_refl _) B sph0 s hinv (by intro i h1 h2; omega) with
    ⟨sph, s', S, h1, hi, hS⟩ | ⟨c, s1, e, h1, h2, h3, h4, h5⟩
  · left
    have hSsub : ∀ i, bin0 ≤ i → i < mirrorEnd n bin0 → ∀ p ∈ S i, p ∈ B i := by
      intro i h1 h2 p hp
      rcases hS i h1 (by omega) with ⟨_, h⟩ | ⟨_, h⟩
      · rw [h] at hp; exact hp
      · exact hsub _ _ _ h p hp
    obtain ⟨labels, e1, e2, e3⟩ := labelBins_of_corot (N := N) junk select hb h0 hbn hlt s hc0 h1 hi
      hSsub
    exact ⟨labels, s', S, e1, e2, fun i h2 h3 => hS i h2 (by omega), e3⟩
  · right
    refine ⟨c, s1, e, h2, by omega, h3, h4, ?_⟩
    unfold labelBins
    rw [List.range_eq_range', hc0]
    simp only [Py.ok_bind]
    rw [h5]
    rfl

/-- with no counter-rotating bin the Python list `[]` is asked for `astype` -/
theorem labelBins_zero (junk : Nat → Int) (select : List Nat → List Nat → σ → Py (List Nat × σ))
    {bins : Dict Nat (List Nat)} {N n : Nat} {B : Nat → List Nat} (hb : IsTab bins n B) (s : σ) :
    labelBins junk select N n 0 bins s = .error .attributeError := by
  have hs : IsTab ([] : Dict Nat (List Nat)) (mirrorEnd n 0) B := by
    have : mirrorEnd n 0 = 0 := by unfold mirrorEnd; omega
    rw [this]; exact IsTab.empty B
  obtain ⟨dsk, h1, _⟩ := makeDisk_tab hb (Nat.zero_le n) hs (by intro i hi; omega)
  unfold labelBins
  simp only [limAux, List.range_zero, makeCountSph, Py.ok_bind, Nat.mul_zero, Nat.zero_sub]
  simp only [ge_iff_le, Nat.zero_le, if_true, List.range'_zero, makeCorotSph, Py.ok_bind]
  rw [h1]
  rfl

variable {F : Type} [Num F]

theorem Np.take_range_ids (N : Nat) (idx : List Nat) (h : ∀ i ∈ idx, i < N) :
    Np.take (List.range N) idx = idx := by
  unfold Np.take
  induction idx with
  | nil => rfl
  | cons i idx ih =>
    have hi := h i (by simp)
    simp [hi]
    exact ih fun x hx => h x (by simp [hx])

/-- the particle numbers in bin `i` -/
def binIds (edges : List F) (nBin : Nat) (eps : List F) (i : Nat) : List Nat :=
  Np.whereIdx (eps.map (inBinI edges nBin i))

theorem makeBins_tab (edges : List F) (n : Nat) (hn : 0 < n) (ids : (F → Bool) → List Nat)
    (eps : List F) (hids : ∀ p, ids p = Np.whereIdx (eps.map p)) :
    IsTab (makeBins edges n ids) n (binIds edges n eps) := by
  unfold makeBins
  simp only
  obtain ⟨m, rfl⟩ : ∃ m, n = m + 1 := ⟨n - 1, by omega⟩
  simp only [Nat.add_sub_cancel]
  have h1 := (IsTab.foldl_push (fun i => ids fun e =>
    (edges.getD i Num.nan <=. e) && (e <. edges.getD (i + 1) Num.nan)) m).congr
    (g := binIds edges (m + 1) eps) (by
      intro i hi
      rw [hids]
      unfold binIds
      congr 1
      apply List.map_congr_left
      intro e _
      unfold inBinI
      rw [if_neg (by omega)])
  have h2 := h1.push
  have h3 : binIds edges (m + 1) eps m = ids fun e =>
      (edges.getD m Num.nan <=. e) && (e <=. edges.getD (m + 1) Num.nan) := by
    rw [hids]
    unfold binIds
    congr 1
    apply List.map_congr_left
    intro e _
    unfold inBinI
    rw [if_pos (by omega)]
  rwa [h3] at h2

theorem mem_binIds {edges : List F} {n : Nat} {eps : List F} {i p : Nat} :
    p ∈ binIds edges n eps i ↔ ∃ e, eps[p]? = some e ∧ inBinI edges n i e = true := by
  unfold binIds
  rw [Np.mem_whereIdx, List.getElem?_map, Option.map_eq_some_iff]

theorem binIds_lt {edges : List F} {n : Nat} {eps : List F} {i p : Nat}
    (h : p ∈ binIds edges n eps i) : p < eps.length := by
  have := Np.whereIdx_lt h
  simpa using this

theorem binIds_nodup (edges : List F) (n : Nat) (eps : List F) (i : Nat) :
    (binIds edges n eps i).Nodup := Np.whereIdx_nodup _

theorem binIds_length (edges : List F) (n : Nat) (eps : List F) (i : Nat) :
    (binIds edges n eps i).length = (eps.filter (inBinI edges n i)).length := by
  unfold binIds
  rw [Np.whereIdx_length, Np.count_map_true]

/-- edge `i` -/
abbrev edge (edges : List F) (i : Nat) : F := edges.getD i Num.nan

/-- the edges are in order -/
def EdgesSorted (edges : List F) (n : Nat) : Prop :=
  ∀ i < n, (edge edges i <=. edge edges (i + 1)) = true

variable [NumOrd F]

theorem EdgesSorted.le {edges : List F} {n : Nat} (h : EdgesSorted edges n) (hn : 0 < n) (i j : Nat)
    (hij : i ≤ j) (hj : j ≤ n) : (edge edges i <=. edge edges j) = true := by
  induction j with
  | zero =>
    have : i = 0 := by omega
    subst this
    exact le_refl' (NumOrd.not_nan_of_le (h 0 hn)).1
  | succ j ih =>
    by_cases he : i = j + 1
    · subst he
      exact le_refl' (NumOrd.not_nan_of_le (h j (by omega))).2
    · exact NumOrd.le_trans (ih (by omega) (by omega)) (h j (by omega))

theorem EdgesSorted.not_nan {edges : List F} {n : Nat} (h : EdgesSorted edges n) (hn : 0 < n)
    (i : Nat) (hi : i ≤ n) : Num.isNaN (edge edges i) = false :=
  (NumOrd.not_nan_of_le (h.le hn i i (Nat.le_refl i) hi)).1

/-- no value is in two bins -/
theorem EdgesSorted.unique {edges : List F} {n : Nat} (h : EdgesSorted edges n) (hn : 0 < n) {e : F}
    {i j : Nat} (hi : i < n) (hj : j < n) (h1 : inBinI edges n i e = true)
    (h2 : inBinI edges n j e = true) : i = j := by
  have key : ∀ a b, a < b → b < n → inBinI edges n a e = true → inBinI edges n b e = true → False := by
    intro a b hab hb ha hb2
    unfold inBinI at ha hb2
    rw [Bool.and_eq_true] at ha hb2
    rw [if_neg (by omega)] at ha
    have := lt_of_lt_of_le' ha.2 (NumOrd.le_trans (h.le hn (a + 1) b (by omega) (by omega)) hb2.1)
    rw [lt_irrefl'] at this
    cases this
  rcases Nat.lt_trichotomy i j with hlt | heq | hgt
  · exact (key i j hlt hj h1 h2).elim
  · exact heq
  · exact (key j i hgt hi h2 h1).elim

/-- every value between the first and the last edge is in a bin -/
theorem EdgesSorted.covers {edges : List F} {n : Nat} (h : EdgesSorted edges n) (hn : 0 < n) {e : F}
    (h0 : (edge edges 0 <=. e) = true) (h1 : (e <=. edge edges n) = true) :
    ∃ k, k < n ∧ inBinI edges n k e = true := by
  have key : ∀ m, m < n → (∃ k, k < m ∧ inBinI edges n k e = true) ∨ (edge edges m <=. e) = true := by
    intro m
    induction m with
    | zero => intro _; exact Or.inr h0
    | succ m ih =>
      intro hm
      rcases ih (by omega) with ⟨k, hk, hb⟩ | hle
      · exact Or.inl ⟨k, by omega, hb⟩
      · cases hc : (edge edges (m + 1) <=. e) with
        | true => exact Or.inr rfl
        | false =>
          left
          refine ⟨m, by omega, ?_⟩
          unfold inBinI
          rw [if_neg (by omega), Bool.and_eq_true]
          exact ⟨hle, lt_of_not_le (h.not_nan hn (m + 1) (by omega))
            (NumOrd.not_nan_of_le h0).2 hc⟩
  rcases key (n - 1) (by omega) with ⟨k, hk, hb⟩ | hle
  · exact ⟨k, by omega, hb⟩
  · refine ⟨n - 1, by omega, ?_⟩
    unfold inBinI
    rw [if_pos rfl, Bool.and_eq_true]
    refine ⟨hle, ?_⟩
    rw [show n - 1 + 1 = n by omega]
    exact h1

theorem EdgesSorted.binIds_disjoint {edges : List F} {n : Nat} (h : EdgesSorted edges n) (hn : 0 < n)
    (eps : List F) : ∀ i < n, ∀ j < n, ∀ p, p ∈ binIds edges n eps i → p ∈ binIds edges n eps j →
    i = j := by
  intro i hi j hj p h1 h2
  rw [mem_binIds] at h1 h2
  obtain ⟨e, he, hb⟩ := h1
  obtain ⟨e', he', hb'⟩ := h2
  rw [he] at he'
  cases he'
  exact h.unique hn hi hj hb hb'

end GChop
