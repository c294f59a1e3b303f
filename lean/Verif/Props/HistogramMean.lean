import Verif.Props.HistogramEnergy
import Mathlib.Data.List.Rotate
import Mathlib.Data.Nat.Count
import Mathlib.Data.Nat.Periodic
import Mathlib.Data.Nat.Factorial.Basic
import Mathlib.Algebra.BigOperators.Group.Finset.Basic
import Mathlib.Data.Set.Function
import Mathlib.Data.Finset.Card
import Mathlib.Algebra.Order.BigOperators.Group.Finset

/-!
# C100: how often the random selection of the histogram models takes a star

The random generator is started in each state of a finite set `Ω`.  Fairness of a single call of
`choice` decides how often each star becomes spheroid: the calls before it only permute the states.
-/

set_option linter.unusedSectionVars false

namespace GChop

variable {F : Type} [Num F] {σ : Type}

/-- For at most `n` entries, every call of `choice` permutes the states of `Ω`, and over all states
it takes each entry equally often. -/
def Rng.Fair [DecidableEq σ] (rng : Rng σ) (Ω : Finset σ) (n : Nat) : Prop :=
  ∀ (a : List Nat) (k : Nat), a.Nodup → a.length ≤ n → k ≤ a.length →
    Set.BijOn (fun s => (rng.choice s a k).2) Ω Ω ∧
    ∀ p ∈ a, (Ω.filter fun s => p ∈ (rng.choice s a k).1).card * a.length = k * Ω.card

/-- the state after the steps `cs` -/
def runState (g : Nat → σ → List Nat × σ) : List Nat → σ → σ
  | [], s => s
  | c :: cs, s => runState g cs (g c s).2

theorem runState_bijOn {g : Nat → σ → List Nat × σ} {Ω : Set σ} (cs : List Nat)
    (h : ∀ c ∈ cs, Set.BijOn (fun s => (g c s).2) Ω Ω) : Set.BijOn (runState g cs) Ω Ω := by
  induction cs with
  | nil => exact Set.bijOn_id _
  | cons c cs ih =>
    exact (ih fun d hd => h d (by simp [hd])).comp (h c (by simp))

theorem card_filter_bijOn [DecidableEq σ] {Ω : Finset σ} {f : σ → σ} (hf : Set.BijOn f Ω Ω)
    (P : σ → Prop) [DecidablePred P] :
    (Ω.filter fun s => P (f s)).card = (Ω.filter P).card := by
  refine Finset.card_nbij f ?_ ?_ ?_
  · intro s hs
    rw [Finset.mem_coe, Finset.mem_filter] at hs ⊢
    exact ⟨hf.mapsTo hs.1, hs.2⟩
  · intro s hs t ht h
    have hs' := (Finset.mem_filter.1 (Finset.mem_coe.1 hs)).1
    have ht' := (Finset.mem_filter.1 (Finset.mem_coe.1 ht)).1
    exact hf.injOn hs' ht' h
  · intro t ht
    obtain ⟨h1, h2⟩ := Finset.mem_filter.1 (Finset.mem_coe.1 ht)
    obtain ⟨s, hs, rfl⟩ := hf.surjOn h1
    exact ⟨s, Finset.mem_coe.2 (Finset.mem_filter.2 ⟨hs, h2⟩), rfl⟩

/-! ### the labels with the states written out -/

theorem makeCorotSph_run (select : List Nat → List Nat → σ → Py (List Nat × σ))
    (f : Nat → σ → List Nat × σ) {bins : Dict Nat (List Nat)} {n bin0 lim : Nat}
    {B : Nat → List Nat} (hb : IsTab bins n B) (hn : 2 * bin0 - lim ≤ n) (hbn : bin0 ≤ n)
    (hf : ∀ c, lim ≤ c → c < bin0 → ∀ s,
      (if (B c).length ≥ (B (2 * bin0 - 1 - c)).length then .ok (B (2 * bin0 - 1 - c), s)
        else select (B c) (B (2 * bin0 - 1 - c)) s) = .ok (f c s))
    (m c : Nat) (hm : c + m = bin0) (hlim : lim ≤ c) (S : Nat → List Nat)
    (sph : Dict Nat (List Nat)) (s : σ) (hs : CorotInv B S bin0 lim c sph) :
    ∃ sph' S', makeCorotSph select bin0 bins (List.range' c m) sph s
        = .ok (sph', runState f (List.range' c m) s) ∧
      CorotInv B S' bin0 lim bin0 sph' ∧
      (∀ i, 2 * bin0 - c ≤ i → i < 2 * bin0 - lim → S' i = S i) ∧
      ∀ d, c ≤ d → d < bin0 →
        S' (2 * bin0 - 1 - d) = (f d (runState f (List.range' c (d - c)) s)).1 := by
  induction m generalizing c S sph s with
  | zero =>
    have hc : c = bin0 := by omega
    subst hc
    exact ⟨sph, S, rfl, hs, fun _ _ _ => rfl, fun d h1 h2 => by omega⟩
  | succ m ih =>
    have hc : c < bin0 := by omega
    rw [List.range'_succ]
    simp only [makeCorotSph]
    rw [hb.get (show c < n by omega), hb.get (show 2 * bin0 - 1 - c < n by omega)]
    simp only [Py.ok_bind]
    have hfc := hf c hlim hc s
    have key : ∃ sph' S', makeCorotSph select bin0 bins (List.range' (c + 1) m)
          (Dict.set sph (2 * bin0 - 1 - c) (f c s).1) (f c s).2
          = .ok (sph', runState f (c :: List.range' (c + 1) m) s) ∧
        CorotInv B S' bin0 lim bin0 sph' ∧
        (∀ i, 2 * bin0 - c ≤ i → i < 2 * bin0 - lim → S' i = S i) ∧
        ∀ d, c ≤ d → d < bin0 →
          S' (2 * bin0 - 1 - d) = (f d (runState f (List.range' c (d - c)) s)).1 := by
      obtain ⟨sph', S', h1, h2, h3, h4⟩ := ih (c + 1) (by omega) (by omega) _ _ (f c s).2
        (hs.step hlim hc (f c s).1)
      refine ⟨sph', S', h1, h2, ?_, ?_⟩
      · intro i hi1 hi2
        rw [h3 i (by omega) hi2, if_neg (by omega)]
      · intro d hd1 hd2
        by_cases hd : d = c
        · subst hd
          rw [h3 _ (by omega) (by omega), if_pos rfl, Nat.sub_self]
          rfl
        · rw [h4 d (by omega) hd2, show d - c = (d - (c + 1)) + 1 by omega, List.range'_succ]
          rfl
    by_cases hlen : (B c).length ≥ (B (2 * bin0 - 1 - c)).length
    · rw [if_pos hlen] at hfc ⊢
      have := Except.ok.inj hfc
      rw [← this] at key
      exact key
    · rw [if_neg hlen] at hfc ⊢
      rw [hfc]
      exact key

theorem labelBins_run (junk : Nat → Int) (select : List Nat → List Nat → σ → Py (List Nat × σ))
    (f : Nat → σ → List Nat × σ) {bins : Dict Nat (List Nat)} {N n bin0 : Nat}
    {B : Nat → List Nat} (hb : IsTab bins n B) (h0 : 0 < bin0) (hbn : bin0 ≤ n)
    (hlt : ∀ i < n, ∀ p ∈ B i, p < N)
    (hf : ∀ c, c < bin0 → 2 * bin0 - 1 - c < n → ∀ s,
      (if (B c).length ≥ (B (2 * bin0 - 1 - c)).length then .ok (B (2 * bin0 - 1 - c), s)
        else select (B c) (B (2 * bin0 - 1 - c)) s) = .ok (f c s))
    (hsub : ∀ c, c < bin0 → 2 * bin0 - 1 - c < n → ∀ s, ∀ p ∈ (f c s).1,
      p ∈ B (2 * bin0 - 1 - c)) (s : σ) :
    ∃ labels s', labelBins junk select N n bin0 bins s = .ok (labels, s') ∧ labels.length = N ∧
      ((∀ i < n, ∀ j < n, ∀ p, p ∈ B i → p ∈ B j → i = j) → ∀ k < n, ∀ p ∈ B k, labels[p]? =
        some (if k < bin0 ∨ (k < mirrorEnd n bin0 ∧ p ∈ (f (2 * bin0 - 1 - k)
          (runState f (List.range' (limAux n bin0) (2 * bin0 - 1 - k - limAux n bin0)) s)).1)
          then 0 else 1)) := by
  have hlimle : limAux n bin0 ≤ bin0 := by unfold limAux; split <;> omega
  have hM : 2 * bin0 - limAux n bin0 = mirrorEnd n bin0 := by
    unfold limAux mirrorEnd; split <;> omega
  have hMn : mirrorEnd n bin0 ≤ n := by unfold mirrorEnd; omega
  obtain ⟨sph0, hc0, ht0⟩ := makeCountSph_tab hb bin0 0 (by omega) [] (IsTab.empty B)
  rw [Nat.zero_add] at ht0
  have hinv : CorotInv B B bin0 (limAux n bin0) (limAux n bin0) sph0 := by
    refine ⟨by rw [ht0.1]; omega, ?_, ?_, ?_, ?_⟩
    · intro i hi; rw [ht0.2 i, if_pos hi]
    · intro i h1 h2; omega
    · intro i h1 h2; rw [ht0.2 i, if_neg (by omega)]
    · intro i h1; rw [ht0.2 i, if_neg (by omega)]
  obtain ⟨sph, S, h1, h2, -, h4⟩ := makeCorotSph_run select f hb (lim := limAux n bin0) (by omega)
    hbn (fun c h1 h2 => hf c h2 (by omega)) (bin0 - limAux n bin0) (limAux n bin0) (by omega)
    (Nat.le_refl _) B sph0 s hinv
  have hS : ∀ i, bin0 ≤ i → i < mirrorEnd n bin0 → S i = (f (2 * bin0 - 1 - i)
      (runState f (List.range' (limAux n bin0) (2 * bin0 - 1 - i - limAux n bin0)) s)).1 := by
    intro i hi1 hi2
    have := h4 (2 * bin0 - 1 - i) (by omega) (by omega)
    rwa [show 2 * bin0 - 1 - (2 * bin0 - 1 - i) = i by omega] at this
  obtain ⟨labels, e1, e2, e3⟩ := labelBins_of_corot (N := N) junk select hb h0 hbn hlt s hc0 h1 h2
    (by
      intro i hi1 hi2 p hp
      rw [hS i hi1 hi2] at hp
      have := hsub _ (by omega) (by omega) _ p hp
      rwa [show 2 * bin0 - 1 - (2 * bin0 - 1 - i) = i by omega] at this)
  refine ⟨labels, _, e1, e2, fun hd k hk p hp => ?_⟩
  rw [e3 hd k hk p hp]
  by_cases hkb : k < bin0
  · simp [hkb]
  · by_cases hkM : k < mirrorEnd n bin0
    · rw [hS k (by omega) hkM]
    · simp [hkM]

/-- The number of states for which star `p` of bin `k` becomes spheroid. -/
theorem labelBins_count [DecidableEq σ] (junk : Nat → Int)
    (select : List Nat → List Nat → σ → Py (List Nat × σ))
    (f : Nat → σ → List Nat × σ) {bins : Dict Nat (List Nat)} {N n bin0 : Nat}
    {B : Nat → List Nat} (hb : IsTab bins n B) (h0 : 0 < bin0) (hbn : bin0 ≤ n)
    (hlt : ∀ i < n, ∀ p ∈ B i, p < N)
    (hf : ∀ c, c < bin0 → 2 * bin0 - 1 - c < n → ∀ s,
      (if (B c).length ≥ (B (2 * bin0 - 1 - c)).length then .ok (B (2 * bin0 - 1 - c), s)
        else select (B c) (B (2 * bin0 - 1 - c)) s) = .ok (f c s))
    (hsub : ∀ c, c < bin0 → 2 * bin0 - 1 - c < n → ∀ s, ∀ p ∈ (f c s).1,
      p ∈ B (2 * bin0 - 1 - c))
    (hdis : ∀ i < n, ∀ j < n, ∀ p, p ∈ B i → p ∈ B j → i = j) (Ω : Finset σ)
    (hbij : ∀ c, c < bin0 → 2 * bin0 - 1 - c < n → Set.BijOn (fun s => (f c s).2) Ω Ω) :
    ∃ lab : σ → List Int,
      (∀ s, ∃ s', labelBins junk select N n bin0 bins s = .ok (lab s, s')) ∧
      (∀ s, (lab s).length = N) ∧
      (∀ k < n, ∀ p ∈ B k, ∀ s, ((lab s)[p]? = some 0 ∨ (lab s)[p]? = some 1) ∧
        (k < bin0 → (lab s)[p]? = some 0) ∧
        (bin0 ≤ k → mirrorEnd n bin0 ≤ k → (lab s)[p]? = some 1)) ∧
      ∀ k < n, ∀ p ∈ B k, (Ω.filter fun s => (lab s)[p]? = some 0).card
        = if k < bin0 then Ω.card else if k < mirrorEnd n bin0 then
            (Ω.filter fun s => p ∈ (f (2 * bin0 - 1 - k) s).1).card else 0 := by
  choose lab s' h1 h2 h3 using labelBins_run junk select f hb h0 hbn hlt hf hsub
  refine ⟨lab, fun s => ⟨_, h1 s⟩, h2, ?_, ?_⟩
  · intro k hk p hp s
    rw [h3 s hdis k hk p hp]
    refine ⟨?_, fun h => by simp [h], fun h h' => by
      rw [if_neg (by rintro (h'' | ⟨h'', -⟩) <;> omega)]⟩
    split
    · exact Or.inl rfl
    · exact Or.inr rfl
  · intro k hk p hp
    have hMn : mirrorEnd n bin0 ≤ n := by unfold mirrorEnd; omega
    have e : ∀ s, (lab s)[p]? = some 0 ↔ (k < bin0 ∨ (k < mirrorEnd n bin0 ∧
        p ∈ (f (2 * bin0 - 1 - k) (runState f
          (List.range' (limAux n bin0) (2 * bin0 - 1 - k - limAux n bin0)) s)).1)) := by
      intro s
      rw [h3 s hdis k hk p hp]
      split <;> simp_all
    simp only [e]
    by_cases hkb : k < bin0
    · simp [hkb]
    · by_cases hkM : k < mirrorEnd n bin0
      · simp only [hkb, hkM, false_or, true_and, if_false, if_true]
        refine card_filter_bijOn (f := runState f
          (List.range' (limAux n bin0) (2 * bin0 - 1 - k - limAux n bin0)))
          (runState_bijOn _ ?_) (fun s => p ∈ (f (2 * bin0 - 1 - k) s).1)
        intro c hc
        rw [List.mem_range'_1] at hc
        have hlim : 2 * bin0 - limAux n bin0 = mirrorEnd n bin0 := by
          unfold limAux mirrorEnd; split <;> omega
        exact hbij c (by omega) (by omega)
      · simp [hkb, hkM]

/-! ### JHistogram -/

variable [NumOrd F]

/-- the number of stars in bin `k` -/
abbrev binSize (edges : List F) (n : Nat) (eps : List F) (k : Nat) : Nat :=
  (eps.filter (inBinI edges n k)).length

/-- C100: over all states of a fair generator, a star of a bin below zero is always spheroid, a star
of a mirrored bin in the fraction `min(counter, co) / co` of the states, and a star beyond never. -/
theorem C100_jhistogram [DecidableEq σ] (junk : Nat → Int) (rng : Rng σ) (hr : rng.OK)
    {nBin digits : Int} {edges : List F} {bin0 : Nat}
    (hh : makeHistogram nBin digits = .ok (edges, bin0)) (h0 : 0 < bin0)
    (hs : EdgesSorted edges nBin.toNat) (eps : List F) (Ω : Finset σ)
    (hΩ : rng.Fair Ω eps.length) :
    ∃ lab : σ → List Int,
      (∀ s, ∃ s', jHistogramSplit junk rng nBin digits (eps.map fun e => [e]) s
        = .ok (lab s, s')) ∧
      ∀ k < nBin.toNat, ∀ (p : Nat) (e : F), eps[p]? = some e →
        inBinI edges nBin.toNat k e = true →
        (k < bin0 → ∀ s, (lab s)[p]? = some 0) ∧
        (bin0 ≤ k → k < 2 * bin0 →
          (Ω.filter fun s => (lab s)[p]? = some 0).card * binSize edges nBin.toNat eps k
            = min (binSize edges nBin.toNat eps (2 * bin0 - 1 - k))
                (binSize edges nBin.toNat eps k) * Ω.card) ∧
        (2 * bin0 ≤ k → ∀ s, (lab s)[p]? = some 1) := by
  obtain ⟨hn, hlen, -, hb, -, -⟩ := makeHistogram_inv hh
  have htab := makeBins_tab edges nBin.toNat (by omega)
    (fun p => Np.take (List.range (eps.map fun e => [e]).length)
      (Np.where2 ((eps.map fun e => [e]).map fun r => r.map p))) eps (jIds eps)
  have hlenB : ∀ k, (binIds edges nBin.toNat eps k).length ≤ eps.length := by
    intro k; rw [binIds_length]; exact List.length_filter_le _ _
  have hfair : ∀ c, (binIds edges nBin.toNat eps c).length
      < (binIds edges nBin.toNat eps (2 * bin0 - 1 - c)).length → _ := fun c hc =>
    hΩ (binIds edges nBin.toNat eps (2 * bin0 - 1 - c)) (binIds edges nBin.toNat eps c).length
      (binIds_nodup _ _ _ _) (hlenB _) hc.le
  obtain ⟨lab, h1, -, h3, h4⟩ := labelBins_count (N := (eps.map fun e => [e]).length) junk
    (fun cnt cor s => rng.draw s cor cnt.length)
    (fun c s => if (binIds edges nBin.toNat eps c).length
        ≥ (binIds edges nBin.toNat eps (2 * bin0 - 1 - c)).length
      then (binIds edges nBin.toNat eps (2 * bin0 - 1 - c), s)
      else rng.choice s (binIds edges nBin.toNat eps (2 * bin0 - 1 - c))
        (binIds edges nBin.toNat eps c).length)
    htab h0 hb (by intro i _ p hp; simpa using binIds_lt hp)
    (by
      intro c _ _ s
      by_cases hc : (binIds edges nBin.toNat eps c).length
        ≥ (binIds edges nBin.toNat eps (2 * bin0 - 1 - c)).length
      · rw [if_pos hc, if_pos hc]
      · rw [if_neg hc, if_neg hc, Rng.draw, if_pos (by omega)])
    (by
      intro c _ _ s p hp
      by_cases hc : (binIds edges nBin.toNat eps c).length
        ≥ (binIds edges nBin.toNat eps (2 * bin0 - 1 - c)).length
      · rw [if_pos hc] at hp; exact hp
      · rw [if_neg hc] at hp
        exact (hr s _ _ (by omega)).2.subset hp)
    (hs.binIds_disjoint (by omega) eps) Ω
    (by
      intro c _ _
      by_cases hc : (binIds edges nBin.toNat eps c).length
        ≥ (binIds edges nBin.toNat eps (2 * bin0 - 1 - c)).length
      · simp only [if_pos hc]; exact Set.bijOn_id _
      · simp only [if_neg hc]; exact (hfair c (by omega)).1)
  refine ⟨lab, ?_, ?_⟩
  · intro s
    obtain ⟨s', h⟩ := h1 s
    refine ⟨s', ?_⟩
    unfold jHistogramSplit
    rw [hh]
    exact h
  · intro k hk p e hp hbin
    have hm : p ∈ binIds edges nBin.toNat eps k := mem_binIds.2 ⟨e, hp, hbin⟩
    refine ⟨fun hkb s => (h3 k hk p hm s).2.1 hkb, fun hk1 hk2 => ?_, fun hk2 s =>
      (h3 k hk p hm s).2.2 (by omega) (by unfold mirrorEnd; omega)⟩
    rw [h4 k hk p hm, if_neg (by omega), if_pos (by unfold mirrorEnd; omega)]
    have hkk : 2 * bin0 - 1 - (2 * bin0 - 1 - k) = k := by omega
    have hf := hfair (2 * bin0 - 1 - k)
    simp only [hkk] at hf ⊢
    rw [binSize, binSize, ← binIds_length, ← binIds_length]
    by_cases hc : (binIds edges nBin.toNat eps (2 * bin0 - 1 - k)).length
        ≥ (binIds edges nBin.toNat eps k).length
    · simp only [if_pos hc, hm, Finset.filter_true]
      rw [min_eq_right hc, mul_comm]
    · simp only [if_neg hc]
      rw [(hf (by omega)).2 p hm, min_eq_left (by omega)]

/-! ### mean masses -/

theorem sum_filter_map {α K : Type} [AddCommMonoid K] (L : List α) (P : α → Bool) (f : α → K) :
    ((L.filter P).map f).sum = ∑ i : Fin L.length, if P L[i] then f L[i] else 0 := by
  have h : ((L.filter P).map f).sum = (L.map fun a => if P a then f a else 0).sum := by
    induction L with
    | nil => rfl
    | cons a L ih =>
      rw [List.filter_cons, List.map_cons, List.sum_cons, ← ih]
      split <;> simp
  rw [h, ← Fin.sum_univ_getElem, ← (finCongr (List.length_map (as := L) _).symm).sum_comp]
  simp

/-- the mass of the stars whose circularity has the property `P` -/
def massWhere {K : Type} [AddCommMonoid K] (stars : List (F × K)) (P : F → Bool) : K :=
  ((stars.filter fun a => P a.1).map Prod.snd).sum

/-- the mass of the stars with label `l` -/
def massLabelled {K : Type} [AddCommMonoid K] (stars : List (F × K)) (labels : List Int) (l : Int) :
    K := (((stars.zip labels).filter fun a => a.2 == l).map fun a => a.1.2).sum

theorem massLabelled_eq {K : Type} [AddCommMonoid K] (stars : List (F × K)) (labels : List Int)
    (l : Int) (h : labels.length = stars.length) :
    massLabelled stars labels l
      = ∑ i : Fin stars.length, if labels[(i : Nat)]? = some l then stars[i].2 else 0 := by
  unfold massLabelled
  rw [sum_filter_map, ← (finCongr (show stars.length = (stars.zip labels).length by
    simp [h])).sum_comp]
  refine Finset.sum_congr rfl fun i _ => ?_
  have hi : (i : Nat) < labels.length := by rw [h]; exact i.2
  simp [List.getElem?_eq_getElem hi]

/-- C100: the mass of the spheroid, averaged over all states of a fair generator: all mass below
zero, the fraction `min(counter, co) / co` of the mass of each mirrored bin, nothing beyond. -/
theorem C100_spheroid_mass {K : Type} [Field K] [CharZero K] [DecidableEq σ] (junk : Nat → Int)
    (rng : Rng σ) (hr : rng.OK) {nBin digits : Int} {edges : List F} {bin0 : Nat}
    (hh : makeHistogram nBin digits = .ok (edges, bin0))
    (hs : EdgesSorted edges nBin.toNat) (hc : EdgesCover edges nBin.toNat)
    (stars : List (F × K)) (he : ∀ a ∈ stars, InUnit a.1) (Ω : Finset σ)
    (hΩ : rng.Fair Ω stars.length) :
    let size := fun k => (stars.filter fun a => inBinI edges nBin.toNat k a.1).length
    ∃ lab : σ → List Int,
      (∀ s, ∃ s', jHistogramSplit junk rng nBin digits (stars.map fun a => [a.1]) s
        = .ok (lab s, s')) ∧
      ∑ s ∈ Ω, massLabelled stars (lab s) 0 = Ω.card * ∑ k ∈ Finset.range nBin.toNat,
        (if k < bin0 then 1 else if k < 2 * bin0 then
          ((min (size (2 * bin0 - 1 - k)) (size k) : Nat) : K) / (size k : K) else 0)
        * massWhere stars (inBinI edges nBin.toNat k) := by
  intro size
  obtain ⟨hn, -⟩ := makeHistogram_inv hh
  have hpos : 0 < nBin.toNat := by omega
  have h0 := bin0_pos hh hc
  have hsize : ∀ k, binSize edges nBin.toNat (stars.map Prod.fst) k = size k := by
    intro k
    rw [binSize, List.filter_map, List.length_map]
    rfl
  obtain ⟨lab, h1, h2⟩ := C100_jhistogram junk rng hr hh h0 hs (stars.map Prod.fst) Ω
    (by simpa using hΩ)
  have hX : ((stars.map Prod.fst).map fun e => [e]) = stars.map fun a => [a.1] := by simp
  rw [hX] at h1
  refine ⟨lab, h1, ?_⟩
  have hlen : ∀ s, (lab s).length = stars.length := by
    intro s
    obtain ⟨s', h⟩ := h1 s
    obtain ⟨labels, s'', h3, h4, -⟩ := C37_labels junk rng hr hh hs hc (stars.map Prod.fst)
      (by intro e h; obtain ⟨a, ha, rfl⟩ := List.mem_map.1 h; exact he a ha) s
    rw [hX, h] at h3
    have := Prod.mk.inj (Except.ok.inj h3)
    rw [this.1, h4]; simp
  -- the bin of every star
  have hbin : ∀ i : Fin stars.length, ∃ k, k < nBin.toNat ∧
      inBinI edges nBin.toNat k stars[i].1 = true := by
    intro i
    have hu := he stars[i] (List.getElem_mem _)
    exact hs.covers hpos (NumOrd.le_trans hc.1 hu.1) (NumOrd.le_trans hu.2 hc.2)
  choose bin hb1 hb2 using hbin
  set share : Nat → K := fun k => if k < bin0 then 1 else if k < 2 * bin0 then
    ((min (size (2 * bin0 - 1 - k)) (size k) : Nat) : K) / (size k : K) else 0 with hshare
  have hcount : ∀ i : Fin stars.length,
      ((Ω.filter fun s => (lab s)[(i : Nat)]? = some 0).card : K) = Ω.card * share (bin i) := by
    intro i
    obtain ⟨e1, e2, e3⟩ := h2 (bin i) (hb1 i) i stars[i].1 (by simp) (hb2 i)
    rw [hshare]
    by_cases hk : bin i < bin0
    · simp only [hk, if_true, mul_one]
      rw [Finset.filter_true_of_mem fun s _ => e1 hk s]
    · by_cases hk2 : bin i < 2 * bin0
      · simp only [hk, hk2, if_true, if_false]
        have := e2 (by omega) hk2
        rw [hsize, hsize] at this
        have hne : ((size (bin i) : Nat) : K) ≠ 0 := by
          have : 0 < size (bin i) := List.length_pos_iff_exists_mem.2
            ⟨stars[i], List.mem_filter.2 ⟨List.getElem_mem _, hb2 i⟩⟩
          exact_mod_cast this.ne'
        rw [mul_div_assoc', eq_div_iff hne, mul_comm (Ω.card : K)]
        exact_mod_cast this
      · simp only [hk, hk2, if_false, mul_zero]
        rw [Finset.filter_false_of_mem]
        · simp
        · intro s _ h
          rw [e3 (by omega) s] at h
          simp at h
  simp only [massLabelled_eq stars _ 0 (hlen _)]
  rw [Finset.sum_comm]
  have hL : ∀ i : Fin stars.length, (∑ s ∈ Ω, if (lab s)[(i : Nat)]? = some 0 then stars[i].2 else 0)
      = Ω.card * (share (bin i) * stars[i].2) := by
    intro i
    rw [← Finset.sum_filter, Finset.sum_const, nsmul_eq_mul, hcount i, mul_assoc]
  rw [Finset.sum_congr rfl fun i _ => hL i, ← Finset.mul_sum]
  congr 1
  simp only [massWhere, sum_filter_map, Finset.mul_sum]
  rw [Finset.sum_comm]
  refine Finset.sum_congr rfl fun i _ => ?_
  rw [Finset.sum_eq_single (bin i)]
  · rw [if_pos (hb2 i)]
  · intro k hk hne
    have hno : ¬ inBinI edges nBin.toNat k stars[i].1 = true := fun h =>
      hne (hs.unique hpos (Finset.mem_range.1 hk) (hb1 i) h (hb2 i))
    rw [if_neg hno, mul_zero]
  · intro h
    exact absurd (Finset.mem_range.2 (hb1 i)) h

/-! ### JEHistogram -/

/-- what the steps `cs` return, one after the other -/
def collect (g : Nat → σ → List Nat × σ) : List Nat → σ → List Nat
  | [], _ => []
  | c :: cs, s => (g c s).1 ++ collect g cs (g c s).2

theorem mem_collect {g : Nat → σ → List Nat × σ} {p j : Nat} (a b : List Nat) (s : σ)
    (ha : j ∉ a) (hb : j ∉ b) (h : ∀ i ∈ a ++ j :: b, ∀ s, p ∈ (g i s).1 → i = j) :
    p ∈ collect g (a ++ j :: b) s ↔ p ∈ (g j (runState g a s)).1 := by
  induction a generalizing s with
  | nil =>
    simp only [List.nil_append, collect, List.mem_append, runState]
    refine or_iff_left ?_
    have : ∀ (l : List Nat) (s : σ), j ∉ l → (∀ i ∈ l, ∀ s, p ∈ (g i s).1 → i = j) →
        p ∉ collect g l s := by
      intro l
      induction l with
      | nil => intro s _ _ h; simp [collect] at h
      | cons i l ih =>
        intro s hj hl hp
        simp only [collect, List.mem_append] at hp
        rcases hp with hp | hp
        · exact hj (by rw [hl i (by simp) s hp]; simp)
        · exact ih _ (fun h => hj (by simp [h])) (fun i hi => hl i (by simp [hi])) hp
    exact this b _ hb fun i hi => h i (by simp [hi])
  | cons i a ih =>
    simp only [List.cons_append, collect, List.mem_append, runState]
    rw [ih (g i s).2 (fun h' => ha (by simp [h'])) fun i' hi' => h i' (by simp_all)]
    refine or_iff_right fun hp => ha ?_
    rw [h i (by simp) s hp]; simp

/-- one pass of the loop over the energy bins -/
def energyStep (rng : Rng σ) (edges : List F) (nE : Nat) (energy : Nat → F) (cnt cor : List Nat)
    (j : Nat) (s : σ) : List Nat × σ :=
  let masked := cor.filter fun i => halfOpen edges j (energy i)
  let c := (cnt.filter fun i => inBinI edges nE j (energy i)).length
  if c = 0 then ([], s)
  else if c ≥ (cor.filter fun i => inBinI edges nE j (energy i)).length then (masked, s)
  else rng.choice s masked c

theorem energyLoop_run (rng : Rng σ) (edges : List F) (nE : Nat) (energy : Nat → F)
    (cnt cor : List Nat) (m j : Nat) (hjm : j + m = nE) (aux0 : List Nat) (s : σ)
    (hno : ∀ i < nE, ¬ TooFew edges nE energy cnt cor i) :
    energyLoop rng edges energy (energyHist edges nE (cnt.map energy))
        (energyHist edges nE (cor.map energy)) cor (List.range' j m) aux0 s
      = .ok (aux0 ++ collect (energyStep rng edges nE energy cnt cor) (List.range' j m) s,
          runState (energyStep rng edges nE energy cnt cor) (List.range' j m) s) := by
  induction m generalizing j aux0 s with
  | zero => simp [energyLoop, collect, runState]
  | succ m ih =>
    rw [List.range'_succ]
    simp only [energyLoop, collect, runState]
    rw [energyHist_get _ _ _ _ _ (show j < nE by omega), energyHist_get _ _ _ _ _ (show j < nE by omega)]
    have hstep : energyStep rng edges nE energy cnt cor j s = energyStep rng edges nE energy cnt cor j s :=
      rfl
    conv_rhs at hstep => unfold energyStep
    simp only at hstep
    by_cases h1 : (cnt.filter fun i => inBinI edges nE j (energy i)).length = 0
    · rw [if_neg (not_not.2 h1)]
      rw [if_pos h1] at hstep
      rw [ih (j + 1) (by omega), hstep]
      simp
    · rw [if_pos h1]
      rw [if_neg h1] at hstep
      by_cases h2 : (cnt.filter fun i => inBinI edges nE j (energy i)).length
          ≥ (cor.filter fun i => inBinI edges nE j (energy i)).length
      · rw [if_pos h2]
        rw [if_pos h2] at hstep
        rw [ih (j + 1) (by omega), hstep]
        simp [halfOpen, edge]
      · rw [if_neg h2]
        rw [if_neg h2] at hstep
        have h3 : (cnt.filter fun i => inBinI edges nE j (energy i)).length
            ≤ (cor.filter fun i => halfOpen edges j (energy i)).length := by
          by_contra hc
          exact hno j (by omega) ⟨by omega, by omega⟩
        have h4 : rng.draw s (cor.filter fun i => (edges.getD j Num.nan <=. energy i) &&
            (energy i <. edges.getD (j + 1) Num.nan))
            (cnt.filter fun i => inBinI edges nE j (energy i)).length
            = .ok (energyStep rng edges nE energy cnt cor j s) := by
          rw [hstep, Rng.draw]
          exact if_pos h3
        rw [h4]
        simp only [Py.ok_bind]
        rw [ih (j + 1) (by omega)]
        simp

theorem halfOpen_unique {edges : List F} {n : Nat} (hs : EdgesSorted edges n) (hn : 0 < n) {e : F}
    {i j : Nat} (hi : i < n) (hj : j < n) (h1 : halfOpen edges i e = true)
    (h2 : halfOpen edges j e = true) : i = j :=
  hs.unique hn hi hj (inBin_of_halfOpen h1) (inBin_of_halfOpen h2)

theorem energyStep_sub (rng : Rng σ) (hr : rng.OK) {edges : List F} {nE : Nat} {energy : Nat → F}
    {cnt cor : List Nat} {j : Nat} (hno : ¬ TooFew edges nE energy cnt cor j) (s : σ) {p : Nat}
    (hp : p ∈ (energyStep rng edges nE energy cnt cor j s).1) :
    p ∈ cor ∧ halfOpen edges j (energy p) = true := by
  have key : p ∈ cor.filter fun i => halfOpen edges j (energy i) := by
    unfold energyStep at hp
    simp only at hp
    split at hp
    · simp at hp
    · split at hp
      · exact hp
      · rename_i h1 h2
        refine (hr s _ _ ?_).2.subset hp
        by_contra hc
        exact hno ⟨by omega, by omega⟩
  exact List.mem_filter.1 key

theorem energyStep_fair [DecidableEq σ] (rng : Rng σ) {edges : List F} {nE : Nat}
    {energy : Nat → F} {cnt cor : List Nat} {j : Nat} (hcor : cor.Nodup) {n : Nat}
    (hn : cor.length ≤ n) {Ω : Finset σ} (hΩ : rng.Fair Ω n)
    (hno : ¬ TooFew edges nE energy cnt cor j) :
    Set.BijOn (fun s => (energyStep rng edges nE energy cnt cor j s).2) Ω Ω ∧
    ∀ p ∈ cor, halfOpen edges j (energy p) = true →
      (Ω.filter fun s => p ∈ (energyStep rng edges nE energy cnt cor j s).1).card
        * (cor.filter fun i => halfOpen edges j (energy i)).length
        = min (cnt.filter fun i => inBinI edges nE j (energy i)).length
          (cor.filter fun i => halfOpen edges j (energy i)).length * Ω.card := by
  have hle : (cor.filter fun i => halfOpen edges j (energy i)).length
      ≤ (cor.filter fun i => inBinI edges nE j (energy i)).length := by
    apply List.Sublist.length_le
    apply List.monotone_filter_right
    intro i hi
    exact inBin_of_halfOpen hi
  by_cases h1 : (cnt.filter fun i => inBinI edges nE j (energy i)).length = 0
  · have : ∀ s, energyStep rng edges nE energy cnt cor j s = ([], s) := by
      intro s; unfold energyStep; simp only [if_pos h1]
    simp only [this, h1]
    exact ⟨Set.bijOn_id _, by simp⟩
  · by_cases h2 : (cnt.filter fun i => inBinI edges nE j (energy i)).length
        ≥ (cor.filter fun i => inBinI edges nE j (energy i)).length
    · have : ∀ s, energyStep rng edges nE energy cnt cor j s
          = (cor.filter fun i => halfOpen edges j (energy i), s) := by
        intro s; unfold energyStep; simp only [if_neg h1, if_pos h2]
      simp only [this]
      refine ⟨Set.bijOn_id _, fun p hp hE => ?_⟩
      have hm : p ∈ cor.filter fun i => halfOpen edges j (energy i) := List.mem_filter.2 ⟨hp, hE⟩
      simp only [hm, Finset.filter_true]
      rw [min_eq_right (by omega), mul_comm]
    · have : ∀ s, energyStep rng edges nE energy cnt cor j s
          = rng.choice s (cor.filter fun i => halfOpen edges j (energy i))
            (cnt.filter fun i => inBinI edges nE j (energy i)).length := by
        intro s; unfold energyStep; simp only [if_neg h1, if_neg h2]
      simp only [this]
      have hk : (cnt.filter fun i => inBinI edges nE j (energy i)).length
          ≤ (cor.filter fun i => halfOpen edges j (energy i)).length := by
        by_contra hc
        exact hno ⟨by omega, by omega⟩
      obtain ⟨e1, e2⟩ := hΩ _ _ (hcor.filter _) ((List.length_filter_le _ _).trans hn) hk
      refine ⟨e1, fun p hp hE => ?_⟩
      rw [e2 p (List.mem_filter.2 ⟨hp, hE⟩), min_eq_left hk]

/-- C100 for JEHistogram, whenever it returns at all: in a mirrored bin with more co-rotating than
counter-rotating stars, a star of energy bin `j` is spheroid in the fraction `min(counter, co) / co`
of the states, counted in that energy bin; a star in no energy bin never is. -/
theorem C100_jehistogram [DecidableEq σ] (junk : Nat → Int) (rng : Rng σ) (hr : rng.OK)
    {nBin digits : Int} (nBinE : Int)
    (hE : EdgesSorted (energyEdges nBinE.toNat : List F) nBinE.toNat)
    {edges : List F} {bin0 : Nat} (hh : makeHistogram nBin digits = .ok (edges, bin0))
    (h0 : 0 < bin0) (hs : EdgesSorted edges nBin.toNat) (rows : List (F × F)) (s₀ : σ)
    (hok : (jeHistogramSplit junk rng nBin digits nBinE (rows.map fun r => [r.1, r.2]) s₀).isOk)
    (Ω : Finset σ) (hΩ : rng.Fair Ω rows.length) :
    ∃ lab : σ → List Int,
      (∀ s, ∃ s', jeHistogramSplit junk rng nBin digits nBinE (rows.map fun r => [r.1, r.2]) s
        = .ok (lab s, s')) ∧
      ∀ k < nBin.toNat, ∀ (p : Nat) (r : F × F), rows[p]? = some r →
        inBinI edges nBin.toNat k r.2 = true →
        (k < bin0 → ∀ s, (lab s)[p]? = some 0) ∧
        (bin0 ≤ k → k < 2 * bin0 →
          let cnt := rowsIn edges nBin.toNat (2 * bin0 - 1 - k) rows
          let cor := rowsIn edges nBin.toNat k rows
          let often := (Ω.filter fun s => (lab s)[p]? = some 0).card
          (cor.length ≤ cnt.length → often = Ω.card) ∧
          (cnt.length < cor.length →
            (∀ j < nBinE.toNat, halfOpen (energyEdges nBinE.toNat) j r.1 = true →
              often * (cor.filter fun a => halfOpen (energyEdges nBinE.toNat) j a.1).length
              = min (cnt.filter fun a => inBinI (energyEdges nBinE.toNat) nBinE.toNat j a.1).length
                  (cor.filter fun a => halfOpen (energyEdges nBinE.toNat) j a.1).length * Ω.card) ∧
            ((∀ j < nBinE.toNat, halfOpen (energyEdges nBinE.toNat) j r.1 = false) →
              often = 0))) ∧
        (2 * bin0 ≤ k → ∀ s, (lab s)[p]? = some 1) := by
  obtain ⟨hn, hlen, -, hb, -, -⟩ := makeHistogram_inv hh
  have e1 : ((rows.map fun r => [r.1, r.2]).map fun r => r.getD 0 Num.nan) = rows.map Prod.fst := by
    rw [List.map_map]; rfl
  have e2 : ((rows.map fun r => [r.1, r.2]).map fun r => r.getD 1 Num.nan) = rows.map Prod.snd := by
    rw [List.map_map]; rfl
  have hids : ∀ p : F → Bool, Np.take (List.range (rows.map Prod.snd).length)
      (Np.whereIdx ((rows.map Prod.snd).map p)) = Np.whereIdx ((rows.map Prod.snd).map p) := by
    intro p
    apply Np.take_range_ids
    intro i hi
    have := Np.whereIdx_lt hi
    simpa using this
  have htab := makeBins_tab edges nBin.toNat (by omega)
    (fun p => Np.take (List.range (rows.map Prod.snd).length)
      (Np.whereIdx ((rows.map Prod.snd).map p))) (rows.map Prod.snd) hids
  have hlenrows : ∀ i, (binIds edges nBin.toNat (rows.map Prod.snd) i).length
      = (rowsIn edges nBin.toNat i rows).length := by
    intro i
    rw [binIds_length, List.filter_map, List.length_map]
    rfl
  have hf : ∀ (i : Nat) (Q : F → Bool), ((binIds edges nBin.toNat (rows.map Prod.snd) i).filter
      fun p => Q ((rows.map Prod.fst).getD p Num.nan)).length
      = ((rowsIn edges nBin.toNat i rows).filter fun r => Q r.1).length := by
    intro i Q
    unfold binIds rowsIn
    rw [filter_ids, List.filter_filter]
    simp only [Bool.and_comm]
  have hle : ∀ k, (binIds edges nBin.toNat (rows.map Prod.snd) k).length ≤ rows.length := by
    intro k; rw [hlenrows]; exact List.length_filter_le _ _
  generalize hB : binIds edges nBin.toNat (rows.map Prod.snd) = B at *
  generalize hen : (fun p => (rows.map Prod.fst).getD p (Num.nan : F)) = energy at *
  generalize hnE : nBinE.toNat = nE at *
  -- the energy selection does not fail
  have hno : ∀ c, c < bin0 → 2 * bin0 - 1 - c < nBin.toNat →
      (B c).length < (B (2 * bin0 - 1 - c)).length →
      0 < nE ∧ ∀ i < nE, ¬ TooFew (energyEdges nE) nE energy (B c) (B (2 * bin0 - 1 - c)) i := by
    intro c hc1 hc2 hlt
    have hE' : EdgesSorted (energyEdges nBinE.toNat : List F) nBinE.toNat := by rw [hnE]; exact hE
    rcases jeHistogram_outcome junk rng hr nBinE hE' hh h0 rows s₀ with
      ⟨labels, s', S, h1, -, h3, -⟩ | ⟨h1, -⟩
    · have ht := h3 (2 * bin0 - 1 - c) (by omega) (by unfold mirrorEnd; omega)
      rw [show 2 * bin0 - 1 - (2 * bin0 - 1 - c) = c by omega, hB, hen, hnE] at ht
      rcases ht with ⟨h6, _⟩ | ⟨_, _, _, h6⟩
      · omega
      · refine ⟨?_, fun i hi h => h6 (Or.inr ⟨i, hi, h⟩)⟩
        by_contra h
        exact h6 (Or.inl (by omega))
    · rw [h1] at hok
      cases hok
  have hnodup : ∀ k, (B k).Nodup := by intro k; rw [← hB]; exact binIds_nodup _ _ _ _
  obtain ⟨lab, h1, -, h3, h4⟩ := labelBins_count (N := (rows.map fun r => [r.1, r.2]).length) junk
    (energySelect rng nBinE energy)
    (fun c s => if (B c).length ≥ (B (2 * bin0 - 1 - c)).length then (B (2 * bin0 - 1 - c), s)
      else (collect (energyStep rng (energyEdges nE) nE energy (B c) (B (2 * bin0 - 1 - c)))
          (List.range nE) s,
        runState (energyStep rng (energyEdges nE) nE energy (B c) (B (2 * bin0 - 1 - c)))
          (List.range nE) s))
    htab h0 hb (by intro i _ p hp; rw [← hB] at hp; simpa using binIds_lt hp)
    (by
      intro c hc1 hc2 s
      by_cases hc : (B c).length ≥ (B (2 * bin0 - 1 - c)).length
      · rw [if_pos hc, if_pos hc]
      · rw [if_neg hc, if_neg hc]
        obtain ⟨hpos, hfew⟩ := hno c hc1 hc2 (by omega)
        unfold energySelect
        rw [if_neg (by omega)]
        simp only [hnE]
        rw [List.range_eq_range', energyLoop_run rng (energyEdges nE) nE energy (B c)
          (B (2 * bin0 - 1 - c)) nE 0 (by omega) [] s hfew]
        rfl)
    (by
      intro c hc1 hc2 s p hp
      by_cases hc : (B c).length ≥ (B (2 * bin0 - 1 - c)).length
      · rw [if_pos hc] at hp; exact hp
      · rw [if_neg hc] at hp
        obtain ⟨hpos, hfew⟩ := hno c hc1 hc2 (by omega)
        have : ∀ (l : List Nat) (s : σ), (∀ i ∈ l, i < nE) → p ∈ collect (energyStep rng
            (energyEdges nE) nE energy (B c) (B (2 * bin0 - 1 - c))) l s →
            p ∈ B (2 * bin0 - 1 - c) := by
          intro l
          induction l with
          | nil => intro s _ h; simp [collect] at h
          | cons i l ih =>
            intro s hl h
            simp only [collect, List.mem_append] at h
            rcases h with h | h
            · exact (energyStep_sub rng hr (hfew i (hl i (by simp))) s h).1
            · exact ih _ (fun i hi => hl i (by simp [hi])) h
        exact this _ s (fun i hi => List.mem_range.1 hi) hp)
    (by rw [← hB]; exact hs.binIds_disjoint (by omega) _) Ω
    (by
      intro c hc1 hc2
      by_cases hc : (B c).length ≥ (B (2 * bin0 - 1 - c)).length
      · simp only [if_pos hc]; exact Set.bijOn_id _
      · simp only [if_neg hc]
        obtain ⟨hpos, hfew⟩ := hno c hc1 hc2 (by omega)
        exact runState_bijOn _ fun j hj => (energyStep_fair rng (hnodup _) (hle _) hΩ
          (hfew j (List.mem_range.1 hj))).1)
  refine ⟨lab, ?_, ?_⟩
  · intro s
    obtain ⟨s', h⟩ := h1 s
    refine ⟨s', ?_⟩
    unfold jeHistogramSplit
    simp only [e1, e2]
    rw [hh]
    simp only [Py.ok_bind]
    rw [hen]
    exact h
  · intro k hk p r hp hbin
    have hm : p ∈ B k := by
      rw [← hB]
      exact mem_binIds.2 ⟨r.2, by simp [hp], hbin⟩
    have hEp : energy p = r.1 := by rw [← hen]; simp [hp]
    refine ⟨fun hkb s => (h3 k hk p hm s).2.1 hkb, fun hk1 hk2 => ?_, fun hk2 s =>
      (h3 k hk p hm s).2.2 (by omega) (by unfold mirrorEnd; omega)⟩
    have hkk : 2 * bin0 - 1 - (2 * bin0 - 1 - k) = k := by omega
    have h5 := h4 k hk p hm
    rw [if_neg (by omega), if_pos (by unfold mirrorEnd; omega)] at h5
    simp only [hkk] at h5
    simp only
    rw [h5, ← hlenrows, ← hlenrows]
    refine ⟨fun hc => ?_, fun hc => ⟨fun j hj hEj => ?_, fun hEj => ?_⟩⟩
    · simp only [if_pos (show (B (2 * bin0 - 1 - k)).length ≥ (B k).length from hc), hm,
        Finset.filter_true]
    · obtain ⟨hpos, hfew⟩ := hno (2 * bin0 - 1 - k) (by omega) (by omega) (by rw [hkk]; exact hc)
      rw [hkk] at hfew
      simp only [if_neg (show ¬ (B (2 * bin0 - 1 - k)).length ≥ (B k).length by omega)]
      have hsplit : List.range nE = List.range j ++ j :: List.range' (j + 1) (nE - (j + 1)) := by
        obtain ⟨d, rfl⟩ : ∃ d, nE = j + (d + 1) := ⟨nE - j - 1, by omega⟩
        rw [List.range_eq_range', List.range_eq_range', show j + (d + 1) - (j + 1) = d by omega,
          ← List.range'_succ]
        have := List.range'_append_1 (s := 0) (m := j) (n := d + 1)
        rw [Nat.zero_add] at this
        exact this.symm
      have hmc : ∀ s, p ∈ collect (energyStep rng (energyEdges nE) nE energy
          (B (2 * bin0 - 1 - k)) (B k)) (List.range nE) s ↔
          p ∈ (energyStep rng (energyEdges nE) nE energy (B (2 * bin0 - 1 - k)) (B k) j
            (runState (energyStep rng (energyEdges nE) nE energy (B (2 * bin0 - 1 - k)) (B k))
              (List.range j) s)).1 := by
        intro s
        rw [hsplit]
        refine mem_collect _ _ s (by simp) (by simp [List.mem_range'_1]) ?_
        intro i hi s hpi
        rw [← hsplit, List.mem_range] at hi
        refine halfOpen_unique hE hpos hi hj ?_ hEj
        rw [← hEp]
        exact (energyStep_sub rng hr (hfew i hi) s hpi).2
      simp only [hmc]
      rw [card_filter_bijOn (runState_bijOn (List.range j) fun i hi => (energyStep_fair rng
        (hnodup _) (hle _) hΩ (hfew i ((List.mem_range.1 hi).trans hj))).1)
        (fun s => p ∈ (energyStep rng (energyEdges nE) nE energy (B (2 * bin0 - 1 - k)) (B k) j s).1)]
      rw [← hf k (halfOpen (energyEdges nE) j), ← hf (2 * bin0 - 1 - k) (inBinI (energyEdges nE) nE j)]
      have := (energyStep_fair rng (hnodup k) (hle k) hΩ (hfew j hj)).2 p hm (by rw [hEp]; exact hEj)
      rw [← hen] at this ⊢
      exact this
    · obtain ⟨hpos, hfew⟩ := hno (2 * bin0 - 1 - k) (by omega) (by omega) (by rw [hkk]; exact hc)
      rw [hkk] at hfew
      simp only [if_neg (show ¬ (B (2 * bin0 - 1 - k)).length ≥ (B k).length by omega)]
      rw [Finset.filter_false_of_mem]
      · simp
      · intro s _
        have : ∀ (l : List Nat) (s : σ), (∀ i ∈ l, i < nE) → p ∉ collect (energyStep rng
            (energyEdges nE) nE energy (B (2 * bin0 - 1 - k)) (B k)) l s := by
          intro l
          induction l with
          | nil => intro s _ h; simp [collect] at h
          | cons i l ih =>
            intro s hl h
            simp only [collect, List.mem_append] at h
            rcases h with h | h
            · have h' := (energyStep_sub rng hr (hfew i (hl i (by simp))) s h).2
              rw [hEp, hEj i (hl i (by simp))] at h'
              cases h'
            · exact ih _ (fun i hi => hl i (by simp [hi])) h
        exact this _ s fun i hi => List.mem_range.1 hi

/-! ### non-vacuity -/

/-- a fair generator: `k` consecutive entries, read cyclically from the position given by the seed -/
def rotRng : Rng Nat := ⟨fun s a k => ((a.rotate s).take k, s)⟩

theorem rotRng_ok : rotRng.OK := by
  intro s a k hk
  refine ⟨?_, ?_⟩
  · simp [rotRng, hk]
  · exact (List.take_sublist _ _).subperm.trans (List.rotate_perm a s).subperm

theorem rot_mem {a : List Nat} {s k i : Nat} (ha : a.Nodup) (hk : k ≤ a.length) (hi : i < a.length) :
    a[i] ∈ (a.rotate s).take k ↔ ∃ j < k, (j + s) % a.length = i := by
  rw [List.mem_take_iff_getElem]
  simp only [List.length_rotate, List.getElem_rotate]
  constructor
  · rintro ⟨j, hj, h⟩
    exact ⟨j, by omega, (ha.getElem_inj_iff).1 h⟩
  · rintro ⟨j, hj, h⟩
    exact ⟨j, by omega, by simp only [h]⟩

theorem rot_count {a : List Nat} {k i : Nat} (ha : a.Nodup) (hk : k ≤ a.length) (hi : i < a.length) :
    ((Finset.range a.length).filter fun s => a[i] ∈ (a.rotate s).take k).card = k := by
  conv_rhs => rw [← Finset.card_range k]
  symm
  refine Finset.card_nbij (fun j => (i + (a.length - j)) % a.length) ?_ ?_ ?_
  · intro j hj
    simp only [Finset.coe_range, Set.mem_Iio] at hj
    rw [Finset.mem_coe, Finset.mem_filter, Finset.mem_range, rot_mem ha hk hi]
    refine ⟨Nat.mod_lt _ (by omega), j, hj, ?_⟩
    rw [Nat.add_mod_mod, show j + (i + (a.length - j)) = i + a.length by omega, Nat.add_mod_right,
      Nat.mod_eq_of_lt hi]
  · intro j hj j' hj' h
    simp only [Finset.coe_range, Set.mem_Iio] at hj hj'
    have h1 : ∀ j, j < k → (i + (a.length - j)) % a.length = if j ≤ i then i - j else i + a.length - j := by
      intro j hj
      split
      · rw [show i + (a.length - j) = i - j + a.length by omega, Nat.add_mod_right,
          Nat.mod_eq_of_lt (by omega)]
      · rw [Nat.mod_eq_of_lt (by omega)]; omega
    simp only [h1 j hj, h1 j' hj'] at h
    split at h <;> split at h <;> omega
  · intro s hs
    rw [Finset.mem_coe, Finset.mem_filter, Finset.mem_range, rot_mem ha hk hi] at hs
    obtain ⟨hs, j, hj, h⟩ := hs
    refine ⟨j, by simpa using hj, ?_⟩
    have h2 : j + s < 2 * a.length := by omega
    by_cases h3 : j + s < a.length
    · rw [Nat.mod_eq_of_lt h3] at h
      subst h
      simp only
      rw [show j + s + (a.length - j) = s + a.length by omega, Nat.add_mod_right, Nat.mod_eq_of_lt hs]
    · rw [show j + s = (j + s - a.length) + a.length by omega, Nat.add_mod_right,
        Nat.mod_eq_of_lt (by omega)] at h
      simp only
      rw [show i + (a.length - j) = s by omega, Nat.mod_eq_of_lt hs]

theorem rotRng_fair (n : Nat) : rotRng.Fair (Finset.range n.factorial) n := by
  intro a k ha hn hk
  refine ⟨Set.bijOn_id _, fun p hp => ?_⟩
  obtain ⟨i, hi, rfl⟩ := List.mem_iff_getElem.1 hp
  obtain ⟨m, hm⟩ : a.length ∣ n.factorial := Nat.dvd_factorial (by omega) hn
  rw [hm]
  clear hm
  show ((Finset.range _).filter fun s => a[i] ∈ (a.rotate s).take k).card * _ = _
  suffices ((Finset.range (a.length * m)).filter fun s => a[i] ∈ (a.rotate s).take k).card = k * m by
    rw [this, Finset.card_range]; ring
  have hper : Function.Periodic (fun s => a[i] ∈ (a.rotate s).take k) a.length := by
    intro s
    simp only [rot_mem ha hk hi, ← Nat.add_assoc, Nat.add_mod_right]
  induction m with
  | zero => simp
  | succ m ih =>
    rw [← Nat.count_eq_card_filter_range] at ih ⊢
    rw [Nat.mul_succ, Nat.count_add, ih, Nat.mul_succ]
    congr 1
    rw [Nat.count_eq_card_filter_range]
    refine Eq.trans ?_ (rot_count ha hk hi)
    refine congrArg _ (Finset.filter_congr fun j _ => ?_)
    rw [add_comm, mul_comm]
    exact iff_of_eq (hper.nat_mul m j)

section exact

private abbrev qm (x : ℚ) : Ext ℚ := .fin x

/-- the hypotheses hold for exact arithmetic, the default parameters and this generator -/
example (junk : Nat → Int) (eps : List (Ext ℚ)) :
    ∃ lab : Nat → List Int, ∀ s, ∃ s',
      jHistogramSplit junk rotRng 100 2 (eps.map fun e => [e]) s = .ok (lab s, s') :=
  (C100_jhistogram junk rotRng rotRng_ok (C40_exact_even (K := ℚ) 50 (by norm_num) 2 (by norm_num))
    (by norm_num) (exact_sorted 100 2 (by norm_num)) eps _ (rotRng_fair _)).imp fun _ h => h.1

/-- one counter-rotating star and three co-rotating ones: each of the three in one state of three -/
example : ((List.range 3).map fun s => (jHistogramSplit (fun _ => 99) rotRng 4 2
      [[qm (-3/4)], [qm (3/4)], [qm (4/5)], [qm (7/8)]] s).map (·.1))
    = [.ok [0, 0, 1, 1], .ok [0, 1, 0, 1], .ok [0, 1, 1, 0]] := by decide +kernel

/-- with energies: the two stars of the energy bin of the counter-rotating star share its place -/
example : ((List.range 2).map fun s => (jeHistogramSplit (fun _ => 99) rotRng 4 2 2
      [[qm (-1/4), qm (-3/4)], [qm (-1/4), qm (3/4)], [qm (-1/3), qm (3/4)],
        [qm (-3/4), qm (3/4)]] s).map (·.1))
    = [.ok [0, 0, 1, 1], .ok [0, 1, 0, 1]] := by decide +kernel

/-- the hypotheses of `C100_jehistogram` hold for these stars -/
example : ∃ lab : Nat → List Int, ∀ s, ∃ s', jeHistogramSplit (fun _ => 99) rotRng 4 2 2
      ([(qm (-1/4), qm (-3/4)), (qm (-1/4), qm (3/4)), (qm (-1/3), qm (3/4)),
        (qm (-3/4), qm (3/4))].map fun r => [r.1, r.2]) s = .ok (lab s, s') :=
  (C100_jehistogram (fun _ => 99) rotRng rotRng_ok 2 (exact_energy_sorted (K := ℚ) 2)
    (C40_exact_even (K := ℚ) 2 (by norm_num) 2 (by norm_num)) (by norm_num)
    (exact_sorted 4 2 (by norm_num)) _ 0 (by decide +kernel) _ (rotRng_fair _)).imp fun _ h => h.1

end exact

end GChop
