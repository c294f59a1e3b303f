import Verif.Props.Cluster
import Verif.Props.CircExact

/-!
# C44 and C45 in exact arithmetic, and the whole of `AutoGaussianMixture.split`
-/

set_option linter.unusedSectionVars false

namespace GChop
open Pd Ext

section exact
variable {K : Type} [Field K] [LinearOrder K] [IsStrictOrderedRing K] [FloorRing K] [HasSqrt K]

/-- the mean of the last five numbers -/
def lastFive (ks : List K) : K := (ks.drop (ks.length - 5)).sum / 5

theorem sum_gt_of_all_gt (l : List K) (m : K) (h : ∀ x ∈ l, m < x) :
    l ≠ [] → (l.length : K) * m < l.sum := by
  induction l with
  | nil => intro h; exact absurd rfl h
  | cons a l ih =>
    intro _
    have ha := h a (by simp)
    by_cases hl : l = []
    · subst hl; simpa using ha
    · have := ih (fun x hx => h x (by simp [hx])) hl
      simp only [List.length_cons, Nat.cast_add, Nat.cast_one, List.sum_cons]
      linarith

theorem exists_le_lastFive (ks : List K) (h : 5 ≤ ks.length) : ∃ x ∈ ks, x ≤ lastFive ks := by
  by_contra hc
  push Not at hc
  have hl : (ks.drop (ks.length - 5)).length = 5 := by rw [List.length_drop]; omega
  have := sum_gt_of_all_gt (ks.drop (ks.length - 5)) (lastFive ks)
    (fun x hx => hc x (List.mem_of_mem_drop hx)) (by intro h0; rw [h0] at hl; simp at hl)
  rw [hl] at this
  unfold lastFive at this
  have h5 : ((5 : ℕ) : K) * ((ks.drop (ks.length - 5)).sum / 5) = (ks.drop (ks.length - 5)).sum := by
    push_cast
    field_simp
  rw [h5] at this
  exact lt_irrefl _ this

theorem lastFiveMean_exact (ks : List K) : lastFiveMean (ks.map fin) = fin (lastFive ks) := by
  unfold lastFiveMean lastFive
  rw [List.length_map, ← List.map_drop, num_sum, num_ofRat]
  rw [num_div _ _ (by norm_num)]
  norm_num

/-- C44: with finite values, at least five of them, and `c_bic >= 0` (possibly infinite) the
selection succeeds, and it returns the least candidate whose value exceeds the mean of the last five
by at most `c_bic`. -/
theorem C44_exact (ctt : List Nat) (ks : List K) (hl : ctt.length = ks.length) (h5 : 5 ≤ ks.length)
    (cBic : Ext K) (hc : ((Num.ofRat 0 : Ext K) <=. cBic) = true) :
    ∃ n, selectComponents cBic ctt (ks.map fin) = .ok n ∧
      (∃ (i : Nat) (k : K), ctt[i]? = some n ∧ ks[i]? = some k ∧
        ((fin (k - lastFive ks) : Ext K) <=. cBic) = true) ∧
      ∀ (i : Nat) (m : Nat) (k : K), ctt[i]? = some m → ks[i]? = some k →
        ((fin (k - lastFive ks) : Ext K) <=. cBic) = true → n ≤ m := by
  obtain ⟨x, hx, hle⟩ := exists_le_lastFive ks h5
  obtain ⟨i, hi⟩ := List.mem_iff_getElem?.1 hx
  obtain ⟨h1, h2⟩ := C44_choice cBic ctt (ks.map (fin : K → Ext K))
  have hval : ∀ k : K, ((fin k -. lastFiveMean (ks.map fin) : Ext K)) = fin (k - lastFive ks) := by
    intro k
    rw [lastFiveMean_exact, num_sub]
  have hok : ∃ n, ∃ (i : Nat) (b : Ext K), ctt[i]? = some n ∧ (ks.map (fin : K → Ext K))[i]? = some b ∧
      ((b -. lastFiveMean (ks.map fin)) <=. cBic) = true := by
    have hlt : i < ctt.length := by rw [hl]; exact (List.getElem?_eq_some_iff.1 hi).1
    refine ⟨ctt[i], i, fin x, List.getElem?_eq_getElem hlt, by rw [List.getElem?_map, hi]; rfl, ?_⟩
    rw [hval]
    refine NumOrd.le_trans (b := (Num.ofRat 0 : Ext K)) ?_ hc
    rw [num_ofRat, num_le, decide_eq_true_eq]
    push_cast
    linarith
  cases hs : selectComponents cBic ctt (ks.map (fin : K → Ext K)) with
  | error e => exact absurd hok ((h2 e).1 hs).2
  | ok n =>
    obtain ⟨⟨i, b, a1, a2, a3⟩, a4⟩ := (h1 n).1 hs
    refine ⟨n, rfl, ?_, ?_⟩
    · rw [List.getElem?_map, Option.map_eq_some_iff] at a2
      obtain ⟨k, hk, rfl⟩ := a2
      exact ⟨i, k, a1, hk, by rw [← hval]; exact a3⟩
    · intro i m k c1 c2 c3
      refine a4 m ⟨i, fin k, c1, by rw [List.getElem?_map, c2]; rfl, ?_⟩
      rw [hval]; exact c3

/-- C44: so a failure needs `c_bic` negative or NaN, or a value that is not finite. -/
theorem C44_failure (ctt : List Nat) (bics : List (Ext K)) (hl : ctt.length = bics.length)
    (h5 : 5 ≤ bics.length) (cBic : Ext K) (e : PyErr)
    (h : selectComponents cBic ctt bics = .error e) :
    ((Num.ofRat 0 : Ext K) <=. cBic) = false ∨ ∃ b ∈ bics, Num.isFinite b = false := by
  by_contra hc
  push Not at hc
  obtain ⟨h1, h2⟩ := hc
  have : ∃ ks : List K, bics = ks.map fin := by
    clear hl h5 h
    induction bics with
    | nil => exact ⟨[], rfl⟩
    | cons b bics ih =>
      obtain ⟨ks, rfl⟩ := ih (fun x hx => h2 x (by simp [hx]))
      have hb := h2 b (by simp)
      obtain ⟨x, rfl⟩ := isFinite_iff.1 (by simpa using hb)
      exact ⟨x :: ks, rfl⟩
  obtain ⟨ks, rfl⟩ := this
  obtain ⟨n, hn, _⟩ := C44_exact ctt ks (by simpa using hl) (by simpa using h5) cBic (by simpa using h1)
  rw [hn] at h
  cases h

/-! ## C45 -/

theorem foldl_add_exact (xs : List K) (is : List Nat) (his : ∀ i ∈ is, i < xs.length) (a : K) :
    is.foldl (fun acc i => acc +. (xs.map (fin : K → Ext K)).getD i Num.nan) (fin a)
      = fin (a + (is.map fun i => xs.getD i 0).sum) := by
  induction is generalizing a with
  | nil => simp
  | cons i is ih =>
    have hi := his i (by simp)
    rw [List.foldl_cons]
    have hg : (xs.map (fin : K → Ext K)).getD i Num.nan = fin (xs.getD i 0) := by
      simp [List.getD_eq_getElem?_getD, List.getElem?_eq_getElem hi]
    rw [hg, num_add, ih (fun k hk => his k (by simp [hk]))]
    simp only [List.map_cons, List.sum_cons]
    congr 1
    ring

theorem sum_by_class (cls : Nat → Option Nat) (f : Nat → K) (is : List Nat)
    (h : ∀ i ∈ is, ∃ k < 4, cls i = some k) :
    ((is.filter fun i => cls i = some 0).map f).sum + ((is.filter fun i => cls i = some 1).map f).sum
      + ((is.filter fun i => cls i = some 2).map f).sum
      + ((is.filter fun i => cls i = some 3).map f).sum = (is.map f).sum := by
  induction is with
  | nil => simp
  | cons i is ih =>
    have := ih (fun k hk => h k (by simp [hk]))
    obtain ⟨k, hk, hc⟩ := h i (by simp)
    have hk' : k = 0 ∨ k = 1 ∨ k = 2 ∨ k = 3 := by omega
    rcases hk' with rfl | rfl | rfl | rfl <;>
      simp only [List.filter_cons, hc] <;> simp <;> linarith

/-- C45: if no mean is NaN, the four probabilities of a star are its membership probabilities
distributed over the four structures: each is the sum over the gaussians of its structure, together
they are the sum over all gaussians, and if the memberships are not negative neither are they. -/
theorem C45_conserved (nComponents : Nat) (center : Mat (Ext K))
    (hm : ∀ i < nComponents, ∀ k < 2, Num.isNaN ((center.rows.getD i []).getD k Num.nan) = false)
    (xs : List K) (hx : xs.length = nComponents) :
    ∃ h b c w : K, (List.range 4).map (fun k => structureSum center nComponents k (xs.map fin))
        = [fin h, fin b, fin c, fin w] ∧
      h + b + c + w = xs.sum ∧
      ((∀ x ∈ xs, 0 ≤ x) → 0 ≤ h ∧ 0 ≤ b ∧ 0 ≤ c ∧ 0 ≤ w) := by
  set cls : Nat → Option Nat := fun i =>
    structureOf ((center.rows.getD i []).getD 0 Num.nan) ((center.rows.getD i []).getD 1 Num.nan)
    with hcls
  have hS : ∀ k, structureSum center nComponents k (xs.map fin)
      = fin (((List.range nComponents).filter fun i => cls i = some k).map
          (fun i => xs.getD i 0)).sum := by
    intro k
    unfold structureSum
    have := foldl_add_exact xs ((List.range nComponents).filter fun i => cls i = some k)
      (by
        intro i hi
        have := (List.mem_filter.1 hi).1
        rw [List.mem_range] at this
        omega) 0
    rw [zero_add] at this
    have h0 : (Num.zero : Ext K) = fin 0 := by
      show (fin ((0 : ℚ) : K) : Ext K) = fin 0
      simp
    rw [h0]
    exact this
  have h4 : (List.range 4).map (fun k => structureSum center nComponents k (xs.map fin))
      = [structureSum center nComponents 0 (xs.map fin), structureSum center nComponents 1 (xs.map fin),
        structureSum center nComponents 2 (xs.map fin), structureSum center nComponents 3 (xs.map fin)] :=
    rfl
  rw [h4, hS, hS, hS, hS]
  refine ⟨_, _, _, _, rfl, ?_, ?_⟩
  · rw [sum_by_class cls (fun i => xs.getD i 0) (List.range nComponents)]
    · congr 1
      apply List.ext_getElem?
      intro i
      rw [List.getElem?_map]
      by_cases hi : i < nComponents
      · rw [List.getElem?_range hi, Option.map_some, List.getD_eq_getElem?_getD,
          List.getElem?_eq_getElem (by omega : i < xs.length)]
        rfl
      · rw [List.getElem?_eq_none (by simpa using hi), List.getElem?_eq_none (by omega)]
        rfl
    · intro i hi
      rw [List.mem_range] at hi
      exact C45_structure _ _ (hm i hi 0 (by omega)) (hm i hi 1 (by omega))
  · intro hpos
    have hnn : ∀ l : List Nat, 0 ≤ (l.map fun i => xs.getD i 0).sum := by
      intro l
      apply List.sum_nonneg
      intro y hy
      rw [List.mem_map] at hy
      obtain ⟨i, _, rfl⟩ := hy
      rw [List.getD_eq_getElem?_getD]
      cases hg : xs[i]? with
      | none => simp
      | some x => exact hpos x (List.mem_of_getElem? hg)
    exact ⟨hnn _, hnn _, hnn _, hnn _⟩

/-- C45: the label is the first position of the largest of the four probabilities. -/
theorem C45_label (p : Nat → K) (l : Nat)
    (h : Np.argmax ((List.range 4).map fun k => (fin (p k) : Ext K)) = .ok l) :
    l < 4 ∧ (∀ k < 4, p k ≤ p l) ∧ ∀ k < l, p k < p l := by
  have hget : ∀ k < 4, ((List.range 4).map fun k => (fin (p k) : Ext K))[k]? = some (fin (p k)) := by
    intro k hk
    rw [List.getElem?_map, List.getElem?_range hk]
    rfl
  obtain ⟨i, x, h1, h2, h3⟩ := argmax_spec (l := (List.range 4).map fun k => (fin (p k) : Ext K))
    (by
      intro a ha
      rw [List.mem_map] at ha
      obtain ⟨k, _, rfl⟩ := ha
      rfl) (by simp [List.range_succ])
  rw [h] at h1
  injection h1 with h1
  subst h1
  have hl : l < 4 := by simpa using argmax_lt h
  rw [hget l hl] at h2
  injection h2 with h2
  subst h2
  refine ⟨hl, ?_, ?_⟩
  · intro k hk
    simpa using (h3 k _ (hget k hk)).1
  · intro k hk
    simpa using (h3 k _ (hget k (by omega))).2 hk

end exact

/-! ## the whole of `AutoGaussianMixture.split` -/

variable {F : Type} [Num F] {V σ M : Type}

/-- the shapes of what numpy and scikit-learn return -/
structure GmmLib.Shapes (sk : GmmLib V σ M F) : Prop where
  randint : ∀ s n, (sk.randint s n).1.length = n
  proba : ∀ m X p, sk.predictProba m X = .ok p →
    p.rows.length = X.length ∧ p.width = sk.nComponents m
  means : ∀ m, (sk.means m).rows.length = sk.nComponents m ∧ 2 ≤ (sk.means m).width

/-- C45: whenever `AutoGaussianMixture.split` returns, it returns one label in 0..3 and four
probabilities per star: the memberships of the fitted mixture added up by structure. -/
theorem C45_split [NumOrd F] (sk : GmmLib V σ M F) (hsk : sk.Shapes) (cBic : F) (p : GmmParams V)
    (sched : List Nat) (s : σ) (X : List (List F)) (labels : List Int) (probs : Option (Mat F))
    (s' : σ) (h : autoSplit sk cBic p sched s X = .ok ((labels, probs), s')) :
    ∃ gmm proba, sk.predictProba gmm X = .ok proba ∧
      probs = some ⟨proba.rows.map fun row =>
        (List.range 4).map fun k => structureSum (sk.means gmm) (sk.nComponents gmm) k row, 4⟩ ∧
      labels.length = X.length ∧
      (∀ l ∈ labels, l = 0 ∨ l = 1 ∨ l = 2 ∨ l = 3) ∧
      ∀ (i : Nat) (l : Int), labels[i]? = some l → ∃ (row : List F) (k : Nat),
        proba.rows[i]? = some row ∧ l = k ∧
        Np.argmax ((List.range 4).map fun k =>
          structureSum (sk.means gmm) (sk.nComponents gmm) k row) = .ok k := by
  unfold autoSplit at h
  simp only at h
  cases hb : parallel (List.zipWith (tryComponents sk p X) componentsToTry
      (sk.randint s componentsToTry.length).1) sched with
  | error e => rw [hb] at h; cases h
  | ok bics =>
    rw [hb] at h
    simp only [Py.ok_bind] at h
    cases hn : selectComponents cBic componentsToTry bics with
    | error e => rw [hn] at h; cases h
    | ok n =>
      rw [hn] at h
      simp only [Py.ok_bind] at h
      cases hf : sk.fitState (gmmKwargs (sk.int n) p) (sk.randint s componentsToTry.length).2 X with
      | error e => rw [hf] at h; cases h
      | ok gs =>
        obtain ⟨gmm, s2⟩ := gs
        rw [hf] at h
        simp only [Py.ok_bind] at h
        cases hp : sk.predictProba gmm X with
        | error e => rw [hp] at h; cases h
        | ok proba =>
          rw [hp] at h
          simp only [Py.ok_bind] at h
          obtain ⟨hp1, hp2⟩ := hsk.proba gmm X proba hp
          obtain ⟨hm1, hm2⟩ := hsk.means gmm
          obtain ⟨ls, h1, h2, h3⟩ := C45_classify (sk.nComponents gmm) (sk.means gmm) proba hm1 hm2
            hp2
          rw [← hp1, h1] at h
          simp only [Py.ok_bind, Py.pure_eq] at h
          injection h with h
          injection h with h h'
          injection h with ha hb
          subst ha
          refine ⟨gmm, proba, hp, hb.symm, by rw [h2, hp1], ?_, ?_⟩
          · intro l hl
            obtain ⟨i, hi⟩ := List.mem_iff_getElem?.1 hl
            obtain ⟨row, k, _, rfl, hk, _⟩ := h3 i l hi
            have : k = 0 ∨ k = 1 ∨ k = 2 ∨ k = 3 := by omega
            rcases this with rfl | rfl | rfl | rfl <;> simp
          · intro i l hl
            obtain ⟨row, k, a1, a2, _, a4⟩ := h3 i l hl
            exact ⟨row, k, a1, a2, a4⟩

/-- C45 for galaxies: in a galaxy decomposed by `AutoGaussianMixture` exactly the stars with finite
normalized energy, `eps` and `eps_r` have a label, and it is 0, 1, 2 or 3. -/
theorem C45_decompose [NumOrd F] (env : CircEnv F) (cbins : F × F) (b : BGalaxy F) (j : JCirc F)
    (hj : jcirc env (Galaxy.ofBodies b) cbins.1 cbins.2 = .ok j)
    (sk : GmmLib V σ M F) (hsk : sk.Shapes) (cBic : F) (p : GmmParams V) (sched : List Nat) (s : σ)
    (labels : List Int) (probs : Option (Mat F)) (s' : σ)
    (h : autoSplit sk cBic p sched s (clusterMatrix j b.stars.length) = .ok ((labels, probs), s')) :
    ∃ c, decompose env cbins (autoGaussianMixture sk cBic p sched s) (Galaxy.ofBodies b) = .ok c ∧
      Placed c (b.stars.length + b.dm.length + b.gas.length) (clusterStars j b.stars.length)
        labels probs ∧
      (∀ i ∈ clusterStars j b.stars.length, ∃ l, c.labels[i]? = some (some l) ∧
        (l = 0 ∨ l = 1 ∨ l = 2 ∨ l = 3)) := by
  obtain ⟨gmm, proba, h1, h2, h3, h4, _⟩ := C45_split sk hsk cBic p sched s _ labels probs s' h
  have hX : (clusterMatrix j b.stars.length).length = (clusterStars j b.stars.length).length := by
    simp [clusterMatrix]
  obtain ⟨c, hc1, hc2⟩ := (cluster_decompose env cbins b j hj
    (fun X => (autoSplit sk cBic p sched s X).map Prod.fst)).1 labels probs (by simp only [h]; rfl)
    (by rw [h3, hX]) (by
      intro p' hp'
      rw [h2] at hp'
      injection hp' with hp'
      rw [← hp']
      simp [(hsk.proba gmm _ proba h1).1, hX])
  refine ⟨c, hc1, hc2, ?_⟩
  intro i hi
  have hm : c.labels[i]? ∈ (clusterStars j b.stars.length).map (fun i => c.labels[i]?) :=
    List.mem_map.2 ⟨i, hi, rfl⟩
  rw [hc2.2.2.1, List.mem_map] at hm
  obtain ⟨l, hl, he⟩ := hm
  exact ⟨l, he.symm, h4 l hl⟩

section total
variable {K : Type} [Field K] [LinearOrder K] [IsStrictOrderedRing K] [FloorRing K] [HasSqrt K]

/-- C44: if the fits of all candidates and of the chosen one succeed, the BICs are finite, there is
a star and `c_bic >= 0`, then `AutoGaussianMixture.split` returns; the last fit gets a number of
components in 2..15, the least one allowed by `C44_exact`. -/
theorem C44_split (sk : GmmLib V σ M (Ext K)) (hsk : sk.Shapes) (cBic : Ext K)
    (hc : ((Num.ofRat 0 : Ext K) <=. cBic) = true) (p : GmmParams V) (sched : List Nat)
    (hs : sched.Perm (List.range 14)) (s : σ) (X : List (List (Ext K))) (hX : X ≠ [])
    (hseed : ∀ n seed, ∃ m b, sk.fitSeed (gmmKwargs (sk.int n) p) seed X = .ok m ∧
      sk.bic m X = .ok b ∧ Num.isFinite b = true)
    (hstate : ∀ n s, ∃ m s', sk.fitState (gmmKwargs (sk.int n) p) s X = .ok (m, s'))
    (hproba : ∀ m, ∃ pr, sk.predictProba m X = .ok pr) :
    ∃ (ks : List K) (n : Nat) (labels : List Int) (probs : Option (Mat (Ext K))) (m : M) (s' : σ),
      ks.length = 14 ∧ 2 ≤ n ∧ n ≤ 15 ∧
      List.zipWith (tryComponents sk p X) componentsToTry (sk.randint s 14).1
        = ks.map (fun k => .ok (fin k)) ∧
      selectComponents cBic componentsToTry (ks.map fin) = .ok n ∧
      sk.fitState (gmmKwargs (sk.int n) p) (sk.randint s 14).2 X = .ok (m, s') ∧
      autoSplit sk cBic p sched s X = .ok ((labels, probs), s') := by
  have htry : ∀ n seed, ∃ k : K, tryComponents sk p X n seed = .ok (fin k) := by
    intro n seed
    obtain ⟨m, b, h1, h2, h3⟩ := hseed n seed
    obtain ⟨x, rfl⟩ := isFinite_iff.1 h3
    unfold tryComponents
    rw [h1]
    simp only [Py.ok_bind]
    rw [h2]
    simp only [Py.ok_bind, Py.pure_eq]
    have hn : (Num.ofInt (X.length : Int) : Ext K) = fin (X.length : K) := by
      show (fin (((X.length : Int) : ℚ) : K) : Ext K) = _
      simp
    rw [hn, num_div]
    · exact ⟨_, rfl⟩
    · have : X.length ≠ 0 := by
        intro h; exact hX (List.eq_nil_of_length_eq_zero h)
      exact_mod_cast this
  have hall : ∀ (ns : List Nat) (seeds : List Int), ns.length = seeds.length →
      ∃ ks : List K, ks.length = ns.length ∧ List.zipWith (tryComponents sk p X) ns seeds
        = ks.map fun k => .ok (fin k) := by
    intro ns
    induction ns with
    | nil => intro seeds _; exact ⟨[], rfl, by simp⟩
    | cons n ns ih =>
      intro seeds hl
      cases seeds with
      | nil => simp at hl
      | cons sd seeds =>
        obtain ⟨ks, h1, h2⟩ := ih seeds (by simpa using hl)
        obtain ⟨k, hk⟩ := htry n sd
        exact ⟨k :: ks, by simp [h1], by simp [hk, h2]⟩
  have hct : componentsToTry.length = 14 := by decide
  obtain ⟨ks, hk1, hk2⟩ := hall componentsToTry (sk.randint s 14).1
    (by rw [hsk.randint, hct])
  rw [hct] at hk1
  obtain ⟨n, hn, ⟨i, k, hi, _, _⟩, _⟩ := C44_exact componentsToTry ks (by rw [hk1, hct])
    (by omega) cBic hc
  have hn2 : 2 ≤ n ∧ n ≤ 15 := by
    have := List.mem_of_getElem? hi
    unfold componentsToTry at this
    rw [List.mem_range'] at this
    omega
  obtain ⟨m, s', hf⟩ := hstate n (sk.randint s 14).2
  obtain ⟨pr, hpr⟩ := hproba m
  obtain ⟨hp1, hp2⟩ := hsk.proba m X pr hpr
  obtain ⟨hm1, hm2⟩ := hsk.means m
  obtain ⟨ls, h1, _, _⟩ := C45_classify (sk.nComponents m) (sk.means m) pr hm1 hm2 hp2
  refine ⟨ks, n, ls, some ⟨pr.rows.map fun row => (List.range 4).map fun k =>
    structureSum (sk.means m) (sk.nComponents m) k row, 4⟩, m, s', hk1, hn2.1, hn2.2, hk2, hn, hf, ?_⟩
  · unfold autoSplit
    simp only
    rw [hct, hk2]
    have hpar := (C46_parallel (ks.map fun k => (.ok (fin k) : Py (Ext K))) sched
      (by rw [List.length_map, hk1]; exact hs)).1 (ks.map fin) (by rw [List.map_map]; rfl)
    rw [hpar]
    simp only [Py.ok_bind]
    rw [hn]
    simp only [Py.ok_bind]
    rw [hf]
    simp only [Py.ok_bind]
    rw [hpr]
    simp only [Py.ok_bind]
    rw [← hp1, h1]
    rfl

end total

section examples

/-- a candidate number is the value of its seed; the mixture has one gaussian per structure -/
def exLib : GmmLib Nat Unit Nat (Ext ℚ) where
  int n := n
  fitState kw _ _ := .ok ((kw.get? "n_components").getD 0, ())
  fitSeed kw _ _ := .ok ((kw.get? "n_components").getD 0)
  predict _ X := .ok (X.map fun _ => 0)
  predictProba _ X := .ok ⟨X.map fun _ => [q (1/10), q (2/10), q (4/10), q (3/10)], 4⟩
  bic m X := .ok (q (X.length * (20 - m)))
  nComponents _ := 4
  means _ := ⟨[[q (-1/2), q 0, q 0], [q (-9/10), q (1/10), q 0], [q (-1/2), q (9/10), q 0],
    [q (-1/2), q (6/10), q 0]], 3⟩
  randint _ n := (List.replicate n 7, ())

def exGmmParams : GmmParams Nat := ⟨0, 0, 0, 0, 0, 0, 0, 0, 0, 0, 0, 0⟩

/-- the hypotheses on the shapes hold -/
example : exLib.Shapes where
  randint := by intro s n; simp [exLib]
  proba := by
    intro m X p h
    simp only [exLib] at h
    injection h with h
    rw [← h]
    simp [exLib]
  means := by intro m; simp [exLib]

/-- BIC values 18, 17, ..., 5 with mean 7 of the last five: with `c_bic = 1` the twelfth candidate is
the first to qualify; two stars in the cold disk -/
example : selectComponents (q 1) componentsToTry ((List.range 14).map fun i : Nat => q (18 - i))
    = .ok 12 := by decide +kernel
example : autoSplit exLib (q 1) exGmmParams [3, 2, 1, 0, 4, 5, 6, 7, 8, 9, 13, 12, 11, 10] ()
      [[q 0, q 0, q 0], [q 0, q 0, q 0]]
    = .ok (([2, 2], some ⟨[[q (1/10), q (2/10), q (4/10), q (3/10)],
        [q (1/10), q (2/10), q (4/10), q (3/10)]], 4⟩), ()) := by decide +kernel

/-- C44: a negative `c_bic` or a NaN among the last five values fails -/
example : selectComponents (q (-1)) componentsToTry (List.replicate 14 (q 3)) = .error .valueError := by
  decide +kernel
example : selectComponents (q 1) componentsToTry (List.replicate 13 (q 3) ++ [Num.nan])
    = .error .valueError := by decide +kernel

/-- C45: a gaussian with a NaN mean is lost: the probabilities of the star no longer add up to 1 -/
example : classify 1 2 (⟨[[q 0, Num.nan], [q 0, q 1]], 2⟩ : Mat (Ext ℚ)) ⟨[[q (1/4), q (3/4)]], 2⟩
    = .ok ([2], some ⟨[[q 0, q 0, q (3/4), q 0]], 4⟩) := by decide +kernel

/-- C46: which error is raised depends on the order if the fits fail in different ways -/
example : parallel [.error .valueError, .error .typeError, (.ok 1 : Py Nat)] [2, 1, 0]
    = .error .typeError := rfl
example : parallel [.error .valueError, .error .typeError, (.ok 1 : Py Nat)] [0, 1, 2]
    = .error .valueError := rfl
example : parallel [.ok 5, .ok 6, (.ok 1 : Py Nat)] [2, 0, 1] = .ok [5, 6, 1] := rfl

/-- a particle at `(1, 0, 0)` with `Jz = jz`, `|Jy| = jy` and energy `e` -/
def tilted (e jz jy : ℚ) : Body (Ext ℚ) :=
  ⟨q 1, q 1, q 0, q 0, q 0, q jz, q jy, q (e - (jz * jz + jy * jy) / 2)⟩

/-- C43: a galaxy with an unbound star and dark matter, clustered by the sign of the circularity -/
example : (decompose exEnv defaultCbin (kmeans (fun _ (_ : Unit) X => .ok (X.map fun r =>
        if (Num.zero <. r.getD 1 Num.nan) then 1 else 0, ())) (⟨2, 0, 0, 0, 0, 0, 0⟩ : KMeansParams Nat) ())
      (Galaxy.ofBodies { exLost with
        stars := [tilted (-1) 1 1, tilted (-1/2) (-2) 3, orbit 1 7], dm := [orbit (-1/1000) 4] }))
    = .ok ⟨[some 1, some 0, none, none], ["stars", "stars", "stars", "dark_matter"], none⟩ := by
  decide +kernel

end examples

end GChop
