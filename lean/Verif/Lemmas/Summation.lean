import Verif.Spec.Summation
import Verif.Lemmas.BinaryFuzzy

/-!
# Sums in any order
-/

namespace GChop

section
variable {F : Type} [Num F]

theorem Added.foldl {l0 : List F} {acc : F} (h : Added l0 acc) (h0 : l0 ≠ []) :
    ∀ l : List F, Added (l0 ++ l) (l.foldl (· +. ·) acc) := by
  intro l
  induction l generalizing l0 acc with
  | nil => simpa using h
  | cons a l ih =>
    have := ih (Added.add (l := l0 ++ [a]) (.refl _) h0 (by simp) h (.one a)) (by simp)
    simpa using this

/-- adding from left to right, beginning with zero -/
theorem added_leftFold (l : List F) : Added l (l.foldl (· +. ·) (Num.ofRat 0)) := by
  cases l with
  | nil => exact .nil
  | cons a l =>
    have := (Added.zero (.one a)).foldl (by simp) l
    simpa using this

theorem Added.perm {l l' : List F} {s : F} (h : Added l s) (hp : l'.Perm l) : Added l' s := by
  induction h with
  | nil =>
    rw [List.perm_nil.1 hp]
    exact .nil
  | one a =>
    rw [List.perm_singleton.1 hp]
    exact .one a
  | zero h ih => exact .zero (ih hp)
  | add h1 n1 n2 a1 a2 _ _ => exact .add (hp.trans h1) n1 n2 a1 a2

/-- the running sums -/
def Lanes (r : F × F × F × F × F × F × F × F) (L : List F) : Prop :=
  ∃ l1 l2 l3 l4 l5 l6 l7 l8 : List F,
    (Added l1 r.1 ∧ Added l2 r.2.1 ∧ Added l3 r.2.2.1 ∧ Added l4 r.2.2.2.1 ∧ Added l5 r.2.2.2.2.1 ∧
      Added l6 r.2.2.2.2.2.1 ∧ Added l7 r.2.2.2.2.2.2.1 ∧ Added l8 r.2.2.2.2.2.2.2) ∧
    (l1 ≠ [] ∧ l2 ≠ [] ∧ l3 ≠ [] ∧ l4 ≠ [] ∧ l5 ≠ [] ∧ l6 ≠ [] ∧ l7 ≠ [] ∧ l8 ≠ []) ∧
    L.Perm (((l1 ++ l2) ++ (l3 ++ l4)) ++ ((l5 ++ l6) ++ (l7 ++ l8)))

theorem Lanes.step {r : F × F × F × F × F × F × F × F} {L : List F} (h : Lanes r L)
    (a b c d e f g i : F) :
    Lanes (r.1 +. a, r.2.1 +. b, r.2.2.1 +. c, r.2.2.2.1 +. d, r.2.2.2.2.1 +. e, r.2.2.2.2.2.1 +. f,
      r.2.2.2.2.2.2.1 +. g, r.2.2.2.2.2.2.2 +. i) (L ++ [a, b, c, d, e, f, g, i]) := by
  obtain ⟨l1, l2, l3, l4, l5, l6, l7, l8, ⟨a1, a2, a3, a4, a5, a6, a7, a8⟩,
    ⟨n1, n2, n3, n4, n5, n6, n7, n8⟩, hp⟩ := h
  have app : ∀ {l : List F} {s x : F}, l ≠ [] → Added l s → Added (l ++ [x]) (s +. x) :=
    fun n h => .add (.refl _) n (by simp) h (.one _)
  refine ⟨l1 ++ [a], l2 ++ [b], l3 ++ [c], l4 ++ [d], l5 ++ [e], l6 ++ [f], l7 ++ [g], l8 ++ [i],
    ⟨app n1 a1, app n2 a2, app n3 a3, app n4 a4, app n5 a5, app n6 a6, app n7 a7, app n8 a8⟩,
    by simp, ?_⟩
  classical
  rw [List.perm_iff_count] at hp ⊢
  intro x
  have := hp x
  simp only [List.count_append, List.count_cons, List.count_nil] at this ⊢
  omega

theorem Lanes.run {r : F × F × F × F × F × F × F × F} {L : List F} (h : Lanes r L) (l : List F) :
    ∃ l', l = l' ++ (lanes r l).2 ∧ Lanes (lanes r l).1 (L ++ l') := by
  induction r, l using lanes.induct generalizing L with
  | case1 r a b c d e f g i l ih =>
    obtain ⟨l', h1, h2⟩ := ih (h.step a b c d e f g i)
    refine ⟨[a, b, c, d, e, f, g, i] ++ l', ?_, ?_⟩
    · conv_lhs => rw [h1]
      rfl
    · rw [← List.append_assoc]
      exact h2
  | case2 r l hl =>
    refine ⟨[], ?_, ?_⟩
    · rw [lanes.eq_2 _ _ hl]
      rfl
    · rw [lanes.eq_2 _ _ hl, List.append_nil]
      exact h

theorem Lanes.total {r : F × F × F × F × F × F × F × F} {L : List F} (h : Lanes r L) :
    L ≠ [] ∧ Added L (((r.1 +. r.2.1) +. (r.2.2.1 +. r.2.2.2.1)) +.
      ((r.2.2.2.2.1 +. r.2.2.2.2.2.1) +. (r.2.2.2.2.2.2.1 +. r.2.2.2.2.2.2.2))) := by
  obtain ⟨l1, l2, l3, l4, l5, l6, l7, l8, ⟨a1, a2, a3, a4, a5, a6, a7, a8⟩,
    ⟨n1, n2, n3, n4, n5, n6, n7, n8⟩, hp⟩ := h
  refine ⟨?_, ?_⟩
  · rintro rfl
    have := List.nil_perm.1 hp
    simp [n1] at this
  · refine .add hp (by simp [n1]) (by simp [n5]) (.add (.refl _) (by simp [n1]) (by simp [n3])
      (.add (.refl _) n1 n2 a1 a2) (.add (.refl _) n3 n4 a3 a4)) (.add (.refl _) (by simp [n5])
      (by simp [n7]) (.add (.refl _) n5 n6 a5 a6) (.add (.refl _) n7 n8 a7 a8))

theorem added_lanesSum (l : List F) : Added l (lanesSum l) := by
  unfold lanesSum
  split
  · rename_i a b c d e f g h l
    have h0 : Lanes (a, b, c, d, e, f, g, h) [a, b, c, d, e, f, g, h] :=
      ⟨[a], [b], [c], [d], [e], [f], [g], [h],
        ⟨.one _, .one _, .one _, .one _, .one _, .one _, .one _, .one _⟩, by simp, by simp⟩
    obtain ⟨l', h1, h2⟩ := h0.run l
    obtain ⟨h3, h4⟩ := h2.total
    have := h4.foldl h3 (lanes (a, b, c, d, e, f, g, h) l).2
    rw [List.append_assoc, ← h1] at this
    exact this
  · exact added_leftFold _

theorem added_pairwiseSum (l : List F) : Added l (pairwiseSum l) := by
  induction l using pairwiseSum.induct with
  | case1 l h =>
    rw [pairwiseSum, dif_pos h]
    exact added_lanesSum l
  | case2 l h n2 ih1 ih2 =>
    rw [pairwiseSum, dif_neg h]
    have hn : n2 = l.length / 2 - l.length / 2 % 8 := rfl
    refine .add (l1 := l.take n2) (l2 := l.drop n2) (by rw [List.take_append_drop]) ?_ ?_ ih1 ih2
    · intro h0
      have := congrArg List.length h0
      rw [List.length_take, List.length_nil] at this
      omega
    · intro h0
      have := congrArg List.length h0
      rw [List.length_drop, List.length_nil] at this
      omega

/-- numpy's order is one of the orders -/
theorem added_npSum (l : List F) : Added l (npSum l) := .zero (added_pairwiseSum l)

end

/-! ## Errors -/

open Flt

theorem perm_of_map {ι α : Type} (f : ι → α) {l l' : List α} (h : l.Perm l') :
    ∀ is : List ι, is.map f = l → ∃ is' : List ι, is.Perm is' ∧ is'.map f = l' := by
  induction h with
  | nil => exact fun is h => ⟨is, .refl _, h⟩
  | cons a _ ih =>
    intro is h
    obtain ⟨i, is', rfl, rfl, h2⟩ := List.map_eq_cons_iff.1 h
    obtain ⟨js, h3, h4⟩ := ih is' h2
    exact ⟨i :: js, h3.cons i, by simp [h4]⟩
  | swap a b l =>
    intro is h
    obtain ⟨i, is', rfl, rfl, h2⟩ := List.map_eq_cons_iff.1 h
    obtain ⟨j, js, rfl, rfl, h3⟩ := List.map_eq_cons_iff.1 h2
    exact ⟨j :: i :: js, List.Perm.swap _ _ _, by simp [h3]⟩
  | trans _ _ ih1 ih2 =>
    intro is h
    obtain ⟨js, h1, h2⟩ := ih1 is h
    obtain ⟨ks, h3, h4⟩ := ih2 js h2
    exact ⟨ks, h1.trans h3, h4⟩

/-- adding zero does not change a double -/
theorem value_zero_add {a : Float64} (ha : Num.isFinite a = true) :
    Num.isFinite (Num.ofRat 0 +. a : Float64) = true ∧ value (Num.ofRat 0 +. a : Float64) = value a := by
  have z : toExt (Num.ofRat 0 : Float64) = .fin 0 := toExt_zero
  have e := toExt_add z (toExt_value ha)
  obtain ⟨s, m, rfl⟩ := isFinite_iff.1 ha
  have hg : Fmt.binary64.clip (Fmt.binary64.srnd (0 + value (fin s m : Float64)))
      = .fin (value (fin s m : Float64)) := by
    rw [zero_add]
    have := toExt_ofExact_sval (fmt := Fmt.binary64) false s m
    rw [toExt_ofExact] at this
    exact this
  rw [hg] at e
  exact ⟨isFinite_of e, value_eq e⟩

theorem Added.fuzzy {ι : Type} {f : ι → Float64} {t M : ι → ℝ} {k : ℝ} (hk0 : 0 ≤ k)
    {l : List Float64} {s : Float64} (h : Added l s) :
    ∀ is : List ι, is.map f = l → (∀ i ∈ is, Fuzzy (f i) (t i) (M i) k) →
      k + 2 * is.length ≤ 2 ^ 50 → (is.map M).sum ≤ 2 ^ (1000 : ℤ) →
      Fuzzy s (is.map t).sum (is.map M).sum (k + 2 * is.length) := by
  induction h with
  | nil =>
    intro is h _ _ _
    rw [List.map_eq_nil_iff] at h
    subst h
    have : value (Num.ofRat 0 : Float64) = 0 := value_eq toExt_zero
    exact ⟨isFinite_of (v := 0) toExt_zero, by simpa using hk0, by simp, by rw [this]; simp⟩
  | one a =>
    intro is h hf _ _
    obtain ⟨i, rfl, rfl⟩ := List.map_eq_singleton_iff.1 h
    simp only [List.map_cons, List.map_nil, List.sum_cons, List.sum_nil, add_zero]
    exact (hf i (by simp)).mono le_rfl (by simp)
  | zero _ ih =>
    intro is h hf hlen hB
    have h1 := ih is h hf hlen hB
    obtain ⟨e1, e2⟩ := value_zero_add h1.fin
    exact ⟨e1, h1.nonneg, h1.le, by rw [e2]; exact h1.err⟩
  | @add l l1 l2 s1 s2 hp n1 n2 _ _ ih1 ih2 =>
    intro is h hf hlen hB
    obtain ⟨js, p1, p2⟩ := perm_of_map f hp is h
    obtain ⟨j1, j2, rfl, e1, e2⟩ := List.map_eq_append_iff.1 p2
    have hf' : ∀ i ∈ j1 ++ j2, Fuzzy (f i) (t i) (M i) k := fun i hi => hf i (p1.mem_iff.2 hi)
    have hs : ∀ g : ι → ℝ, (is.map g).sum = (j1.map g).sum + (j2.map g).sum := by
      intro g
      rw [(p1.map g).sum_eq, List.map_append, List.sum_append]
    have hl : (is.length : ℝ) = j1.length + j2.length := by
      rw [p1.length_eq, List.length_append]
      push_cast
      rfl
    have q1 : (1 : ℝ) ≤ j1.length := by
      have : 1 ≤ j1.length := List.length_pos_iff.2 (by rintro rfl; exact n1 e1.symm)
      exact_mod_cast this
    have q2 : (1 : ℝ) ≤ j2.length := by
      have : 1 ≤ j2.length := List.length_pos_iff.2 (by rintro rfl; exact n2 e2.symm)
      exact_mod_cast this
    have nn : ∀ j : List ι, (∀ i ∈ j, Fuzzy (f i) (t i) (M i) k) → 0 ≤ (j.map M).sum := by
      intro j hj
      apply List.sum_nonneg
      intro x hx
      obtain ⟨c, hc, rfl⟩ := List.mem_map.1 hx
      exact (hj c hc).scale_nonneg
    have m1 := nn j1 fun i hi => hf' i (by simp [hi])
    have m2 := nn j2 fun i hi => hf' i (by simp [hi])
    rw [hs M] at hB
    rw [hl] at hlen
    have r1 := ih1 j1 e1 (fun i hi => hf' i (by simp [hi])) (by linarith)
      ((le_add_of_nonneg_right m2).trans hB)
    have r2 := ih2 j2 e2 (fun i hi => hf' i (by simp [hi])) (by linarith)
      ((le_add_of_nonneg_left m1).trans hB)
    rw [hs t, hs M, hl]
    have := (r1.mono le_rfl (l := k + 2 * (j1.length + j2.length) - 2) (by linarith)).add
      (r2.mono le_rfl (l := k + 2 * (j1.length + j2.length) - 2) (by linarith)) (by linarith) hB
    exact this.mono le_rfl (by linarith)

end GChop
