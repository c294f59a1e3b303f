import Verif.Lemmas.Summation
import Verif.Lemmas.FltOrder

/-!
# Monotone sums
-/

namespace GChop
open Flt

section
variable {F G : Type} [Num F] [Num G] {R : F → G → Prop}

/-- the running sums are related one by one -/
def LanesRel (R : F → G → Prop) (r : F × F × F × F × F × F × F × F)
    (r' : G × G × G × G × G × G × G × G) : Prop :=
  R r.1 r'.1 ∧ R r.2.1 r'.2.1 ∧ R r.2.2.1 r'.2.2.1 ∧ R r.2.2.2.1 r'.2.2.2.1 ∧
    R r.2.2.2.2.1 r'.2.2.2.2.1 ∧ R r.2.2.2.2.2.1 r'.2.2.2.2.2.1 ∧
    R r.2.2.2.2.2.2.1 r'.2.2.2.2.2.2.1 ∧ R r.2.2.2.2.2.2.2 r'.2.2.2.2.2.2.2

theorem foldl_rel (hadd : ∀ a a' b b', R a a' → R b b' → R (a +. b) (a' +. b')) {l : List F} {l' : List G}
    (h : List.Forall₂ R l l') {s : F} {s' : G} (hs : R s s') :
    R (l.foldl (· +. ·) s) (l'.foldl (· +. ·) s') := by
  induction h generalizing s s' with
  | nil => exact hs
  | cons h _ ih => exact ih (hadd _ _ _ _ hs h)

omit [Num F] [Num G] in
/-- a list with eight elements at least is related to such lists only -/
theorem forall₂_eight {l : List F} {l' : List G} (h : List.Forall₂ R l l') :
    (∃ a b c d e f g i k a' b' c' d' e' f' g' i' k',
      l = a :: b :: c :: d :: e :: f :: g :: i :: k ∧
      l' = a' :: b' :: c' :: d' :: e' :: f' :: g' :: i' :: k' ∧
      LanesRel R (a, b, c, d, e, f, g, i) (a', b', c', d', e', f', g', i') ∧ List.Forall₂ R k k') ∨
    l.length < 8 ∧ l'.length < 8 := by
  have hl := h.length_eq
  by_cases h8 : l.length < 8
  · exact Or.inr ⟨h8, hl ▸ h8⟩
  · left
    match h with
    | .cons h1 (.cons h2 (.cons h3 (.cons h4 (.cons h5 (.cons h6 (.cons h7 (.cons h8' hk))))))) =>
      exact ⟨_, _, _, _, _, _, _, _, _, _, _, _, _, _, _, _, _, _, rfl, rfl,
        ⟨h1, h2, h3, h4, h5, h6, h7, h8'⟩, hk⟩
    | .nil => simp at h8
    | .cons _ .nil => simp at h8
    | .cons _ (.cons _ .nil) => simp at h8
    | .cons _ (.cons _ (.cons _ .nil)) => simp at h8
    | .cons _ (.cons _ (.cons _ (.cons _ .nil))) => simp at h8
    | .cons _ (.cons _ (.cons _ (.cons _ (.cons _ .nil)))) => simp at h8
    | .cons _ (.cons _ (.cons _ (.cons _ (.cons _ (.cons _ .nil))))) => simp at h8
    | .cons _ (.cons _ (.cons _ (.cons _ (.cons _ (.cons _ (.cons _ .nil)))))) => simp at h8

theorem lanes_short {r : F × F × F × F × F × F × F × F} {l : List F} (h : l.length < 8) :
    lanes r l = (r, l) := by
  refine lanes.eq_2 _ _ ?_
  rintro a b c d e f g i k rfl
  simp at h
  omega

theorem lanesSum_short {l : List F} (h : l.length < 8) :
    lanesSum l = l.foldl (· +. ·) (Num.ofRat 0) := by
  unfold lanesSum
  split
  · simp at h
    omega
  · rfl

theorem lanes_rel (hadd : ∀ a a' b b', R a a' → R b b' → R (a +. b) (a' +. b')) :
    ∀ (n : Nat) {l : List F} {l' : List G} {r : F × F × F × F × F × F × F × F}
      {r' : G × G × G × G × G × G × G × G}, l.length ≤ n →
      List.Forall₂ R l l' → LanesRel R r r' →
      LanesRel R (lanes r l).1 (lanes r' l').1 ∧ List.Forall₂ R (lanes r l).2 (lanes r' l').2 := by
  intro n
  induction n with
  | zero =>
    intro l l' r r' hn h hr
    have : l.length < 8 := by omega
    rw [lanes_short this, lanes_short (h.length_eq ▸ this)]
    exact ⟨hr, h⟩
  | succ n ih =>
    intro l l' r r' hn h hr
    rcases forall₂_eight h with ⟨a, b, c, d, e, f, g, i, k, a', b', c', d', e', f', g', i', k', rfl, rfl,
      ⟨h1, h2, h3, h4, h5, h6, h7, h8⟩, hk⟩ | ⟨h1, h2⟩
    · obtain ⟨r1, r2, r3, r4, r5, r6, r7, r8⟩ := hr
      rw [lanes, lanes]
      refine ih (by simp at hn; omega) hk ⟨?_, ?_, ?_, ?_, ?_, ?_, ?_, ?_⟩
      exacts [hadd _ _ _ _ r1 h1, hadd _ _ _ _ r2 h2, hadd _ _ _ _ r3 h3, hadd _ _ _ _ r4 h4,
        hadd _ _ _ _ r5 h5, hadd _ _ _ _ r6 h6, hadd _ _ _ _ r7 h7, hadd _ _ _ _ r8 h8]
    · rw [lanes_short h1, lanes_short h2]
      exact ⟨hr, h⟩

theorem lanesSum_rel (h0 : R (Num.ofRat 0) (Num.ofRat 0))
    (hadd : ∀ a a' b b', R a a' → R b b' → R (a +. b) (a' +. b')) {l : List F} {l' : List G}
    (h : List.Forall₂ R l l') : R (lanesSum l) (lanesSum l') := by
  rcases forall₂_eight h with ⟨a, b, c, d, e, f, g, i, k, a', b', c', d', e', f', g', i', k', rfl, rfl,
    hr, hk⟩ | ⟨h1, h2⟩
  · obtain ⟨⟨r1, r2, r3, r4, r5, r6, r7, r8⟩, h2⟩ := lanes_rel hadd _ le_rfl hk hr
    exact foldl_rel hadd h2 (hadd _ _ _ _ (hadd _ _ _ _ (hadd _ _ _ _ r1 r2) (hadd _ _ _ _ r3 r4))
      (hadd _ _ _ _ (hadd _ _ _ _ r5 r6) (hadd _ _ _ _ r7 r8)))
  · rw [lanesSum_short h1, lanesSum_short h2]
    exact foldl_rel hadd h h0

theorem pairwiseSum_rel (h0 : R (Num.ofRat 0) (Num.ofRat 0))
    (hadd : ∀ a a' b b', R a a' → R b b' → R (a +. b) (a' +. b')) {l : List F} {l' : List G}
    (h : List.Forall₂ R l l') : R (pairwiseSum l) (pairwiseSum l') := by
  induction l using pairwiseSum.induct generalizing l' with
  | case1 l hn =>
    rw [pairwiseSum, dif_pos hn, pairwiseSum, dif_pos (h.length_eq ▸ hn)]
    exact lanesSum_rel h0 hadd h
  | case2 l hn n2 ih1 =>
    rename_i ih2
    have e : l'.length / 2 - l'.length / 2 % 8 = n2 := by rw [← h.length_eq]
    rw [pairwiseSum, dif_neg hn, pairwiseSum, dif_neg (h.length_eq ▸ hn), e]
    exact hadd _ _ _ _ (ih1 (List.forall₂_take _ h)) (ih2 (List.forall₂_drop _ h))

theorem npSum_rel (h0 : R (Num.ofRat 0) (Num.ofRat 0))
    (hadd : ∀ a a' b b', R a a' → R b b' → R (a +. b) (a' +. b')) {l : List F} {l' : List G}
    (h : List.Forall₂ R l l') : R (npSum l) (npSum l') :=
  hadd _ _ _ _ h0 (pairwiseSum_rel h0 hadd h)

end

theorem not_lt_self {fmt : Fmt} (a : Flt fmt) : (a <. a) = false := by
  rw [lt_false_iff]
  unfold Ext.NotGt
  cases toExt a <;> simp [Ext.le]

/-- a larger number in place of another never makes the sum smaller -/
def SumMono {fmt : Fmt} (sm : List (Flt fmt) → Flt fmt) : Prop :=
  ∀ l l', List.Forall₂ (fun a a' => (a' <. a) = false) l l' → (sm l' <. sm l) = false

theorem sumMono_leftFold {fmt : Fmt} : SumMono (Num.sum : List (Flt fmt) → Flt fmt) :=
  fun _ _ h => foldl_rel (R := fun a a' : Flt fmt => (a' <. a) = false)
    (fun _ _ _ _ h1 h2 => lt_add h1 h2) h (not_lt_self _)

theorem sumMono_npSum {fmt : Fmt} : SumMono (npSum : List (Flt fmt) → Flt fmt) :=
  fun _ _ h => npSum_rel (R := fun a a' : Flt fmt => (a' <. a) = false) (not_lt_self _)
    (fun _ _ _ _ h1 h2 => lt_add h1 h2) h

theorem Added.not_neg {fmt : Fmt} {l : List (Flt fmt)} {s : Flt fmt} (h : Added l s)
    (hl : ∀ a ∈ l, (a <. Num.ofRat 0) = false) : (s <. Num.ofRat 0) = false := by
  induction h with
  | nil => exact not_lt_self _
  | one a => exact hl a (by simp)
  | zero _ ih => exact add_not_neg (not_lt_self _) (ih hl)
  | add hp _ _ _ _ ih1 ih2 =>
    refine add_not_neg (ih1 fun a ha => hl a ?_) (ih2 fun a ha => hl a ?_) <;>
      simp [hp.mem_iff, ha]

end GChop
