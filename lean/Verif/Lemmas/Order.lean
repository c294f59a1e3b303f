import Verif.Np
import Mathlib.Tactic.Common
import Mathlib.Data.List.Basic

/-!
# Consequences of the IEEE comparison laws; minima and maxima
-/

set_option linter.unusedSectionVars false

namespace GChop

section ord
variable {F : Type} [Num F] [NumOrd F]

theorem le_refl' {a : F} (h : Num.isNaN a = false) : (a <=. a) = true := by
  rcases NumOrd.le_total h h with h | h <;> exact h

theorem lt_iff {a b : F} : (a <. b) = true ↔ (a <=. b) = true ∧ (b <=. a) = false := by
  rw [NumOrd.lt_def]; simp

theorem le_of_lt' {a b : F} (h : (a <. b) = true) : (a <=. b) = true := (lt_iff.1 h).1

theorem lt_irrefl' (a : F) : (a <. a) = false := by
  rw [NumOrd.lt_def]; cases (a <=. a) <;> rfl

theorem not_lt_of_le {a b : F} (h : (a <=. b) = true) : (b <. a) = false := by
  rw [NumOrd.lt_def, h]; simp

theorem le_of_not_lt {a b : F} (ha : Num.isNaN a = false) (hb : Num.isNaN b = false)
    (h : (b <. a) = false) : (a <=. b) = true := by
  rw [NumOrd.lt_def] at h
  rcases NumOrd.le_total ha hb with h1 | h1
  · exact h1
  · rw [h1] at h; simpa using h

theorem lt_of_not_le {a b : F} (ha : Num.isNaN a = false) (hb : Num.isNaN b = false)
    (h : (a <=. b) = false) : (b <. a) = true := by
  rcases NumOrd.le_total ha hb with h1 | h1
  · rw [h1] at h; cases h
  · rw [NumOrd.lt_def, h1, h]; rfl

theorem lt_of_lt_of_le' {a b c : F} (h1 : (a <. b) = true) (h2 : (b <=. c) = true) :
    (a <. c) = true := by
  obtain ⟨h, h'⟩ := lt_iff.1 h1
  refine lt_iff.2 ⟨NumOrd.le_trans h h2, ?_⟩
  cases hc : (c <=. a) with
  | false => rfl
  | true => rw [NumOrd.le_trans h2 hc] at h'; exact h'

theorem lt_of_le_of_lt' {a b c : F} (h1 : (a <=. b) = true) (h2 : (b <. c) = true) :
    (a <. c) = true := by
  obtain ⟨h, h'⟩ := lt_iff.1 h2
  refine lt_iff.2 ⟨NumOrd.le_trans h1 h, ?_⟩
  cases hc : (c <=. a) with
  | false => rfl
  | true => rw [NumOrd.le_trans hc h1] at h'; exact h'

theorem not_nan_of_lt {a b : F} (h : (a <. b) = true) :
    Num.isNaN a = false ∧ Num.isNaN b = false := NumOrd.not_nan_of_le (le_of_lt' h)

theorem le_nan_left {a b : F} (h : Num.isNaN a = true) : (a <=. b) = false := by
  cases hc : (a <=. b) with
  | false => rfl
  | true => rw [(NumOrd.not_nan_of_le hc).1] at h; cases h

theorem le_nan_right {a b : F} (h : Num.isNaN b = true) : (a <=. b) = false := by
  cases hc : (a <=. b) with
  | false => rfl
  | true => rw [(NumOrd.not_nan_of_le hc).2] at h; cases h

theorem lt_nan_left {a b : F} (h : Num.isNaN a = true) : (a <. b) = false := by
  rw [NumOrd.lt_def, le_nan_left h]; rfl

theorem lt_nan_right {a b : F} (h : Num.isNaN b = true) : (a <. b) = false := by
  rw [NumOrd.lt_def, le_nan_right h]; rfl

theorem not_nan_of_finite {a : F} (h : Num.isFinite a = true) : Num.isNaN a = false :=
  NumOrd.finite_not_nan h

end ord

/-! ### `argBestAux` -/

section best
variable {F : Type}

/-- `x` at position `i` is the first best element of `l` -/
def FirstBest (better : F → F → Bool) (l : List F) (i : Nat) (x : F) : Prop :=
  l[i]? = some x ∧ ∀ j y, l[j]? = some y → better y x = false ∧ (j < i → better x y = true)

/-- what `argBestAux` needs from the comparison -/
structure IsBetter (better : F → F → Bool) : Prop where
  asymm : ∀ {x y}, better x y = true → better y x = false
  trans : ∀ {x y z}, better x y = true → better z y = false → better x z = true

theorem argBestAux_spec {better : F → F → Bool} (hb : IsBetter better) (xs pre : List F)
    (bi : Nat) (bx : F) (h : FirstBest better pre bi bx) :
    FirstBest better (pre ++ xs) (Np.argBestAux better xs pre.length (bi, bx)).1
      (Np.argBestAux better xs pre.length (bi, bx)).2 := by
  induction xs generalizing pre bi bx with
  | nil => simpa [Np.argBestAux] using h
  | cons x xs ih =>
    have hirr : better x x = false := by
      cases hc : better x x with
      | false => rfl
      | true => exact (hb.asymm hc) ▸ hc.symm ▸ rfl
    obtain ⟨hget, hall⟩ := h
    have hbi : bi < pre.length := by
      by_contra hn
      rw [List.getElem?_eq_none (not_lt.1 hn)] at hget
      cases hget
    have happ : pre ++ x :: xs = (pre ++ [x]) ++ xs := by simp
    rw [happ]
    have hlen : (pre ++ [x]).length = pre.length + 1 := by simp
    simp only [Np.argBestAux]
    by_cases hx : better x bx = true
    · simp only [hx, if_true]
      rw [← hlen]
      apply ih
      refine ⟨by simp, ?_⟩
      intro j y hj
      rcases lt_trichotomy j pre.length with hlt | heq | hgt
      · rw [List.getElem?_append_left hlt] at hj
        obtain ⟨h1, _⟩ := hall j y hj
        have h2 := hb.trans hx h1
        exact ⟨hb.asymm h2, fun _ => h2⟩
      · subst heq
        simp at hj
        subst hj
        exact ⟨hirr, fun h => absurd h (lt_irrefl _)⟩
      · rw [List.getElem?_eq_none (by simp; omega)] at hj
        cases hj
    · have hx' : better x bx = false := by simpa using hx
      simp only [hx', Bool.false_eq_true, if_false]
      rw [← hlen]
      apply ih
      refine ⟨by rw [List.getElem?_append_left hbi]; exact hget, ?_⟩
      intro j y hj
      rcases lt_trichotomy j pre.length with hlt | heq | hgt
      · rw [List.getElem?_append_left hlt] at hj
        exact hall j y hj
      · subst heq
        simp at hj
        subst hj
        exact ⟨hx', fun h => by omega⟩
      · rw [List.getElem?_eq_none (by simp; omega)] at hj
        cases hj

theorem argBest_cons {better : F → F → Bool} (hb : IsBetter better) (x : F) (xs : List F) :
    FirstBest better (x :: xs) (Np.argBestAux better xs 1 (0, x)).1
      (Np.argBestAux better xs 1 (0, x)).2 := by
  have := argBestAux_spec hb xs [x] 0 x ⟨rfl, by
    intro j y hj
    cases j with
    | zero =>
      simp at hj; subst hj
      refine ⟨?_, fun h => absurd h (lt_irrefl _)⟩
      cases hc : better x x with
      | false => rfl
      | true => exact (hb.asymm hc) ▸ hc.symm ▸ rfl
    | succ j => simp at hj⟩
  simpa using this

end best

section argmin
variable {F : Type} [Num F] [NumOrd F]

theorem isBetter_min : IsBetter (F := F)
    (fun n o => !Num.isNaN o && (Num.isNaN n || (n <. o))) where
  asymm := by
    intro x y h
    simp only [Bool.and_eq_true, Bool.not_eq_true', Bool.or_eq_true, Bool.and_eq_false_iff,
      Bool.not_eq_false', Bool.or_eq_false_iff] at h ⊢
    obtain ⟨h1, h2 | h2⟩ := h
    · exact Or.inl h2
    · exact Or.inr ⟨h1, not_lt_of_le (le_of_lt' h2)⟩
  trans := by
    intro x y z h1 h2
    simp only [Bool.and_eq_true, Bool.not_eq_true', Bool.or_eq_true, Bool.and_eq_false_iff,
      Bool.not_eq_false', Bool.or_eq_false_iff] at h1 h2 ⊢
    obtain ⟨hy, hx⟩ := h1
    rcases h2 with h2 | ⟨hz, hzy⟩
    · rw [hy] at h2; cases h2
    · refine ⟨hz, hx.imp id fun hxy => lt_of_lt_of_le' hxy (le_of_not_lt hy hz hzy)⟩

theorem isBetter_max : IsBetter (F := F)
    (fun n o => !Num.isNaN o && (Num.isNaN n || (o <. n))) where
  asymm := by
    intro x y h
    simp only [Bool.and_eq_true, Bool.not_eq_true', Bool.or_eq_true, Bool.and_eq_false_iff,
      Bool.not_eq_false', Bool.or_eq_false_iff] at h ⊢
    obtain ⟨h1, h2 | h2⟩ := h
    · exact Or.inl h2
    · exact Or.inr ⟨h1, not_lt_of_le (le_of_lt' h2)⟩
  trans := by
    intro x y z h1 h2
    simp only [Bool.and_eq_true, Bool.not_eq_true', Bool.or_eq_true, Bool.and_eq_false_iff,
      Bool.not_eq_false', Bool.or_eq_false_iff] at h1 h2 ⊢
    obtain ⟨hy, hx⟩ := h1
    rcases h2 with h2 | ⟨hz, hzy⟩
    · rw [hy] at h2; cases h2
    · refine ⟨hz, hx.imp id fun hxy => lt_of_le_of_lt' (le_of_not_lt hz hy hzy) hxy⟩

/-- `np.argmin` of a list without NaN is the position of the first minimum. -/
theorem argmin_spec {l : List F} (hn : ∀ a ∈ l, Num.isNaN a = false) (hne : l ≠ []) :
    ∃ i x, Np.argmin l = .ok i ∧ l[i]? = some x ∧
      ∀ j y, l[j]? = some y → (x <=. y) = true ∧ (j < i → (x <. y) = true) := by
  cases l with
  | nil => exact absurd rfl hne
  | cons a l =>
    obtain ⟨h1, h2⟩ := argBest_cons isBetter_min a l
    refine ⟨_, _, rfl, h1, ?_⟩
    intro j y hj
    obtain ⟨h3, h4⟩ := h2 j y hj
    have hy : Num.isNaN y = false := hn y (List.mem_of_getElem? hj)
    have hx := hn _ (List.mem_of_getElem? h1)
    simp only [hx, hy, Bool.not_false, Bool.false_or, Bool.true_and] at h3 h4
    exact ⟨le_of_not_lt hx hy h3, h4⟩

/-- `np.argmax` of a list without NaN is the position of the first maximum. -/
theorem argmax_spec {l : List F} (hn : ∀ a ∈ l, Num.isNaN a = false) (hne : l ≠ []) :
    ∃ i x, Np.argmax l = .ok i ∧ l[i]? = some x ∧
      ∀ j y, l[j]? = some y → (y <=. x) = true ∧ (j < i → (y <. x) = true) := by
  cases l with
  | nil => exact absurd rfl hne
  | cons a l =>
    obtain ⟨h1, h2⟩ := argBest_cons isBetter_max a l
    refine ⟨_, _, rfl, h1, ?_⟩
    intro j y hj
    obtain ⟨h3, h4⟩ := h2 j y hj
    have hy : Num.isNaN y = false := hn y (List.mem_of_getElem? hj)
    have hx := hn _ (List.mem_of_getElem? h1)
    simp only [hx, hy, Bool.not_false, Bool.false_or, Bool.true_and] at h3 h4
    exact ⟨le_of_not_lt hy hx h3, h4⟩

end argmin

section minmax
variable {F : Type} [Num F] [NumOrd F]

theorem foldl_min2 (xs : List F) (x : F) (hx : Num.isNaN x = false)
    (hn : ∀ a ∈ xs, Num.isNaN a = false) :
    xs.foldl Np.min2 x ∈ x :: xs ∧ ∀ a ∈ x :: xs, (xs.foldl Np.min2 x <=. a) = true := by
  induction xs generalizing x with
  | nil => exact ⟨by simp, by intro a ha; simp at ha; subst ha; exact le_refl' hx⟩
  | cons y xs ih =>
    have hy := hn y (by simp)
    have hxs : ∀ a ∈ xs, Num.isNaN a = false := fun a ha => hn a (by simp [ha])
    rw [List.foldl_cons]
    cases hc : (y <. x) with
    | true =>
      have h2 : Np.min2 x y = y := by simp [Np.min2, hx, hy, hc]
      rw [h2]
      obtain ⟨h3, h4⟩ := ih y hy hxs
      refine ⟨List.mem_cons_of_mem _ h3, ?_⟩
      intro a ha
      rcases List.mem_cons.1 ha with rfl | ha
      · exact NumOrd.le_trans (h4 y (by simp)) (le_of_lt' hc)
      · exact h4 a ha
    | false =>
      have h2 : Np.min2 x y = x := by simp [Np.min2, hx, hy, hc]
      rw [h2]
      obtain ⟨h3, h4⟩ := ih x hx hxs
      refine ⟨?_, ?_⟩
      · rcases List.mem_cons.1 h3 with h | h
        · rw [h]; simp
        · simp [h]
      · intro a ha
        rcases List.mem_cons.1 ha with rfl | ha
        · exact h4 _ (by simp)
        · rcases List.mem_cons.1 ha with rfl | ha
          · exact NumOrd.le_trans (h4 x (by simp)) (le_of_not_lt hx hy hc)
          · exact h4 a (by simp [ha])

theorem foldl_max2 (xs : List F) (x : F) (hx : Num.isNaN x = false)
    (hn : ∀ a ∈ xs, Num.isNaN a = false) :
    xs.foldl Np.max2 x ∈ x :: xs ∧ ∀ a ∈ x :: xs, (a <=. xs.foldl Np.max2 x) = true := by
  induction xs generalizing x with
  | nil => exact ⟨by simp, by intro a ha; simp at ha; subst ha; exact le_refl' hx⟩
  | cons y xs ih =>
    have hy := hn y (by simp)
    have hxs : ∀ a ∈ xs, Num.isNaN a = false := fun a ha => hn a (by simp [ha])
    rw [List.foldl_cons]
    cases hc : (x <. y) with
    | true =>
      have h2 : Np.max2 x y = y := by simp [Np.max2, hx, hy, hc]
      rw [h2]
      obtain ⟨h3, h4⟩ := ih y hy hxs
      refine ⟨List.mem_cons_of_mem _ h3, ?_⟩
      intro a ha
      rcases List.mem_cons.1 ha with rfl | ha
      · exact NumOrd.le_trans (le_of_lt' hc) (h4 y (by simp))
      · exact h4 a ha
    | false =>
      have h2 : Np.max2 x y = x := by simp [Np.max2, hx, hy, hc]
      rw [h2]
      obtain ⟨h3, h4⟩ := ih x hx hxs
      refine ⟨?_, ?_⟩
      · rcases List.mem_cons.1 h3 with h | h
        · rw [h]; simp
        · simp [h]
      · intro a ha
        rcases List.mem_cons.1 ha with rfl | ha
        · exact h4 _ (by simp)
        · rcases List.mem_cons.1 ha with rfl | ha
          · exact NumOrd.le_trans (le_of_not_lt hy hx hc) (h4 x (by simp))
          · exact h4 a (by simp [ha])

/-- `np.min` of a list without NaN -/
theorem amin_spec {l : List F} {m : F} (hn : ∀ a ∈ l, Num.isNaN a = false)
    (h : Np.amin l = .ok m) : m ∈ l ∧ ∀ a ∈ l, (m <=. a) = true := by
  cases l with
  | nil => cases h
  | cons x xs =>
    cases h
    exact foldl_min2 xs x (hn x (by simp)) fun a ha => hn a (by simp [ha])

/-- `np.max` of a list without NaN -/
theorem amax_spec {l : List F} {m : F} (hn : ∀ a ∈ l, Num.isNaN a = false)
    (h : Np.amax l = .ok m) : m ∈ l ∧ ∀ a ∈ l, (a <=. m) = true := by
  cases l with
  | nil => cases h
  | cons x xs =>
    cases h
    exact foldl_max2 xs x (hn x (by simp)) fun a ha => hn a (by simp [ha])

end minmax

theorem amin_ok {F : Type} [Num F] {l : List F} (h : l ≠ []) : ∃ m, Np.amin l = .ok m := by
  cases l with
  | nil => exact absurd rfl h
  | cons x xs => exact ⟨_, rfl⟩

theorem amax_ok {F : Type} [Num F] {l : List F} (h : l ≠ []) : ∃ m, Np.amax l = .ok m := by
  cases l with
  | nil => exact absurd rfl h
  | cons x xs => exact ⟨_, rfl⟩

section argrange
variable {F : Type} [Num F]

/-- the position returned is in range, whatever the comparison -/
theorem argBestAux_lt (better : F → F → Bool) (xs : List F) (k bi : Nat) (bx : F) (h : bi < k) :
    (Np.argBestAux better xs k (bi, bx)).1 < k + xs.length := by
  induction xs generalizing k bi bx with
  | nil => simpa [Np.argBestAux] using h
  | cons x xs ih =>
    simp only [Np.argBestAux, List.length_cons]
    split
    · have := ih (k + 1) k x (by omega); omega
    · have := ih (k + 1) bi bx (by omega); omega

theorem argmin_lt {l : List F} {i : Nat} (h : Np.argmin l = .ok i) : i < l.length := by
  cases l with
  | nil => cases h
  | cons a l =>
    cases h
    have := argBestAux_lt (fun n o => !Num.isNaN o && (Num.isNaN n || (n <. o))) l 1 0 a (by omega)
    simpa [Nat.add_comm] using this

theorem argmax_lt {l : List F} {i : Nat} (h : Np.argmax l = .ok i) : i < l.length := by
  cases l with
  | nil => cases h
  | cons a l =>
    cases h
    have := argBestAux_lt (fun n o => !Num.isNaN o && (Num.isNaN n || (o <. n))) l 1 0 a (by omega)
    simpa [Nat.add_comm] using this

end argrange
end GChop
