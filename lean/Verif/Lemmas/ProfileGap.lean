import Verif.Lemmas.Profile

/-!
# Two points of the circular-orbit profile are separated by a bin edge
-/

set_option linter.unusedSectionVars false

namespace GChop

variable {α : Type} {F : Type} [Num F] [NumOrd F]

/-- an edge of the list is between the two points -/
def Apart (aux : List F) (p q : F × F) : Prop :=
  ∃ t ∈ aux, (p.1 <=. t) = true ∧ (t <. q.1) = true

theorem innerPoints_apart {env : CircEnv F} (hs : Np.ArgsortOK env.argsort) (l : List α)
    (e j : α → F) (aux : List F) (haux : aux.Pairwise fun a b => (a <. b) = true) :
    ((innerPoints env (l.map e) (l.map j) aux).filter nz).Pairwise (Apart aux) := by
  match aux with
  | [] => simp [innerPoints]
  | [a] => simp [innerPoints]
  | lo :: hi :: aux =>
    have ih := (innerPoints_apart hs l e j (hi :: aux) (List.pairwise_cons.1 haux).2).imp
      fun {p q} (h : Apart (hi :: aux) p q) =>
        (show Apart (lo :: hi :: aux) p q from
          let ⟨t, ht, h⟩ := h
          ⟨t, List.mem_cons_of_mem _ ht, h⟩)
    have hb := (innerPoints_sorted hs l e j (hi :: aux) (List.pairwise_cons.1 haux).2).2
    rw [innerPoints, List.filter_cons]
    rcases binPoint_spec hs l e j lo hi with ⟨_, h⟩ | ⟨a, _, h1, h2, h⟩
    · rw [h]
      simp only [nz, zero_eq_zero, Bool.not_true, Bool.false_eq_true, if_false]
      exact ih
    · rw [h]
      split
      · exact List.pairwise_cons.2 ⟨fun q hq => ⟨hi, by simp, h1, (hb q hq).1 hi rfl⟩, ih⟩
      · exact ih

theorem profile_apart {env : CircEnv F} (hs : Np.ArgsortOK env.argsort) (l : List α) (e j : α → F)
    (aux : List F) (ha : EdgesOK aux) (pts : List (F × F)) (hl : l ≠ [])
    (h : profile env aux (l.map e) (l.map j) = .ok pts) : pts.Pairwise (Apart aux) := by
  obtain ⟨hsort, lo, hlo, hle⟩ := ha
  obtain ⟨top, ht⟩ : ∃ top, aux.getLast? = some top := by
    cases aux with
    | nil => cases hlo
    | cons a l => exact ⟨_, List.getLast?_eq_some_getLast (by simp)⟩
  have hlotop : (lo <=. top) = true := by
    cases aux with
    | nil => cases hlo
    | cons a r =>
      cases hlo
      rcases List.mem_cons.1 (List.mem_of_getLast? ht) with rfl | hm
      · exact le_refl' (NumOrd.not_nan_of_le hle).2
      · exact le_of_lt' ((List.pairwise_cons.1 hsort).1 _ hm)
  have hlomem : lo ∈ aux := List.mem_of_mem_head? hlo
  have htopmem : top ∈ aux := List.mem_of_getLast? ht
  have h1 := innerPoints_apart hs l e j aux hsort
  have h2 := (innerPoints_sorted hs l e j aux hsort).2
  have hfirst : ∀ y : F, nz ((Num.ofRat (-1) : F), y) = true := by
    intro y
    have := lt_iff.1 (NumOrd.neg_one_lt_zero (F := F))
    unfold nz
    rw [NumOrd.eq_def, this.2]; simp
  have hall : ∀ y0 : F, ∀ last : F × F, (nz last = true → (top <. last.1) = true) →
      ((slots (Num.ofRat (-1), y0) (innerPoints env (l.map e) (l.map j) aux) last).filter nz).Pairwise
        (Apart aux) := by
    intro y0 last hlast
    unfold slots
    rw [List.filter_append, List.filter_cons, if_pos (hfirst y0), List.cons_append]
    refine List.pairwise_cons.2 ⟨?_, ?_⟩
    · intro q hq
      rcases List.mem_append.1 hq with hq' | hq'
      · exact ⟨lo, hlomem, hle, (h2 q hq').1 lo hlo⟩
      · simp only [List.mem_filter, List.mem_singleton] at hq'
        obtain ⟨rfl, hz⟩ := hq'
        exact ⟨top, htopmem, NumOrd.le_trans hle hlotop, hlast hz⟩
    · refine List.pairwise_append.2 ⟨h1, ?_, ?_⟩
      · rw [List.filter_singleton]
        cases nz last <;> simp
      · intro p hp q hq
        simp only [List.mem_filter, List.mem_singleton] at hq
        obtain ⟨rfl, hq⟩ := hq
        exact ⟨top, htopmem, (h2 p hp).2 top ht, hlast hq⟩
  obtain ⟨a0, i0, _, _, hcase⟩ := profile_eq (env := env) l e j aux top hl ht
  rcases hcase with ⟨a, _, hta, _, hp⟩ | ⟨_, hp⟩
  · rw [hp] at h
    cases h
    exact hall _ _ fun _ => hta
  · rw [hp] at h
    cases h
    refine List.Pairwise.sublist ?_ (hall (Num.abs (j a0)) (Num.ofRat 0, Num.ofRat 0) ?_)
    · exact (List.take_sublist _ _).filter _
    · intro hz
      simp [nz, zero_eq_zero] at hz

end GChop
