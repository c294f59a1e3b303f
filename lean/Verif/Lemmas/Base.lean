import Verif.Base
import Verif.Lemmas.Frame
import Verif.Lemmas.Np
import Verif.Lemmas.Circ

/-!
# Lemmas about the frames built by the decomposers
-/

namespace GChop
open Pd

set_option linter.unusedSectionVars false

variable {F : Type} [Num F]

theorem Dict.set_map_eq {ν : Type} (l : List String) (f : String → ν) (k : String) (v : ν)
    (hk : k ∈ l) (hn : l.Nodup) :
    Dict.set (l.map fun a => (a, f a)) k v = l.map fun a => (a, if a = k then v else f a) := by
  induction l with
  | nil => cases hk
  | cons a l ih =>
    rw [List.nodup_cons] at hn
    simp only [List.map_cons, Dict.set]
    by_cases h : a = k
    · subst h
      rw [if_pos rfl, if_pos rfl]
      congr 1
      apply List.map_congr_left
      intro b hb
      rw [if_neg (by rintro rfl; exact hn.1 hb)]
    · rw [if_neg h, if_neg h, ih ((List.mem_cons.1 hk).resolve_left (Ne.symm h)) hn.2]

theorem collectColumns_gen (makers : Dict String (Col F)) (c : String → Col F)
    (attrs acc : List String) (h : ∀ a ∈ attrs, Dict.get? makers a = some (c a)) :
    ParticleSet.collectColumns makers attrs (acc.map fun a => (a, c a))
      = .ok ((attrs.foldl (fun acc a => if acc.contains a then acc else acc ++ [a]) acc).map
          fun a => (a, c a)) := by
  induction attrs generalizing acc with
  | nil => rfl
  | cons a attrs ih =>
    have h1 : Dict.getItem makers a = .ok (c a) := by
      unfold Dict.getItem; rw [h a (by simp)]
    simp only [ParticleSet.collectColumns, h1, Py.ok_bind, List.foldl_cons]
    have ih' := fun acc => ih acc (fun b hb => h b (by simp [hb]))
    by_cases hm : a ∈ acc
    · rw [Dict.set_map_mem acc c a hm, ih']
      simp [hm]
    · rw [Dict.set_map_not_mem acc c a hm, ih']
      simp [hm]

theorem foldl_set_const (attrs acc : List String) (v : Col F) :
    attrs.foldl (fun d a => Dict.set d a v) (acc.map fun a => (a, v))
      = (attrs.foldl (fun acc a => if acc.contains a then acc else acc ++ [a]) acc).map
          fun a => (a, v) := by
  induction attrs generalizing acc with
  | nil => rfl
  | cons a attrs ih =>
    simp only [List.foldl_cons]
    by_cases hm : a ∈ acc
    · rw [Dict.set_map_mem acc (fun _ => v) a hm, ih]
      simp [hm]
    · rw [Dict.set_map_not_mem acc (fun _ => v) a hm, ih]
      simp [hm]

/-- the length of an array column; scalars adapt -/
def fits (n : Nat) : Col F → Prop
  | .arr l => l.length = n
  | .scalar _ => True

/-- the column is an array -/
def isArr : Col F → Prop
  | .arr _ => True
  | .scalar _ => False

theorem mem_arrLens (S : List String) (c : String → Col F) (n m : Nat)
    (h : ∀ a ∈ S, fits n (c a)) (hm : m ∈ arrLens (S.map fun a => (a, c a))) : m = n := by
  induction S with
  | nil => cases hm
  | cons a S ih =>
    have ha := h a (by simp)
    have ih' := ih (fun b hb => h b (by simp [hb]))
    simp only [List.map_cons] at hm
    cases hc : c a with
    | arr l =>
      rw [hc] at ha hm
      simp only [arrLens, List.mem_cons] at hm
      rcases hm with hm | hm
      · rw [hm]; exact ha
      · exact ih' hm
    | scalar x =>
      rw [hc] at hm
      simp only [arrLens] at hm
      exact ih' hm

theorem arrLens_ne_nil (S : List String) (c : String → Col F)
    (h : ∃ a ∈ S, isArr (c a)) : arrLens (S.map fun a => (a, c a)) ≠ [] := by
  induction S with
  | nil => obtain ⟨a, ha, _⟩ := h; cases ha
  | cons a S ih =>
    simp only [List.map_cons]
    cases hc : c a with
    | arr l => simp [arrLens]
    | scalar x =>
      simp only [arrLens]
      apply ih
      obtain ⟨b, hb, hb2⟩ := h
      rcases List.mem_cons.1 hb with rfl | hb
      · rw [hc] at hb2; exact hb2.elim
      · exact ⟨b, hb, hb2⟩

theorem ofDict_uniform (S : List String) (c : String → Col F) (n : Nat)
    (h : ∀ a ∈ S, fits n (c a)) (h2 : ∃ a ∈ S, isArr (c a)) :
    ofDict (S.map fun a => (a, c a)) = .ok ⟨S.map fun a => (a, expand n (c a)), n⟩ := by
  have hm := mem_arrLens S c n
  have hne := arrLens_ne_nil S c h2
  unfold ofDict
  cases hl : arrLens (S.map fun a => (a, c a)) with
  | nil => exact absurd hl hne
  | cons m ms =>
    rw [hl] at hm
    have e : m = n := hm m h (by simp)
    subst e
    have hall : (ms.all (· == m)) = true := by
      rw [List.all_eq_true]
      intro k hk
      simp [hm k h (by simp [hk])]
    simp only [hall, if_true, List.map_map]
    rfl

theorem length_mem_arrLens (S : List String) (c : String → Col F) (a : String)
    (la : List (Cell F)) (ha : a ∈ S) (hca : c a = .arr la) :
    la.length ∈ arrLens (S.map fun a => (a, c a)) := by
  induction S with
  | nil => cases ha
  | cons s S ih =>
    simp only [List.map_cons]
    rcases List.mem_cons.1 ha with rfl | ha
    · rw [hca]; simp [arrLens]
    · cases hc : c s with
      | arr l => simp only [arrLens]; exact List.mem_cons_of_mem _ (ih ha)
      | scalar x => simp only [arrLens]; exact ih ha

theorem ofDict_lengths_differ (S : List String) (c : String → Col F) (a b : String)
    (la lb : List (Cell F)) (ha : a ∈ S) (hb : b ∈ S) (hca : c a = .arr la) (hcb : c b = .arr lb)
    (hne : la.length ≠ lb.length) :
    ofDict (S.map fun a => (a, c a)) = .error .valueError := by
  have h1 := length_mem_arrLens S c a la ha hca
  have h2 := length_mem_arrLens S c b lb hb hcb
  unfold ofDict
  cases hl : arrLens (S.map fun a => (a, c a)) with
  | nil => rw [hl] at h1; cases h1
  | cons m ms =>
    rw [hl] at h1 h2
    have : (ms.all (· == m)) = false := by
      rw [Bool.eq_false_iff]
      intro hall
      rw [List.all_eq_true] at hall
      have h1' : la.length = m := by
        rcases List.mem_cons.1 h1 with h | h
        · exact h
        · simpa using hall _ h
      have h2' : lb.length = m := by
        rcases List.mem_cons.1 h2 with h | h
        · exact h
        · simpa using hall _ h
      exact hne (h1'.trans h2'.symm)
    simp [this]

/-- a frame with named columns computed by a function -/
def frameOf (S : List String) (f : String → List (Cell F)) (n : Nat) : DF F :=
  ⟨S.map fun a => (a, f a), n⟩

theorem frameOf_congr {S : List String} {f g : String → List (Cell F)} {n : Nat}
    (h : ∀ a ∈ S, f a = g a) : frameOf S f n = frameOf S g n := by
  unfold frameOf
  congr 1
  apply List.map_congr_left
  intro a ha
  rw [h a ha]

theorem frameOf_keys (S : List String) (f : String → List (Cell F)) (n : Nat) :
    Dict.keys (frameOf S f n).cols = S := by
  simp [frameOf, Dict.keys, Function.comp_def]

theorem frameOf_colOrNaN (S : List String) (f : String → List (Cell F)) (n : Nat) (a : String)
    (h : a ∈ S) : colOrNaN (frameOf S f n) a = f a := by
  unfold colOrNaN frameOf
  rw [Dict.get?_map]
  simp [h]

theorem concatRows_three (S : List String) (f g h : String → List (Cell F)) (k m n : Nat) :
    concatRows [frameOf S f k, frameOf S g m, frameOf S h n]
      = .ok (frameOf S (fun a => f a ++ (g a ++ h a)) (k + (m + n))) := by
  have hf : S.filter (fun k => !S.contains k) = [] := by
    rw [List.filter_eq_nil_iff]; intro a ha; simp [ha]
  have hu : unionNames [frameOf S f k, frameOf S g m, frameOf S h n] = S := by
    simp only [unionNames, List.foldl_cons, List.foldl_nil, frameOf_keys, List.nil_append]
    have : S.filter (fun k => !(([] : List String).contains k)) = S := by simp
    rw [this, hf, List.append_nil, hf, List.append_nil]
  unfold concatRows
  rw [hu]
  simp only [List.isEmpty_cons, Bool.false_eq_true, if_false, List.flatMap_cons, List.flatMap_nil,
    List.map_cons, List.map_nil, List.sum_cons, List.sum_nil, List.append_nil]
  congr 1
  unfold frameOf
  congr 1
  apply List.map_congr_left
  intro a ha
  have e1 := frameOf_colOrNaN S f k a ha
  have e2 := frameOf_colOrNaN S g m a ha
  have e3 := frameOf_colOrNaN S h n a ha
  unfold frameOf at e1 e2 e3
  rw [e1, e2, e3]

theorem dedupKeys_map {β : Type} (L seen : List String) (f : String → β) :
    ∃ S : List String, dedupKeys seen (L.map fun a => (a, f a)) = S.map (fun a => (a, f a)) ∧
      ∀ a, a ∈ S ↔ a ∈ L ∧ a ∉ seen := by
  induction L generalizing seen with
  | nil => exact ⟨[], rfl, by simp⟩
  | cons a L ih =>
    simp only [List.map_cons, dedupKeys]
    by_cases h : a ∈ seen
    · obtain ⟨S, hS, hm⟩ := ih seen
      refine ⟨S, by simp [h, hS], ?_⟩
      intro b
      rw [hm b, List.mem_cons]
      constructor
      · rintro ⟨h1, h2⟩; exact ⟨Or.inr h1, h2⟩
      · rintro ⟨h1 | h1, h2⟩
        · exact absurd (h1 ▸ h) h2
        · exact ⟨h1, h2⟩
    · obtain ⟨S, hS, hm⟩ := ih (a :: seen)
      refine ⟨a :: S, by simp [h, hS], ?_⟩
      intro b
      rw [List.mem_cons, hm b, List.mem_cons, List.mem_cons]
      by_cases hb : b = a
      · subst hb; simp [h]
      · simp [hb]

theorem frame_dropDup_col (L : List String) (f : String → List (Cell F)) (n : Nat) (a : String)
    (h : a ∈ L) : (frameOf L f n).dropDupCols.col a = .ok (f a) := by
  obtain ⟨S, hS, hm⟩ := dedupKeys_map L [] f
  unfold DF.dropDupCols frameOf DF.col Dict.getItem
  simp only
  rw [hS, Dict.get?_map, if_pos ((hm a).2 ⟨h, by simp⟩)]

theorem frame_dropDup_missing (L : List String) (f : String → List (Cell F)) (n : Nat) (a : String)
    (h : a ∉ L) : (frameOf L f n).dropDupCols.col a = .error .keyError := by
  obtain ⟨S, hS, hm⟩ := dedupKeys_map L [] f
  unfold DF.dropDupCols frameOf DF.col Dict.getItem
  simp only
  rw [hS, Dict.get?_map, if_neg (fun e => h ((hm a).1 e).1)]

theorem mapM_ok {α β : Type} (l : List α) (f : α → Py β) (g : α → β)
    (h : ∀ a ∈ l, f a = .ok (g a)) : l.mapM f = .ok (l.map g) := by
  induction l with
  | nil => rfl
  | cons a l ih =>
    rw [List.mapM_cons, h a (by simp), ih (fun b hb => h b (by simp [hb]))]
    rfl

theorem mapM_error {α β : Type} (l : List α) (f : α → Py β) (e : PyErr)
    (h : ∀ a ∈ l, (∃ b, f a = .ok b) ∨ f a = .error e) (h2 : ∃ a ∈ l, f a = .error e) :
    l.mapM f = .error e := by
  induction l with
  | nil => obtain ⟨a, ha, _⟩ := h2; cases ha
  | cons a l ih =>
    rw [List.mapM_cons]
    rcases h a (by simp) with ⟨b, hb⟩ | hb
    · rw [hb, ih (fun c hc => h c (by simp [hc]))]
      · rfl
      · obtain ⟨c, hc, he⟩ := h2
        rcases List.mem_cons.1 hc with rfl | hc
        · rw [hb] at he; cases he
        · exact ⟨c, hc, he⟩
    · rw [hb]; rfl

theorem padTo_self (n : Nat) (l : List (Cell F)) (h : l.length = n) : padTo n l = l := by
  simp [padTo, h]

theorem concatCols_one (S : List String) (f : String → List (Cell F)) (n : Nat)
    (h : ∀ a ∈ S, (f a).length = n) : concatCols [frameOf S f n] = .ok (frameOf S f n) := by
  unfold concatCols frameOf
  simp only [List.isEmpty_cons, Bool.false_eq_true, if_false, List.map_cons, List.map_nil,
    List.foldl_cons, List.foldl_nil, List.flatMap_cons, List.flatMap_nil, List.append_nil,
    List.map_map, Nat.max_eq_max, Nat.zero_max]
  congr 2
  apply List.map_congr_left
  intro a ha
  simp [padTo_self n (f a) (h a ha)]

theorem concatCols_two (S T : List String) (f : String → List (Cell F)) (n : Nat)
    (h : ∀ a ∈ S, (f a).length = n) (h' : ∀ a ∈ T, (f a).length = n) :
    concatCols [frameOf S f n, frameOf T f n] = .ok (frameOf (S ++ T) f n) := by
  unfold concatCols frameOf
  simp only [List.isEmpty_cons, Bool.false_eq_true, if_false, List.map_cons, List.map_nil,
    List.foldl_cons, List.foldl_nil, List.flatMap_cons, List.flatMap_nil, List.append_nil,
    List.map_map, Nat.max_eq_max, Nat.zero_max, Nat.max_self, List.map_append]
  congr 2
  congr 1 <;>
  · apply List.map_congr_left
    intro a ha
    simp [padTo_self n (f a) (by first | exact h a ha | exact h' a ha)]

end GChop
