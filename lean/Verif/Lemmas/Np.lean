import Verif.Np
import Mathlib.Tactic.Common
import Mathlib.Data.List.Basic

/-!
# Index arrays, masks and scatter
-/

set_option linter.unusedSectionVars false

namespace GChop.Np

variable {α β : Type}

theorem whereIdx_cons (b : Bool) (m : List Bool) :
    whereIdx (b :: m) = (if b then [0] else []) ++ (whereIdx m).map (· + 1) := by
  unfold whereIdx
  rw [List.length_cons, List.range_succ_eq_map, List.filter_cons, List.filter_map]
  have h1 : ((fun i => (b :: m).getD i false) ∘ Nat.succ) = fun i => m.getD i false := by
    funext i; simp
  rw [h1]
  cases b <;> simp

@[simp] theorem whereIdx_nil : whereIdx [] = [] := rfl

theorem whereIdx_lt {m : List Bool} {i : Nat} (h : i ∈ whereIdx m) : i < m.length := by
  unfold whereIdx at h
  simpa using (List.mem_filter.1 h).1

theorem mem_whereIdx {m : List Bool} {i : Nat} : i ∈ whereIdx m ↔ m[i]? = some true := by
  unfold whereIdx
  rw [List.mem_filter, List.mem_range]
  constructor
  · rintro ⟨h1, h2⟩
    rw [List.getD_eq_getElem?_getD, List.getElem?_eq_getElem h1] at h2
    rw [List.getElem?_eq_getElem h1]
    simpa using h2
  · intro h
    obtain ⟨h1, h2⟩ := List.getElem?_eq_some_iff.1 h
    exact ⟨h1, by simp [h]⟩

theorem whereIdx_nodup (m : List Bool) : (whereIdx m).Nodup := List.nodup_range.filter _

theorem whereIdx_length (m : List Bool) : (whereIdx m).length = m.count true := by
  induction m with
  | nil => rfl
  | cons b m ih => rw [whereIdx_cons]; cases b <;> simp [ih]

theorem whereIdx_append_false (m : List Bool) (n : Nat) :
    whereIdx (m ++ List.replicate n false) = whereIdx m := by
  induction m with
  | nil =>
    induction n with
    | zero => rfl
    | succ n ih =>
      rw [List.nil_append, List.replicate_succ, whereIdx_cons]
      rw [List.nil_append] at ih
      rw [ih]; rfl
  | cons b m ih => rw [List.cons_append, whereIdx_cons, whereIdx_cons, ih]

theorem take_cons_succ (x : α) (l : List α) (idx : List Nat) :
    take (x :: l) (idx.map (· + 1)) = take l idx := by
  unfold take
  rw [List.filterMap_map]
  rfl

/-- `a[np.where(mask)]` selects the entries where the mask is true -/
theorem take_whereIdx (l : List α) (p : α → Bool) (f : α → β) :
    take (l.map f) (whereIdx (l.map p)) = (l.filter p).map f := by
  induction l with
  | nil => rfl
  | cons a l ih =>
    rw [List.map_cons, List.map_cons, whereIdx_cons]
    have : take (f a :: l.map f) ((if p a = true then [0] else []) ++ (whereIdx (l.map p)).map (· + 1))
        = (if p a = true then [f a] else []) ++ take (l.map f) (whereIdx (l.map p)) := by
      rw [← take_cons_succ (f a) (l.map f)]
      unfold take
      rw [List.filterMap_append]
      cases p a <;> simp
    rw [this, ih, List.filter_cons]
    cases p a <;> simp

theorem writeAt_nil (a : List α) (vals : List α) : writeAt a [] vals = a := by
  cases vals <;> rfl

theorem writeAt_cons_succ (x : α) (a : List α) (idx : List Nat) (vals : List α) :
    writeAt (x :: a) (idx.map (· + 1)) vals = x :: writeAt a idx vals := by
  induction idx generalizing a vals with
  | nil => rw [List.map_nil, writeAt_nil, writeAt_nil]
  | cons i idx ih =>
    cases vals with
    | nil => cases a <;> rfl
    | cons v vals =>
      simp only [List.map_cons, writeAt, List.set_cons_succ]
      exact ih _ _

/-- `a[np.where(mask)] = vals` writes the values at the true entries in order -/
theorem writeAt_whereIdx (a : List α) (mask : List Bool) (vals : List α)
    (h : mask.length = a.length) (hv : vals.length = mask.count true) :
    writeAt a (whereIdx mask) vals = writeMask a mask vals := by
  induction mask generalizing a vals with
  | nil =>
    cases a with
    | nil => rw [whereIdx_nil, writeAt_nil]; cases vals <;> rfl
    | cons _ _ => cases h
  | cons b mask ih =>
    cases a with
    | nil => cases h
    | cons x a =>
      rw [whereIdx_cons]
      cases b with
      | false =>
        simp only [Bool.false_eq_true, if_false, List.nil_append]
        rw [writeAt_cons_succ, ih a vals (by simpa using h) (by simpa using hv)]
        cases vals <;> rfl
      | true =>
        cases vals with
        | nil => simp at hv
        | cons v vals =>
          simp only [if_true, List.singleton_append, writeAt, List.set_cons_zero]
          rw [writeAt_cons_succ, ih a vals (by simpa using h) (by simpa using hv)]
          rfl

theorem writeMask_map (l : List α) (p : α → Bool) (f g : α → β) :
    writeMask (l.map g) (l.map p) ((l.filter p).map f) = l.map fun a => if p a then f a else g a := by
  induction l with
  | nil => rfl
  | cons a l ih =>
    cases h : p a with
    | true => simp [h, writeMask, ih]
    | false =>
      simp only [List.map_cons, h, List.filter_cons, Bool.false_eq_true, if_false]
      rw [← ih]
      cases (l.filter p).map f <;> rfl

theorem count_map_true (l : List α) (p : α → Bool) : (l.map p).count true = (l.filter p).length := by
  induction l with
  | nil => rfl
  | cons a l ih => cases h : p a <;> simp [h, ih]

/-- `np.full(n, d)` with the selected entries overwritten -/
theorem scatter_whereIdx (l : List α) (p : α → Bool) (f g : α → β) :
    scatter (l.map g) (whereIdx (l.map p)) ((l.filter p).map f)
      = .ok (l.map fun a => if p a then f a else g a) := by
  unfold scatter
  have h1 : (whereIdx (l.map p)).all (· < (l.map g).length) = true := by
    rw [List.all_eq_true]
    intro i hi
    have := whereIdx_lt hi
    simpa using this
  have h2 : ((l.filter p).map f).length = (whereIdx (l.map p)).length := by
    rw [whereIdx_length, count_map_true]; simp
  rw [h1, h2]
  simp only [if_true]
  rw [writeAt_whereIdx _ _ _ (by simp) (by rw [count_map_true]; simp), writeMask_map]

theorem fillAt_whereIdx (l : List α) (p : α → Bool) (g : α → β) (v : β) :
    fillAt (l.map g) (whereIdx (l.map p)) v = .ok (l.map fun a => if p a then v else g a) := by
  have := scatter_whereIdx l p (fun _ => v) g
  unfold fillAt
  unfold scatter at this
  have h1 : (whereIdx (l.map p)).all (· < (l.map g).length) = true := by
    rw [List.all_eq_true]
    intro i hi
    have := whereIdx_lt hi
    simpa using this
  have h2 : ((l.filter p).map fun _ => v).length = (whereIdx (l.map p)).length := by
    rw [whereIdx_length, count_map_true]; simp
  rw [h1, h2] at this
  simp only [if_true] at this
  rw [h1]
  simp only [if_true]
  rw [← this]
  congr 2
  rw [← h2]
  simp [List.map_const']

end GChop.Np

namespace GChop.Np
open GChop

variable {α : Type}

theorem writeMask_length (a : List α) (mask : List Bool) (vals : List α) :
    (writeMask a mask vals).length = a.length := by
  induction mask generalizing a vals with
  | nil => cases a <;> cases vals <;> rfl
  | cons m mask ih =>
    cases a with
    | nil => cases vals <;> rfl
    | cons x a =>
      cases m with
      | false => simp [writeMask, ih]
      | true => cases vals <;> simp [writeMask, ih]

/-- entry `i` of `a[mask] = vals` -/
theorem writeMask_get (a : List α) (mask : List Bool) (vals : List α)
    (h : mask.length = a.length) (hv : vals.length = mask.count true) (i : Nat) :
    (writeMask a mask vals)[i]?
      = if mask[i]? = some true then vals[(mask.take i).count true]? else a[i]? := by
  induction mask generalizing a vals i with
  | nil =>
    cases a with
    | nil => cases vals <;> simp [writeMask]
    | cons x a => simp at h
  | cons m mask ih =>
    cases a with
    | nil => simp at h
    | cons x a =>
      have h' : mask.length = a.length := by simpa using h
      cases m with
      | false =>
        have hv' : vals.length = mask.count true := by simpa using hv
        simp only [writeMask]
        cases i with
        | zero => simp
        | succ i => simp [ih a vals h' hv' i]
      | true =>
        cases vals with
        | nil => simp at hv
        | cons v vals =>
          have hv' : vals.length = mask.count true := by simpa using hv
          simp only [writeMask]
          cases i with
          | zero => simp
          | succ i => simp [ih a vals h' hv' i]

/-- reading the written entries back gives the values -/
theorem compress_writeMask (a : List α) (mask : List Bool) (vals : List α)
    (h : mask.length = a.length) (hv : vals.length = mask.count true) :
    compress mask (writeMask a mask vals) = .ok vals := by
  unfold compress
  rw [writeMask_length, if_pos h]
  congr 1
  induction mask generalizing a vals with
  | nil =>
    cases vals with
    | nil => rfl
    | cons v vals => simp at hv
  | cons m mask ih =>
    cases a with
    | nil => simp at h
    | cons x a =>
      have h' : mask.length = a.length := by simpa using h
      cases m with
      | false =>
        have hv' : vals.length = mask.count true := by simpa using hv
        simp only [writeMask]
        simpa using ih a vals h' hv'
      | true =>
        cases vals with
        | nil => simp at hv
        | cons v vals =>
          have hv' : vals.length = mask.count true := by simpa using hv
          simp only [writeMask]
          simpa using ih a vals h' hv'

theorem compress_map {β : Type} (l : List α) (p : α → Bool) (f : α → β) :
    compress (l.map p) (l.map f) = .ok ((l.filter p).map f) := by
  unfold compress
  rw [if_pos (by simp)]
  congr 1
  induction l with
  | nil => rfl
  | cons a l ih => cases h : p a <;> simp [h, ih]

theorem assignMask_ok (a : List α) (mask : List Bool) (vals : List α)
    (h : mask.length = a.length) (hv : vals.length = mask.count true) :
    assignMask a mask vals = .ok (writeMask a mask vals) := by
  unfold assignMask
  rw [if_pos h, if_pos hv]

theorem assignMask_error (a : List α) (mask : List Bool) (vals : List α)
    (h : mask.length = a.length) (hv : vals.length ≠ mask.count true) (h1 : vals.length ≠ 1) :
    assignMask a mask vals = .error .valueError := by
  unfold assignMask
  rw [if_pos h, if_neg hv]
  match vals, h1 with
  | [], _ => rfl
  | _ :: _ :: _, _ => rfl

end GChop.Np
