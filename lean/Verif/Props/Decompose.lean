import Verif.Props.Matrix
import Verif.Props.CircExact

/-!
# C32, C33, C34, C47, C48, C59: `decompose`, `Components` and `cbins`
-/

set_option linter.unusedSectionVars false

namespace GChop
open Pd

variable {F : Type} [Num F]

/-! ## C59 -/

/-- C59: `cbins` is accepted iff it is a tuple of exactly two floats (NaN, infinite and negative
floats included); every other Python value is a `ValueError`. -/
theorem C59_cbins (v : PyVal F) :
    (cbinsValidator v = .ok () ↔ ∃ x y, v = .tuple [.float x, .float y]) ∧
    ((¬ ∃ x y, v = .tuple [.float x, .float y]) → cbinsValidator v = .error .valueError) := by
  have isF : ∀ w : PyVal F, w.isFloat = true ↔ ∃ x, w = .float x := by
    intro w; cases w <;> simp [PyVal.isFloat]
  have h1 : cbinsValidator v = .ok () ↔ ∃ x y, v = .tuple [.float x, .float y] := by
    constructor
    · intro h
      match v, h with
      | .tuple [a, c], h =>
        simp only [cbinsValidator] at h
        split at h
        · rename_i hc
          simp only [List.length_cons, List.length_nil, List.getD_cons_zero, List.getD_cons_succ,
            Bool.and_eq_true] at hc
          obtain ⟨x, rfl⟩ := (isF a).1 hc.1.2
          obtain ⟨y, rfl⟩ := (isF c).1 hc.2
          exact ⟨x, y, rfl⟩
        · cases h
      | .tuple [], h => simp [cbinsValidator] at h
      | .tuple [_], h => simp [cbinsValidator] at h
      | .tuple (_ :: _ :: _ :: _), h => simp [cbinsValidator] at h
    · rintro ⟨x, y, rfl⟩
      rfl
  refine ⟨h1, fun hn => ?_⟩
  cases h : cbinsValidator v with
  | ok u => exact absurd (h1.1 h) hn
  | error e =>
    unfold cbinsValidator at h
    split at h
    · split at h
      · cases h
      · rw [← h]
    · rw [← h]

example : cbinsValidator (.tuple [.float (q (1/20)), .float (q (1/200))]) = .ok () := rfl
example : cbinsValidator (.tuple [.float (q (1/20)), .int 1]) = .error .valueError := rfl
example : cbinsValidator (.list [.float (q (1/20)), .float (q (1/200))]) = .error .valueError := rfl

/-! ## C47 -/

theorem eraseDups_length_le_one {l : List Nat} :
    l.eraseDups.length ≤ 1 ↔ ∀ a ∈ l, ∀ b ∈ l, a = b := by
  cases l with
  | nil => simp
  | cons x l =>
    rw [List.eraseDups_cons]
    constructor
    · intro h
      have h0 : (l.filter fun b => !b == x) = [] := by
        cases hf : l.filter fun b => !b == x with
        | nil => rfl
        | cons y t =>
          rw [hf, List.eraseDups_cons] at h
          simp at h
      rw [List.filter_eq_nil_iff] at h0
      have key : ∀ a ∈ x :: l, a = x := by
        intro a ha
        rcases List.mem_cons.1 ha with rfl | ha
        · rfl
        · simpa using h0 a ha
      intro a ha b hb
      rw [key a ha, key b hb]
    · intro h
      have h0 : (l.filter fun b => !b == x) = [] := by
        rw [List.filter_eq_nil_iff]
        intro a ha
        simp [h a (by simp [ha]) x (by simp)]
      rw [h0]
      simp

/-- C47: the constructor succeeds iff the lengths agree, keeps the arrays as given, reports the
common length, and otherwise raises `ValueError`. -/
theorem C47_components (labels : List (Option Int)) (ptypes : List String)
    (probs : Option (Mat F)) :
    let agree := ptypes.length = labels.length ∧
      ∀ p, probs = some p → p.rows.length = labels.length
    (agree → ∃ c, Components.new labels ptypes probs = .ok c ∧ c.labels = labels ∧
      c.ptypes = ptypes ∧ c.probabilities = probs ∧ c.len = labels.length) ∧
    (¬ agree → Components.new labels ptypes probs = .error .valueError) := by
  intro agree
  have key : (Components.lens labels ptypes probs).eraseDups.length ≤ 1 ↔ agree := by
    rw [eraseDups_length_le_one]
    constructor
    · intro h
      refine ⟨h _ (by cases probs <;> simp [Components.lens]) _
        (by cases probs <;> simp [Components.lens]), ?_⟩
      rintro p rfl
      exact h _ (by simp [Components.lens]) _ (by simp [Components.lens])
    · rintro ⟨h1, h2⟩
      have : ∀ a ∈ Components.lens labels ptypes probs, a = labels.length := by
        intro a ha
        cases probs with
        | none =>
          simp only [Components.lens, List.mem_cons, List.not_mem_nil, or_false] at ha
          rcases ha with rfl | rfl <;> simp [h1]
        | some p =>
          have := h2 p rfl
          simp only [Components.lens, List.mem_cons, List.not_mem_nil, or_false] at ha
          rcases ha with rfl | rfl | rfl <;> simp [h1, this]
      intro a ha b hb
      rw [this a ha, this b hb]
  constructor
  · intro h
    have h' := key.2 h
    refine ⟨⟨labels, ptypes, probs⟩, ?_, rfl, rfl, rfl, rfl⟩
    unfold Components.new
    rw [if_neg (by omega)]
  · intro h
    have h' := mt key.1 h
    unfold Components.new
    rw [if_pos (by omega)]

theorem Components.new_inv {labels : List (Option Int)} {ptypes : List String}
    {probs : Option (Mat F)} {c : Components F} (h : Components.new labels ptypes probs = .ok c) :
    c = ⟨labels, ptypes, probs⟩ ∧ ptypes.length = labels.length ∧
      ∀ p, probs = some p → p.rows.length = labels.length := by
  have h47 := C47_components labels ptypes probs
  by_cases ha : ptypes.length = labels.length ∧
      ∀ p, probs = some p → p.rows.length = labels.length
  · refine ⟨?_, ha⟩
    unfold Components.new at h
    split at h
    · cases h
    · injection h with h; exact h.symm
  · rw [h47.2 ha] at h; cases h

example : Components.new [some 1, none] ["stars", "gas"] (none : Option (Mat (Ext ℚ)))
    = .ok ⟨[some 1, none], ["stars", "gas"], none⟩ := by decide +kernel
example : Components.new [some 1, none] ["stars", "gas"] (some ⟨[[q 1]], 1⟩ : Option (Mat (Ext ℚ)))
    = .error .valueError := by decide +kernel

/-! ## C33 and C34: gather and scatter -/

/-- C33: for every mask and every array with one label per selected row, `complete_labels` gives one
entry per row; reading the selected rows gives the labels back in order, and every other row is
NaN. -/
theorem C33_complete_labels (n : Nat) (labels : List Int) (mask : List Bool)
    (h : mask.length = n) (hl : labels.length = mask.count true) :
    ∃ res, completeLabels n labels mask = .ok res ∧ res.length = n ∧
      Np.compress mask res = .ok (labels.map some) ∧
      (∀ i : Nat, mask[i]? = some false → res[i]? = some none) ∧
      (∀ i : Nat, mask[i]? = some true →
        ∃ l, labels[(mask.take i).count true]? = some l ∧ res[i]? = some (some l)) := by
  have hlen : mask.length = (List.replicate n (none : Option Int)).length := by simpa using h
  have hv : (labels.map some).length = mask.count true := by simpa using hl
  refine ⟨_, Np.assignMask_ok _ _ _ hlen hv, ?_, Np.compress_writeMask _ _ _ hlen hv, ?_, ?_⟩
  · simp [Np.writeMask_length]
  · intro i hi
    have hlt : i < n := by
      rw [← h]; exact (List.getElem?_eq_some_iff.1 hi).1
    rw [Np.writeMask_get _ _ _ hlen hv, hi]
    simp [hlt]
  · intro i hi
    have hlt : i < mask.length := (List.getElem?_eq_some_iff.1 hi).1
    have hcount : (mask.take i).count true < labels.length := by
      rw [hl]
      conv_rhs => rw [← List.take_append_drop i mask]
      rw [List.count_append]
      have : 0 < (mask.drop i).count true := by
        rw [List.count_pos_iff]
        exact List.mem_of_getElem? (i := 0) (by simpa using hi)
      omega
    refine ⟨labels[(mask.take i).count true], by simp [hcount], ?_⟩
    rw [Np.writeMask_get _ _ _ hlen hv, if_pos hi]
    simp [hcount]

/-- C33: any other number of labels is a `ValueError`, except a single label, which numpy broadcasts
to all selected rows. -/
theorem C33_label_count (n : Nat) (labels : List Int) (mask : List Bool) (h : mask.length = n)
    (hl : labels.length ≠ mask.count true) :
    (labels.length ≠ 1 → completeLabels n labels mask = .error .valueError) ∧
    (∀ l, labels = [l] → completeLabels n labels mask
      = completeLabels n (List.replicate (mask.count true) l) mask) := by
  have hlen : mask.length = (List.replicate n (none : Option Int)).length := by simpa using h
  constructor
  · intro h1
    exact Np.assignMask_error _ _ _ hlen (by simpa using hl) (by simpa using h1)
  · rintro l rfl
    unfold completeLabels
    rw [Np.assignMask_ok _ mask ((List.replicate (mask.count true) l).map some) hlen (by simp)]
    unfold Np.assignMask
    rw [if_pos hlen, if_neg (by simpa using hl)]
    simp

/-- C34: `None` stays `None`; otherwise the result has one row per particle and the same width, the
selected rows are the given rows in order and every other row is all NaN. -/
theorem C34_complete_probs (n : Nat) (p : Mat F) (mask : List Bool) (h : mask.length = n)
    (hp : p.rows.length = mask.count true) :
    completeProbs n (none : Option (Mat F)) mask = .ok none ∧
    ∃ res, completeProbs n (some p) mask = .ok (some res) ∧ res.rows.length = n ∧
      res.width = p.width ∧ (p.WF → res.WF) ∧
      Np.compress mask res.rows = .ok p.rows ∧
      (∀ i : Nat, mask[i]? = some false → res.rows[i]? = some (List.replicate p.width Num.nan)) := by
  have hlen : mask.length = (List.replicate n (List.replicate p.width (Num.nan : F))).length := by
    simpa using h
  refine ⟨rfl, ⟨Np.writeMask (List.replicate n (List.replicate p.width Num.nan)) mask p.rows,
    p.width⟩, ?_, ?_, rfl, ?_, Np.compress_writeMask _ _ _ hlen hp, ?_⟩
  · simp only [completeProbs]
    rw [Np.assignMask_ok _ _ _ hlen hp]
    rfl
  · simp [Np.writeMask_length]
  · intro hwf r hr
    obtain ⟨i, hi⟩ := List.getElem?_of_mem hr
    simp only at hi
    rw [Np.writeMask_get _ _ _ hlen hp] at hi
    split at hi
    · exact hwf r (List.mem_of_getElem? hi)
    · have := List.mem_of_getElem? hi
      rw [List.mem_replicate] at this
      rw [this.2]
      simp
  · intro i hi
    have hlt : i < n := by
      rw [← h]; exact (List.getElem?_eq_some_iff.1 hi).1
    simp only
    rw [Np.writeMask_get _ _ _ hlen hp, hi]
    simp [hlt]

/-- C34: any other number of rows is a `ValueError`, except a single row, which numpy broadcasts. -/
theorem C34_row_count (n : Nat) (p : Mat F) (mask : List Bool) (h : mask.length = n)
    (hp : p.rows.length ≠ mask.count true) :
    (p.rows.length ≠ 1 → completeProbs n (some p) mask = .error .valueError) ∧
    (∀ r, p.rows = [r] → completeProbs n (some p) mask
      = completeProbs n (some ⟨List.replicate (mask.count true) r, p.width⟩) mask) := by
  have hlen : mask.length = (List.replicate n (List.replicate p.width (Num.nan : F))).length := by
    simpa using h
  constructor
  · intro h1
    simp only [completeProbs]
    rw [Np.assignMask_error _ _ _ hlen hp h1]
    rfl
  · intro r hr
    simp only [completeProbs]
    rw [Np.assignMask_ok _ mask (List.replicate (mask.count true) r) hlen (by simp)]
    unfold Np.assignMask
    rw [if_pos hlen, if_neg hp, hr]

example : completeLabels 4 [7, 8] [true, false, true, false]
    = .ok [some 7, none, some 8, none] := by decide +kernel
example : completeProbs 3 (some ⟨[[q 1, q 0], [q 0, q 1]], 2⟩) [false, true, true]
    = .ok (some ⟨[[.nan, .nan], [q 1, q 0], [q 0, q 1]], 2⟩) := by decide +kernel


/-! ## C32 and C33: `decompose` -/

/-- a finite number -/
def cellFinite : Cell F → Bool
  | .num x => Num.isFinite x
  | .int _ => true
  | .str _ => false

theorem isfinite_ok {c : Cell F} {v : Bool} (h : Cell.isfinite c = .ok v) : v = cellFinite c := by
  cases c with
  | num x => injection h with h; exact h.symm
  | int i => injection h with h; exact h.symm
  | str s => cases h

theorem mapM_inv {α β : Type} {l : List α} {f : α → Py β} {r : List β} (g : α → β)
    (h : l.mapM f = .ok r) (hg : ∀ a ∈ l, ∀ v, f a = .ok v → v = g a) : r = l.map g := by
  induction l generalizing r with
  | nil => injection h with h; exact h.symm
  | cons a l ih =>
    rw [List.mapM_cons] at h
    cases ha : f a with
    | error e => rw [ha] at h; cases h
    | ok v =>
      rw [ha] at h
      cases hl : l.mapM f with
      | error e => rw [hl] at h; cases h
      | ok vs =>
        rw [hl] at h
        injection h with h
        rw [← h, List.map_cons, hg a (by simp) v ha,
          ih hl (fun b hb v => hg b (by simp [hb]) v)]

/-- the particle is a star and all its requested attributes are finite -/
def validStar (j : JCirc F) (attrs : List String) (ri : Row F × Nat) : Bool :=
  ri.1.t == .stars && attrs.all fun a => cellFinite (matCell j ri.1 ri.2 a)

theorem starsRowsMask_inv (b : BGalaxy F) (j : JCirc F) (attrs : List String) (mask : List Bool)
    (h : starsRowsMask (b.numbered.map fun ri => attrs.map (matCell j ri.1 ri.2))
      (b.numbered.map fun ri => .int ri.1.t.value) = .ok mask) :
    mask = b.numbered.map (validStar j attrs) := by
  unfold starsRowsMask at h
  cases hf : (b.numbered.map fun ri => attrs.map (matCell j ri.1 ri.2)).mapM
      (fun row => do return (← row.mapM Cell.isfinite).all id) with
  | error e => rw [hf] at h; cases h
  | ok fin =>
    rw [hf] at h
    simp only [Py.ok_bind] at h
    have hfin := mapM_inv (fun row : List (Cell F) => row.all cellFinite) hf (by
      intro row _ v hv
      cases hr : row.mapM Cell.isfinite with
      | error e => rw [hr] at hv; cases hv
      | ok fs =>
        rw [hr] at hv
        injection hv with hv
        rw [← hv, mapM_inv cellFinite hr (fun a _ v hv => isfinite_ok hv)]
        simp [List.all_map])
    rw [hfin] at h
    unfold Np.bcast at h
    rw [if_pos (by simp)] at h
    injection h with h
    rw [← h, List.map_map, List.map_map, List.zipWith_map, List.zipWith_self]
    apply List.map_congr_left
    intro ri _
    have : Cell.isStar (F := F) (.int ri.1.t.value) = (ri.1.t == .stars) := by
      cases ri.1.t <;> rfl
    simp only [Function.comp_apply, this, validStar, List.all_map]
    rfl

theorem attributesMatrix_inv [NumOrd F] {env : CircEnv F} {cbins : F × F} {b : BGalaxy F}
    {attrs : List String} {X : List (List (Cell F))} {y : List (Cell F)}
    (h : attributesMatrix env cbins (Galaxy.ofBodies b) attrs = .ok (X, y))
    (hal : "normalized_star_Jz" ∉ attrs ∨ ∀ a ∈ b.stars, ¬ Unbound a.energy) :
    ∃ j, CircAligned env cbins b attrs j ∧
      X = (b.numbered.map fun ri => attrs.map (matCell j ri.1 ri.2)) ∧
      y = b.numbered.map fun ri => .int ri.1.t.value := by
  have hne : attrs ≠ [] := by
    rintro rfl
    rw [C31_empty] at h; cases h
  have hk : ∀ a ∈ attrs, a ∈ attrNames ∨ a ∈ circularityAttributes := by
    intro a ha
    by_contra hc
    rw [C31_unknown env cbins b attrs ⟨a, ha, fun h => hc (Or.inl h), fun h => hc (Or.inr h)⟩] at h
    cases h
  have hj : ∃ j, CircAligned env cbins b attrs j := by
    by_cases hc : ∃ a ∈ attrs, a ∈ circularityAttributes
    · cases he : jcirc env (Galaxy.ofBodies b) cbins.1 cbins.2 with
      | error e => rw [C31_jcirc_error env cbins b attrs e hk hc he] at h; cases h
      | ok j => exact ⟨j, hal.elim (circAligned_of_ok he) (circAligned_of_bound he)⟩
    · exact ⟨⟨[], [], [], [], [], []⟩, fun h => absurd h hc⟩
  obtain ⟨j, hj⟩ := hj
  rw [attributesMatrix_eq env cbins b attrs j hne hk hj] at h
  injection h with h
  exact ⟨j, hj, (Prod.ext_iff.1 h).1.symm, (Prod.ext_iff.1 h).2.symm⟩

theorem humanizeCell_ptype (t : PType) :
    humanizeCell (.int t.value : Cell F) = .ok t.humanize := by
  have h : PType.mktype id (.num t.value) = .ok t := by cases t <;> decide +kernel
  simp only [humanizeCell]
  rw [h]
  rfl

/-- What a successful run of a stars-only decomposer did: `split` got the valid stars. -/
theorem decompose_inv [NumOrd F] {env : CircEnv F} {cbins : F × F} {b : BGalaxy F}
    {attrs : List String} {split : List (List F) → List (Cell F) → Py (List Int × Option (Mat F))}
    {c : Components F}
    (h : decompose env cbins ⟨attrs, starsRowsMask, split⟩ (Galaxy.ofBodies b) = .ok c)
    (hal : "normalized_star_Jz" ∉ attrs ∨ ∀ a ∈ b.stars, ¬ Unbound a.energy) :
    ∃ j labels probs, CircAligned env cbins b attrs j ∧
      split ((b.numbered.filter (validStar j attrs)).map fun ri =>
          attrs.map fun a => (matCell j ri.1 ri.2 a).toNum)
        ((b.numbered.filter (validStar j attrs)).map fun _ => .int PType.stars.value)
        = .ok (labels, probs) ∧
      completeLabels (b.rows none).length labels (b.numbered.map (validStar j attrs))
        = .ok c.labels ∧
      completeProbs (b.rows none).length probs (b.numbered.map (validStar j attrs))
        = .ok c.probabilities ∧
      c.ptypes = (b.rows none).map (fun r => r.t.humanize) ∧
      (∀ p, c.probabilities = some p → p.rows.length = c.labels.length) ∧
      c.ptypes.length = c.labels.length := by
  unfold decompose at h
  cases hm : attributesMatrix env cbins (Galaxy.ofBodies b) attrs with
  | error e => rw [hm] at h; cases h
  | ok Xy =>
    obtain ⟨X, y⟩ := Xy
    rw [hm] at h
    simp only [Py.ok_bind] at h
    obtain ⟨j, hj, rfl, rfl⟩ := attributesMatrix_inv hm hal
    cases hmask : starsRowsMask (b.numbered.map fun ri => attrs.map (matCell j ri.1 ri.2))
        (b.numbered.map fun ri => .int ri.1.t.value) with
    | error e => rw [hmask] at h; cases h
    | ok mask =>
      rw [hmask] at h
      obtain rfl := starsRowsMask_inv b j attrs mask hmask
      simp only [Py.ok_bind] at h
      rw [Np.compress_map, Np.compress_map] at h
      simp only [Py.ok_bind, List.map_map] at h
      have e1 : ((b.numbered.filter (validStar j attrs)).map
            ((fun r => r.map Cell.toNum) ∘ fun ri => attrs.map (matCell j ri.1 ri.2)))
          = (b.numbered.filter (validStar j attrs)).map fun ri =>
            attrs.map fun a => (matCell j ri.1 ri.2 a).toNum := by
        apply List.map_congr_left
        intro ri _
        simp [Function.comp_def]
      have e2 : ((b.numbered.filter (validStar j attrs)).map
            fun ri => (.int ri.1.t.value : Cell F))
          = (b.numbered.filter (validStar j attrs)).map fun _ => .int PType.stars.value := by
        apply List.map_congr_left
        intro ri hri
        have := (List.mem_filter.1 hri).2
        simp only [validStar, Bool.and_eq_true, beq_iff_eq] at this
        rw [this.1]
      rw [e1, e2] at h
      cases hs : split ((b.numbered.filter (validStar j attrs)).map fun ri =>
          attrs.map fun a => (matCell j ri.1 ri.2 a).toNum)
        ((b.numbered.filter (validStar j attrs)).map fun _ => .int PType.stars.value) with
      | error e => rw [hs] at h; cases h
      | ok lp =>
        obtain ⟨labels, probs⟩ := lp
        rw [hs] at h
        simp only [Py.ok_bind] at h
        have hn : (b.numbered.map fun ri => attrs.map (matCell j ri.1 ri.2)).length
            = (b.rows none).length := by simp [BGalaxy.numbered]
        rw [hn] at h
        cases hl : completeLabels (b.rows none).length labels
            (b.numbered.map (validStar j attrs)) with
        | error e => rw [hl] at h; cases h
        | ok fl =>
          rw [hl] at h
          simp only [Py.ok_bind] at h
          cases hp : completeProbs (b.rows none).length probs
              (b.numbered.map (validStar j attrs)) with
          | error e => rw [hp] at h; cases h
          | ok fp =>
            rw [hp] at h
            simp only [Py.ok_bind] at h
            have hy : (b.numbered.map fun ri => (.int ri.1.t.value : Cell F)).mapM humanizeCell
                = .ok ((b.rows none).map fun r => r.t.humanize) := by
              have e3 : (b.numbered.map fun ri => Cell.int (F := F) ri.1.t.value)
                  = (b.rows none).map fun r => Cell.int r.t.value := by
                have : (b.numbered.map fun ri => Cell.int (F := F) ri.1.t.value)
                    = ((b.rows none).zipIdx.map Prod.fst).map fun r => Cell.int r.t.value := by
                  unfold BGalaxy.numbered
                  rw [List.map_map]; rfl
                rw [this, List.zipIdx_map_fst]
              rw [e3, List.mapM_map]
              exact mapM_ok _ _ _ fun r _ => humanizeCell_ptype r.t
            rw [hy] at h
            simp only [Py.ok_bind] at h
            obtain ⟨rfl, h1, h2⟩ := Components.new_inv h
            exact ⟨j, labels, probs, hj, hs, hl, hp, rfl, h2, h1⟩


/-- `split` returns one label and, if any, one row of probabilities per row of its input -/
def SplitPerRow (split : List (List F) → List (Cell F) → Py (List Int × Option (Mat F))) : Prop :=
  ∀ X y labels probs, split X y = .ok (labels, probs) →
    labels.length = X.length ∧ ∀ p, probs = some p → p.rows.length = X.length

theorem numbered_get (b : BGalaxy F) (i : Nat) (r : Row F) (hr : (b.rows none)[i]? = some r) :
    b.numbered[i]? = some (r, i) := by
  simp [BGalaxy.numbered, List.getElem?_zipIdx, hr]

/-- C32: for every galaxy, every attribute list without `normalized_star_Jz` (or no unbound star,
see C22) and every clustering that returns one label per row: if `decompose` succeeds, labels, types
and probabilities have one entry per particle, the types are those of stars, dark matter and gas in
order, every star whose attributes are all finite has a label, and every other particle has NaN
label and NaN probabilities. -/
theorem C32_decompose [NumOrd F] (env : CircEnv F) (cbins : F × F) (b : BGalaxy F)
    (attrs : List String)
    (split : List (List F) → List (Cell F) → Py (List Int × Option (Mat F)))
    (hsplit : SplitPerRow split) (c : Components F)
    (h : decompose env cbins ⟨attrs, starsRowsMask, split⟩ (Galaxy.ofBodies b) = .ok c)
    (hal : "normalized_star_Jz" ∉ attrs ∨ ∀ a ∈ b.stars, ¬ Unbound a.energy) :
    ∃ j, CircAligned env cbins b attrs j ∧
      c.labels.length = (b.rows none).length ∧
      c.ptypes = (b.rows none).map (fun r => r.t.humanize) ∧
      (∀ p, c.probabilities = some p → p.rows.length = (b.rows none).length) ∧
      ∀ (i : Nat) (r : Row F), (b.rows none)[i]? = some r →
        ((r.t = .stars ∧ ∀ a ∈ attrs, cellFinite (matCell j r i a) = true) →
          ∃ l, c.labels[i]? = some (some l)) ∧
        (¬ (r.t = .stars ∧ ∀ a ∈ attrs, cellFinite (matCell j r i a) = true) →
          c.labels[i]? = some none ∧
          ∀ p, c.probabilities = some p →
            p.rows[i]? = some (List.replicate p.width Num.nan)) := by
  obtain ⟨j, labels, probs, hj, hs, hl, hp, hy, hpl, hyl⟩ := decompose_inv h hal
  obtain ⟨hlen, hplen⟩ := hsplit _ _ _ _ hs
  have hmask : (b.numbered.map (validStar j attrs)).length = (b.rows none).length := by
    simp [BGalaxy.numbered]
  have hcnt : labels.length = (b.numbered.map (validStar j attrs)).count true := by
    rw [hlen, Np.count_map_true]; simp
  obtain ⟨res, hres, hrl, _, hfalse, htrue⟩ :=
    C33_complete_labels _ labels _ hmask hcnt
  rw [hl] at hres
  injection hres with hres
  subst hres
  refine ⟨j, hj, hrl, hy, fun p hpp => by rw [hpl p hpp, hrl], ?_⟩
  intro i r hr
  have hget : (b.numbered.map (validStar j attrs))[i]? = some (validStar j attrs (r, i)) := by
    rw [List.getElem?_map, numbered_get b i r hr]; rfl
  have hv : validStar j attrs (r, i) = true ↔
      (r.t = .stars ∧ ∀ a ∈ attrs, cellFinite (matCell j r i a) = true) := by
    simp [validStar]
  constructor
  · intro hvalid
    obtain ⟨l, _, hl2⟩ := htrue i (by rw [hget, hv.2 hvalid])
    exact ⟨l, hl2⟩
  · intro hinv
    have hf : validStar j attrs (r, i) = false := by
      rw [Bool.eq_false_iff]; exact fun h => hinv (hv.1 h)
    rw [hf] at hget
    refine ⟨hfalse i hget, ?_⟩
    intro p hpp
    cases probs with
    | none =>
      rw [hpp] at hp
      cases hp
    | some p0 =>
      have hc0 : p0.rows.length = (b.numbered.map (validStar j attrs)).count true := by
        rw [hplen p0 rfl, Np.count_map_true]; simp
      obtain ⟨_, res, hres, _, hw, _, _, hnan⟩ := C34_complete_probs _ p0 _ hmask hc0
      rw [hp, hpp] at hres
      injection hres with hres
      injection hres with hres
      subst hres
      rw [hw]
      exact hnan i hget

/-- C33: `split` is called once, on exactly the stars with finite attributes in galaxy order, and
the particle with `k` valid stars before it gets label `k` and, if there are probabilities, row `k`
of them. -/
theorem C33_kth_label [NumOrd F] (env : CircEnv F) (cbins : F × F) (b : BGalaxy F)
    (attrs : List String)
    (split : List (List F) → List (Cell F) → Py (List Int × Option (Mat F)))
    (hsplit : SplitPerRow split) (c : Components F)
    (h : decompose env cbins ⟨attrs, starsRowsMask, split⟩ (Galaxy.ofBodies b) = .ok c)
    (hal : "normalized_star_Jz" ∉ attrs ∨ ∀ a ∈ b.stars, ¬ Unbound a.energy) :
    ∃ j labels probs, CircAligned env cbins b attrs j ∧
      let valid : Row F × Nat → Bool := fun ri =>
        ri.1.t == .stars && attrs.all fun a => cellFinite (matCell j ri.1 ri.2 a)
      split (((b.rows none).zipIdx.filter valid).map fun ri =>
          attrs.map fun a => (matCell j ri.1 ri.2 a).toNum)
        (((b.rows none).zipIdx.filter valid).map fun _ => .int 0) = .ok (labels, probs) ∧
      (c.probabilities = none ↔ probs = none) ∧
      ∀ (i : Nat) (r : Row F), (b.rows none)[i]? = some r → valid (r, i) = true →
        let k := (((b.rows none).zipIdx.take i).filter valid).length
        c.labels[i]? = some (labels[k]?) ∧
        ∀ p p0, c.probabilities = some p → probs = some p0 →
          p.rows[i]? = p0.rows[k]? ∧ p.width = p0.width := by
  obtain ⟨j, labels, probs, hj, hs, hl, hp, hy, hpl, hyl⟩ := decompose_inv h hal
  obtain ⟨hlen, hplen⟩ := hsplit _ _ _ _ hs
  refine ⟨j, labels, probs, hj, ?_⟩
  intro valid
  have hve : valid = validStar j attrs := rfl
  refine ⟨hs, ?_, ?_⟩
  · cases probs with
    | none => simp only [completeProbs] at hp; injection hp with hp; simp [← hp]
    | some p0 =>
      simp only [completeProbs] at hp
      cases ha : Np.assignMask (List.replicate (b.rows none).length
          (List.replicate p0.width (Num.nan : F)))
          (b.numbered.map (validStar j attrs)) p0.rows with
      | error e => rw [ha] at hp; cases hp
      | ok rows => rw [ha] at hp; injection hp with hp; simp [← hp]
  · intro i r hr hval k
    have hmask : (b.numbered.map (validStar j attrs)).length = (b.rows none).length := by
      simp [BGalaxy.numbered]
    have hget : (b.numbered.map (validStar j attrs))[i]? = some true := by
      rw [List.getElem?_map, numbered_get b i r hr]
      exact congrArg some hval
    have hk : ((b.numbered.map (validStar j attrs)).take i).count true = k := by
      rw [← List.map_take, Np.count_map_true]
      rfl
    constructor
    · have hcnt : labels.length = (b.numbered.map (validStar j attrs)).count true := by
        rw [hlen, Np.count_map_true]; simp
      obtain ⟨res, hres, _, _, _, htrue⟩ := C33_complete_labels _ labels _ hmask hcnt
      rw [hl] at hres
      injection hres with hres
      subst hres
      obtain ⟨l, h1, h2⟩ := htrue i hget
      rw [hk] at h1
      rw [h2, h1]
    · rintro p p0 hpp rfl
      have hc0 : p0.rows.length = (b.numbered.map (validStar j attrs)).count true := by
        rw [hplen p0 rfl, Np.count_map_true]; simp
      have hlen' : (b.numbered.map (validStar j attrs)).length
          = (List.replicate (b.rows none).length (List.replicate p0.width (Num.nan : F))).length := by
        simpa using hmask
      simp only [completeProbs] at hp
      rw [Np.assignMask_ok _ _ _ hlen' hc0, hpp] at hp
      injection hp with hp
      injection hp with hp
      subst hp
      refine ⟨?_, rfl⟩
      simp only
      rw [Np.writeMask_get _ _ _ hlen' hc0, if_pos hget, hk]

/-- the hypotheses hold: three stars (one with non-finite circularity would be skipped), dark matter
and gas; the clustering numbers its rows -/
example : (decompose exEnv defaultCbin ⟨["eps", "m"], starsRowsMask,
      fun X _ => .ok ((List.range X.length).map (fun i : Nat => (i : Int)), none)⟩
      (Galaxy.ofBodies { exLost with
        stars := [orbit (-1) 1, orbit (-1/2) (-2), orbit 1 7], dm := [orbit (-1/1000) 4],
        gas := [orbit (-3/4) 2] }))
    = .ok ⟨[some 0, some 1, none, none, none],
        ["stars", "stars", "stars", "dark_matter", "gas"], none⟩ := by
  decide +kernel

/-- `normalized_star_Jz` with an unbound star: one label for two stars -/
example : (decompose exEnv defaultCbin ⟨["normalized_star_Jz"], starsRowsMask,
      fun X _ => .ok (X.map (fun _ => 5), none)⟩
      (Galaxy.ofBodies { exLost with stars := [orbit (-1) 1, orbit 1 7] }))
    = .ok ⟨[some 5], ["stars"], none⟩ := by
  decide +kernel

/-! ## C48 -/

/-- the values of a named column -/
def Components.column (c : Components F) (a : String) : List (Cell F) :=
  if a = "labels" then c.labels.map labelCell else c.ptypes.map .str

/-- the columns of the probabilities -/
def Components.probColumns (c : Components F) : List (String × List (Cell F)) :=
  match c.probabilities with
  | none => []
  | some p => (List.range p.width).map fun k =>
      ("probs_" ++ toString k, p.rows.map fun r => .num (r.getD k Num.nan))

theorem Components.collect_ok (c : Components F) (attrs acc : List String) (p : Option (DF F))
    (hk : ∀ a ∈ attrs, a = "labels" ∨ a = "ptypes" ∨ a = "probabilities") :
    Components.collect c attrs (acc.map fun a => (a, Col.arr (c.column a))) p
      = .ok (((attrs.filter (· ≠ "probabilities")).foldl
            (fun acc a => if acc.contains a then acc else acc ++ [a]) acc).map
              (fun a => (a, Col.arr (c.column a))),
          if "probabilities" ∈ attrs then
            (match c.probabilities with | some m => some (probsDF m) | none => p) else p) := by
  induction attrs generalizing acc p with
  | nil => simp [Components.collect]
  | cons a attrs ih =>
    have ih' := fun acc p => ih acc p (fun b hb => hk b (by simp [hb]))
    by_cases ha : a = "probabilities"
    · subst ha
      cases hp : c.probabilities with
      | none =>
        have := ih' acc p
        rw [hp] at this
        simp [Components.collect, hp, this]
      | some m =>
        have := ih' acc (some (probsDF m))
        rw [hp] at this
        simp [Components.collect, hp, this]
    · have hget : Dict.getItem (Components.columnsMakers c) a = .ok (.arr (c.column a)) := by
        rcases hk a (by simp) with rfl | rfl | h
        · rfl
        · rfl
        · exact absurd h ha
      simp only [Components.collect, beq_iff_eq, ha, if_false, hget, Py.ok_bind]
      have hne : "probabilities" ≠ a := Ne.symm ha
      by_cases hm : a ∈ acc
      · rw [Dict.set_map_mem acc (fun a => Col.arr (c.column a)) a hm, ih']
        simp [hm, ha, hne]
      · rw [Dict.set_map_not_mem acc (fun a => Col.arr (c.column a)) a hm, ih']
        simp [hm, ha, hne]

/-- C48: the frame has the requested columns in order of first request, then the probabilities if
requested and present; every column lists the values of particle 0, 1, 2, ... in order. -/
theorem C48_frame (c : Components F) (hp : c.ptypes.length = c.labels.length)
    (hpr : ∀ p, c.probabilities = some p → p.rows.length = c.labels.length) (attrs : List String)
    (hk : ∀ a ∈ attrs, a = "labels" ∨ a = "ptypes" ∨ a = "probabilities") :
    ∃ df, c.toDataframe (some attrs) = .ok df ∧
      df.cols = (distinct (attrs.filter (· ≠ "probabilities"))).map (fun a => (a, c.column a)) ++
        (if "probabilities" ∈ attrs then c.probColumns else []) ∧
      (df.nrows = c.len ∨ df.nrows = 0 ∧ ∀ a ∈ attrs, a = "probabilities" ∧ c.probabilities = none) ∧
      ∀ kv ∈ df.cols, kv.2.length = df.nrows := by
  have hcol : ∀ a, (c.column a).length = c.labels.length := by
    intro a
    unfold Components.column
    split <;> simp [hp]
  have hcollect := Components.collect_ok c attrs [] none hk
  simp only [List.map_nil] at hcollect
  change _ = Except.ok ((distinct (attrs.filter (· ≠ "probabilities"))).map _, _) at hcollect
  set S := distinct (attrs.filter (· ≠ "probabilities")) with hS
  have hof : ofDict (S.map fun a => (a, Col.arr (c.column a)))
      = .ok ⟨S.map fun a => (a, c.column a), if S = [] then 0 else c.labels.length⟩ := by
    by_cases hnil : S = []
    · rw [hnil]; rfl
    · rw [if_neg hnil]
      obtain ⟨a, ha⟩ := List.exists_mem_of_ne_nil S hnil
      exact ofDict_uniform S (fun a => Col.arr (c.column a)) c.labels.length
        (fun a _ => hcol a) ⟨a, ha, trivial⟩
  unfold Components.toDataframe
  simp only [Option.getD_some]
  rw [hcollect]
  simp only [Py.ok_bind]
  rw [hof]
  simp only [Py.ok_bind]
  have hno : (S = [] → ∀ a ∈ attrs, a = "probabilities") := by
    intro hnil a ha
    by_contra hne
    have : a ∈ S := mem_distinct.2 (by simp [ha, hne])
    rw [hnil] at this; cases this
  have plain : (∀ a ∈ attrs, a = "probabilities" → c.probabilities = none) →
      (if "probabilities" ∈ attrs then c.probColumns else []) = [] →
      ∃ df, (Except.ok ⟨S.map fun a => (a, c.column a),
            if S = [] then 0 else c.labels.length⟩ : Py (DF F)) = .ok df ∧
        df.cols = S.map (fun a => (a, c.column a)) ++
          (if "probabilities" ∈ attrs then c.probColumns else []) ∧
        (df.nrows = c.len ∨
          df.nrows = 0 ∧ ∀ a ∈ attrs, a = "probabilities" ∧ c.probabilities = none) ∧
        ∀ kv ∈ df.cols, kv.2.length = df.nrows := by
    intro hnone hcols
    refine ⟨_, rfl, by rw [hcols]; simp, ?_, ?_⟩
    · by_cases hnil : S = []
      · right
        exact ⟨by simp [hnil], fun a ha => ⟨hno hnil a ha, hnone a ha (hno hnil a ha)⟩⟩
      · left; simp [hnil, Components.len]
    · intro kv hkv
      simp only [List.mem_map] at hkv
      obtain ⟨a, ha, rfl⟩ := hkv
      rw [if_neg (List.ne_nil_of_mem ha)]
      exact hcol a
  by_cases hmem : "probabilities" ∈ attrs
  · cases hcp : c.probabilities with
    | none =>
      have := plain (fun _ _ _ => hcp) (by simp [Components.probColumns, hcp])
      simpa [hmem, hcp] using this
    | some p =>
      have hpl := hpr p hcp
      simp only [hmem, if_true]
      unfold concatCols
      simp only [List.isEmpty_cons, Bool.false_eq_true, if_false, List.map_cons, List.map_nil,
        List.foldl_cons, List.foldl_nil, List.flatMap_cons, List.flatMap_nil, List.append_nil,
        List.map_map, Nat.max_eq_max, Nat.zero_max]
      have hmax : max (if S = [] then 0 else c.labels.length) (Components.probsDF p).nrows
          = c.labels.length := by
        simp only [Components.probsDF, hpl]
        split <;> simp
      rw [hmax]
      have e1 : (S.map ((fun kv : String × List (Cell F) => (kv.1, padTo c.labels.length kv.2)) ∘
          fun a => (a, c.column a))) = S.map fun a => (a, c.column a) := by
        apply List.map_congr_left
        intro a _
        simp [padTo_self _ _ (hcol a)]
      have e2 : ((Components.probsDF p).cols.map
          fun kv => (kv.1, padTo c.labels.length kv.2)) = c.probColumns := by
        simp only [Components.probsDF, Components.probColumns, hcp, List.map_map]
        apply List.map_congr_left
        intro k _
        simp only [Function.comp_apply]
        rw [padTo_self c.labels.length (p.rows.map fun r => (.num (r.getD k Num.nan) : Cell F))
          (by simp [hpl])]
      rw [e1, e2]
      refine ⟨_, rfl, rfl, Or.inl rfl, ?_⟩
      intro kv hkv
      simp only at hkv
      rw [List.mem_append] at hkv
      rcases hkv with hkv | hkv
      · simp only [List.mem_map] at hkv
        obtain ⟨a, ha, rfl⟩ := hkv
        exact hcol a
      · simp only [Components.probColumns, hcp, List.mem_map] at hkv
        obtain ⟨k, _, rfl⟩ := hkv
        simp [hpl]
  · have := plain
      (fun a ha h => absurd (h ▸ ha) hmem) (by simp [hmem])
    simpa [hmem] using this

/-- C48: without an attribute list all columns are produced. -/
theorem C48_default (c : Components F) :
    c.toDataframe none = c.toDataframe (some ["labels", "ptypes", "probabilities"]) := rfl

/-- C48: an unknown attribute is a `KeyError`. -/
theorem C48_unknown (c : Components F) (attrs : List String)
    (h : ∃ a ∈ attrs, a ≠ "labels" ∧ a ≠ "ptypes" ∧ a ≠ "probabilities") :
    c.toDataframe (some attrs) = .error .keyError := by
  have key : ∀ (attrs : List String) d p,
      (∃ a ∈ attrs, a ≠ "labels" ∧ a ≠ "ptypes" ∧ a ≠ "probabilities") →
      Components.collect c attrs d p = .error .keyError := by
    intro attrs
    induction attrs with
    | nil => rintro d p ⟨a, ha, _⟩; cases ha
    | cons a attrs ih =>
      rintro d p ⟨x, hx, hx'⟩
      simp only [Components.collect]
      split
      · rename_i ha
        have hx2 : x ∈ attrs := by
          rcases List.mem_cons.1 hx with rfl | h
          · exact absurd (by simpa using ha) hx'.2.2
          · exact h
        cases c.probabilities <;> exact ih _ _ ⟨x, hx2, hx'⟩
      · rename_i ha
        cases hg : Dict.getItem (Components.columnsMakers c) a with
        | error e =>
          unfold Dict.getItem at hg
          split at hg
          · cases hg
          · rw [← hg]; rfl
        | ok col =>
          simp only [Py.ok_bind]
          apply ih
          rcases List.mem_cons.1 hx with rfl | h
          · exfalso
            simp [Components.columnsMakers, Dict.getItem, Dict.get?, hx'.1.symm,
              hx'.2.1.symm] at hg
          · exact ⟨x, h, hx'⟩
  unfold Components.toDataframe
  simp only [Option.getD_some]
  rw [key attrs [] none h]
  rfl

example : (Components.toDataframe (⟨[some 1, none], ["stars", "gas"],
      some ⟨[[q (1/4), q (3/4)], [.nan, .nan]], 2⟩⟩ : Components (Ext ℚ)) (some ["probabilities", "labels"]))
    = .ok ⟨[("labels", [.num (q 1), .num .nan]), ("probs_0", [.num (q (1/4)), .num .nan]),
        ("probs_1", [.num (q (3/4)), .num .nan])], 2⟩ := by decide +kernel

end GChop
