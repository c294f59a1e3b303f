import Verif.Props.Objects
import Verif.Props.CircExact
import Verif.Binary

/-!
# C73: decomposers do not disturb each other

In any session, the results of one decomposer are those it would give if only its own calls were made,
provided its generator is used by nobody else.  Hence a seed makes the results reproducible.
-/

set_option linter.unusedSectionVars false

namespace GChop
open Pd

variable {F : Type} [Num F] {σ M : Type}

/-- the calls made to object `i` -/
def callsTo (i : Nat) : List (Op F σ) → List (Call F)
  | .decompose k c :: ops => if k = i then c :: callsTo i ops else callsTo i ops
  | _ :: ops => callsTo i ops
  | [] => []

/-- what the calls to object `i` returned or raised -/
def answers (i : Nat) : List (Op F σ) → List (Out F) → List (Py (Components F))
  | .decompose k _ :: ops, .components r :: outs =>
    if k = i then r :: answers i ops outs else answers i ops outs
  | _ :: ops, _ :: outs => answers i ops outs
  | _, _ => []

/-- the results of a decomposer with its own generator, call after call -/
def solo (lib : Lib F σ M) (cls : Cls) (p : Dict String (HVal F)) :
    Option σ → List (Call F) → List (Py (Components F))
  | _, [] => []
  | s, c :: cs => (decomposeWith lib c cls p s).1 :: solo lib cls p (decomposeWith lib c cls p s).2 cs

/-- the operation neither gives generator `a` to a new decomposer nor uses it directly -/
def Op.avoids (a : Nat) : Op F σ → Prop
  | .make _ _ kw => Dict.get? kw "random_state" ≠ some (.gen a)
  | .use b _ => b ≠ a
  | _ => True

/-- object `i` is `o`, and no other object has its generator -/
structure Private (w : World F σ) (i : Nat) (o : Obj F) : Prop where
  obj : w.objs[i]? = some o
  alive : ∀ a, o.gen? = some a → a < w.heap.length
  alone : ∀ a, o.gen? = some a → ∀ k o', k ≠ i → w.objs[k]? = some o' → o'.gen? ≠ some a

theorem split_state {lib : Lib F σ M} {c : Call F} {cls : Cls} {p : Dict String (HVal F)}
    {s : Option σ} {X : List (List F)} {r : (List Int × Option (Mat F)) × Option σ}
    (h : Cls.split lib c cls p s X = .ok r) : r.2.isSome = s.isSome := by
  unfold Cls.split at h
  split at h
  · obtain ⟨cut, -, h⟩ := Py.bind_eq_ok.1 h
    obtain ⟨l, -, h⟩ := Py.bind_eq_ok.1 h
    injection h with h; rw [← h]
  · obtain ⟨cut, -, h⟩ := Py.bind_eq_ok.1 h
    obtain ⟨l, -, h⟩ := Py.bind_eq_ok.1 h
    obtain ⟨q, -, h⟩ := Py.bind_eq_ok.1 h
    injection h with h; rw [← h]; rfl
  · obtain ⟨cut, -, h⟩ := Py.bind_eq_ok.1 h
    obtain ⟨l, -, h⟩ := Py.bind_eq_ok.1 h
    obtain ⟨q, -, h⟩ := Py.bind_eq_ok.1 h
    obtain ⟨q, -, h⟩ := Py.bind_eq_ok.1 h
    injection h with h; rw [← h]; rfl
  · obtain ⟨q, -, h⟩ := Py.bind_eq_ok.1 h
    injection h with h; rw [← h]; rfl
  · obtain ⟨q, -, h⟩ := Py.bind_eq_ok.1 h
    injection h with h; rw [← h]; rfl
  · obtain ⟨cut, -, h⟩ := Py.bind_eq_ok.1 h
    obtain ⟨q, -, h⟩ := Py.bind_eq_ok.1 h
    injection h with h; rw [← h]; rfl
  · cases h

theorem decomposeWith_state (lib : Lib F σ M) (c : Call F) (cls : Cls) (p : Dict String (HVal F))
    (s : Option σ) : (decomposeWith lib c cls p s).2.isSome = s.isSome := by
  unfold decomposeWith
  dsimp only
  split
  · rfl
  · split
    · rename_i h; exact split_state h
    · simp

theorem defaultRng_heap (lib : Lib F σ M) (w : World F σ) (v : HVal F) :
    (defaultRng lib w v).2.objs = w.objs ∧
    (∀ a, a < w.heap.length → (defaultRng lib w v).2.heap[a]? = w.heap[a]?) ∧
    w.heap.length ≤ (defaultRng lib w v).2.heap.length ∧
    (∀ r, (defaultRng lib w v).1 = .ok r → v = .gen r ∨ r = w.heap.length) := by
  unfold defaultRng
  split
  · exact ⟨rfl, fun _ _ => rfl, le_rfl, by rintro r h; injection h with h; rw [h]; exact .inl rfl⟩
  · refine ⟨rfl, fun a ha => List.getElem?_append_left ha, by simp, ?_⟩
    rintro r h; injection h with h; exact .inr h.symm
  · split
    · refine ⟨rfl, fun a ha => List.getElem?_append_left ha, by simp, ?_⟩
      rintro r h; injection h with h; exact .inr h.symm
    · exact ⟨rfl, fun _ _ => rfl, le_rfl, by rintro r h; cases h⟩

/-- a construction keeps all generators -/
theorem construct_heap (lib : Lib F σ M) (w : World F σ) (cls : Cls) (nPos : Nat)
    (kw : Dict String (HVal F)) :
    (construct lib w cls nPos kw).2.objs = w.objs ∧
    (∀ a, a < w.heap.length → (construct lib w cls nPos kw).2.heap[a]? = w.heap[a]?) ∧
    w.heap.length ≤ (construct lib w cls nPos kw).2.heap.length := by
  unfold construct
  split
  · exact ⟨rfl, fun _ _ => rfl, le_rfl⟩
  · dsimp only
    split
    · exact ⟨rfl, fun _ _ => rfl, le_rfl⟩
    · rename_i v _
      have h := defaultRng_heap lib w v
      split <;> (rename_i hr; rw [hr] at h; exact ⟨h.1, h.2.1, h.2.2.1⟩)

/-- the generator of a new object is new or was given -/
theorem construct_gen {lib : Lib F σ M} {w w' : World F σ} {cls : Cls} {nPos : Nat}
    {kw : Dict String (HVal F)} {o : Obj F} (h : construct lib w cls nPos kw = (.ok o, w')) {a : Nat}
    (ha : o.gen? = some a) :
    Dict.get? kw "random_state" = some (.gen a) ∨ (a = w.heap.length ∧ a < w'.heap.length) := by
  obtain ⟨-, h1, h2, h3⟩ := C72_generator h
  cases hk : Dict.get? kw "random_state" with
  | none =>
    rcases h3 (.inl hk) with ⟨h4, -⟩ | ⟨h4, h5⟩
    · rw [ha] at h4; cases h4
    · rw [ha] at h4; injection h4 with h4; subst h4
      exact .inr ⟨rfl, by rw [h5]; simp⟩
  | some v =>
    cases v with
    | gen r =>
      have := (h1 r hk).1
      rw [ha] at this; injection this with this; subst this
      exact .inl rfl
    | py v =>
      by_cases hn : v = .none
      · subst hn
        rcases h3 (.inr hk) with ⟨h4, -⟩ | ⟨h4, h5⟩
        · rw [ha] at h4; cases h4
        · rw [ha] at h4; injection h4 with h4; subst h4
          exact .inr ⟨rfl, by rw [h5]; simp⟩
      · obtain ⟨s, -, h4, h5⟩ := h2 v hn hk
        rw [ha] at h4; injection h4 with h4; subst h4
        exact .inr ⟨rfl, by rw [h5]; simp⟩

/-- an operation that avoids the generator of `o` and is not a call to `o` keeps everything about `o` -/
theorem Private.step {lib : Lib F σ M} {w : World F σ} {i : Nat} {o : Obj F} (h : Private w i o)
    (op : Op F σ) (ha : ∀ a, o.gen? = some a → op.avoids a) :
    Private (step lib w op).2 i o ∧
    ((∀ c, op ≠ .decompose i c) → (step lib w op).2.stateOf o = w.stateOf o) := by
  have hi : i < w.objs.length := by
    have := h.obj
    rw [List.getElem?_eq_some_iff] at this
    exact this.1
  cases op with
  | make cls nPos kw =>
    obtain ⟨c1, c2, c3⟩ := construct_heap lib w cls nPos kw
    have key : ∀ w' : World F σ, (∀ a, a < w.heap.length → w'.heap[a]? = w.heap[a]?) →
        w'.stateOf o = w.stateOf o := by
      intro w' hw
      unfold World.stateOf
      cases hg : o.gen? with
      | none => rfl
      | some a => exact hw a (h.alive a hg)
    cases hc : construct lib w cls nPos kw with
    | mk r w' =>
      rw [hc] at c1 c2 c3
      cases r with
      | error e =>
        simp only [GChop.step, hc]
        exact ⟨⟨by rw [c1]; exact h.obj, fun a hg => lt_of_lt_of_le (h.alive a hg) c3,
          fun a hg k o' hk ho => h.alone a hg k o' hk (by rw [← c1]; exact ho)⟩, fun _ => key w' c2⟩
      | ok o₁ =>
        simp only [GChop.step, hc]
        refine ⟨⟨?_, fun a hg => lt_of_lt_of_le (h.alive a hg) c3, ?_⟩, fun _ => key _ c2⟩
        · show (w'.objs ++ [o₁])[i]? = some o
          rw [c1, List.getElem?_append_left hi]; exact h.obj
        · intro a hg k o' hk ho
          replace ho : (w'.objs ++ [o₁])[k]? = some o' := ho
          rw [c1] at ho
          by_cases hkl : k < w.objs.length
          · rw [List.getElem?_append_left hkl] at ho
            exact h.alone a hg k o' hk ho
          · rw [List.getElem?_append_right (by omega)] at ho
            have : o' = o₁ := by
              cases hd : k - w.objs.length with
              | zero => rw [hd] at ho; simpa using ho.symm
              | succ n => rw [hd] at ho; simp at ho
            subst this
            intro hg'
            rcases construct_gen hc hg' with h1 | ⟨h1, -⟩
            · exact ha a hg h1
            · have := h.alive a hg; omega
  | decompose k c =>
    cases hk : w.objs[k]? with
    | none =>
      simp only [GChop.step, hk]
      exact ⟨h, fun _ => by trivial⟩
    | some o₁ =>
      simp only [GChop.step, hk]
      cases hg1 : o₁.gen? with
      | none => exact ⟨h, fun _ => by trivial⟩
      | some a₁ =>
        cases hs : (decomposeWith lib c o₁.cls o₁.params (w.stateOf o₁)).2 with
        | none => exact ⟨h, fun _ => by trivial⟩
        | some s =>
          refine ⟨⟨h.obj, fun a hg => by simpa using h.alive a hg, h.alone⟩, fun hne => ?_⟩
          have hki : k ≠ i := fun hh => hne c (by rw [hh])
          unfold World.stateOf
          cases hg : o.gen? with
          | none => rfl
          | some a =>
            have : a₁ ≠ a := by
              rintro rfl
              exact h.alone a₁ hg k o₁ hki hk hg1
            simp [List.getElem?_set_ne this]
  | setattr k n v => exact ⟨h, fun _ => rfl⟩
  | use b f =>
    refine ⟨⟨h.obj, fun a hg => by simpa [GChop.step] using h.alive a hg, h.alone⟩, fun _ => ?_⟩
    unfold World.stateOf
    cases hg : o.gen? with
    | none => rfl
    | some a =>
      have : b ≠ a := ha a hg
      simp [GChop.step, List.getElem?_modify, this]

/-- **C73**: in every session the answers of a decomposer whose generator nobody else uses are those it
gives on its own. -/
theorem C73_isolation (lib : Lib F σ M) (w : World F σ) (i : Nat) (o : Obj F) (h : Private w i o)
    (ops : List (Op F σ)) (ha : ∀ op ∈ ops, ∀ a, o.gen? = some a → op.avoids a) :
    answers i ops (session lib w ops)
      = solo lib o.cls o.params (w.stateOf o) (callsTo i ops) := by
  induction ops generalizing w with
  | nil => rfl
  | cons op ops ih =>
    obtain ⟨h1, h2⟩ := h.step (lib := lib) op (ha op (by simp))
    have ih' := ih (step lib w op).2 h1 (fun op' ho => ha op' (List.mem_cons_of_mem _ ho))
    cases op with
    | make cls nPos kw =>
      rw [h2 (by intro c hc; cases hc)] at ih'
      exact ih'
    | setattr k n v =>
      rw [h2 (by intro c hc; cases hc)] at ih'
      exact ih'
    | use b f =>
      rw [h2 (by intro c hc; cases hc)] at ih'
      exact ih'
    | decompose k c =>
      have hout : ∃ r, (step lib w (.decompose k c)).1 = .components r := by
        simp only [step]; split <;> exact ⟨_, rfl⟩
      obtain ⟨r, hr⟩ := hout
      by_cases hk : k = i
      · subst hk
        have e1 : (step lib w (.decompose k c)).1
            = .components (decomposeWith lib c o.cls o.params (w.stateOf o)).1 := by
          simp only [step, h.obj]
        have e2 : (step lib w (.decompose k c)).2.stateOf o
            = (decomposeWith lib c o.cls o.params (w.stateOf o)).2 := by
          have hst := decomposeWith_state lib c o.cls o.params (w.stateOf o)
          simp only [step, h.obj]
          cases hg : o.gen? with
          | none =>
            have : w.stateOf o = none := by simp [World.stateOf, hg]
            rw [this] at hst ⊢
            simp only [Option.isSome_none, Option.isSome_eq_false_iff, Option.isNone_iff_eq_none] at hst
            rw [hst]
          | some a =>
            have hal := h.alive a hg
            have : w.stateOf o = some w.heap[a] := by simp [World.stateOf, hg, hal]
            rw [this] at hst ⊢
            obtain ⟨s, hs⟩ := Option.isSome_iff_exists.1 hst
            rw [hs]
            simp [World.stateOf, hg, hal]
        show answers k (.decompose k c :: ops) ((step lib w (.decompose k c)).1 :: _) = _
        rw [e1, answers, if_pos rfl, callsTo, if_pos rfl, solo, ih', e2]
      · rw [h2 (by intro c' hc; injection hc with hc; exact hk hc)] at ih'
        show answers i (.decompose k c :: ops) ((step lib w (.decompose k c)).1 :: _) = _
        rw [hr, answers, if_neg hk, callsTo, if_neg hk]
        exact ih'

/-- every object refers to a generator that exists -/
def World.WF (w : World F σ) : Prop :=
  ∀ (k : Nat) (o : Obj F) (a : Nat), w.objs[k]? = some o → o.gen? = some a → a < w.heap.length

/-- the operation refers to generators that exist, as Python ensures -/
def Op.refersTo (w : World F σ) : Op F σ → Prop
  | .make _ _ kw => ∀ a, Dict.get? kw "random_state" = some (.gen a) → a < w.heap.length
  | _ => True

/-- sessions keep `WF`, which the empty world has -/
theorem World.WF.step {lib : Lib F σ M} {w : World F σ} (h : w.WF) (op : Op F σ)
    (hr : op.refersTo w) : (step lib w op).2.WF := by
  cases op with
  | make cls nPos kw =>
    obtain ⟨c1, c2, c3⟩ := construct_heap lib w cls nPos kw
    cases hc : construct lib w cls nPos kw with
    | mk r w' =>
      rw [hc] at c1 c2 c3
      cases r with
      | error e =>
        simp only [GChop.step, hc]
        intro k o a ho hg
        exact lt_of_lt_of_le (h k o a (by rw [← c1]; exact ho) hg) c3
      | ok o₁ =>
        simp only [GChop.step, hc]
        intro k o a ho hg
        replace ho : (w'.objs ++ [o₁])[k]? = some o := ho
        rw [c1] at ho
        by_cases hkl : k < w.objs.length
        · rw [List.getElem?_append_left hkl] at ho
          exact lt_of_lt_of_le (h k o a ho hg) c3
        · rw [List.getElem?_append_right (by omega)] at ho
          have : o = o₁ := by
            cases hd : k - w.objs.length with
            | zero => rw [hd] at ho; simpa using ho.symm
            | succ n => rw [hd] at ho; simp at ho
          subst this
          rcases construct_gen hc hg with h1 | ⟨-, h1⟩
          · exact lt_of_lt_of_le (hr a h1) c3
          · exact h1
  | decompose k c =>
    intro k' o a ho hg
    simp only [GChop.step] at ho ⊢
    split at ho
    · exact h k' o a ho hg
    · dsimp only at ho ⊢
      split at ho
      · simpa using h k' o a ho hg
      · exact h k' o a ho hg
  | setattr k n v => exact h
  | use b f =>
    intro k' o a ho hg
    simpa [GChop.step] using h k' o a ho hg

theorem World.WF.empty (n : Nat) : (⟨[], [], n⟩ : World F σ).WF := by
  intro k o a ho; simp at ho

/-- a new object with a seed of its own is private -/
theorem private_of_make {lib : Lib F σ M} {w w' : World F σ} (hw : w.WF) {cls : Cls}
    {kw : Dict String (HVal F)} {o : Obj F} (hc : construct lib w cls 0 kw = (.ok o, w'))
    (hs : ∀ a, Dict.get? kw "random_state" ≠ some (.gen a)) :
    Private { w' with objs := w'.objs ++ [o] } w.objs.length o := by
  obtain ⟨c1, c2, c3⟩ := construct_heap lib w cls 0 kw
  rw [hc] at c1 c2 c3
  refine ⟨?_, ?_, ?_⟩
  · show (w'.objs ++ [o])[w.objs.length]? = some o
    rw [c1]; simp
  · intro a hg
    rcases construct_gen hc hg with h1 | ⟨-, h1⟩
    · exact absurd h1 (hs a)
    · exact h1
  · intro a hg k o' hk ho hg'
    replace ho : (w'.objs ++ [o])[k]? = some o' := ho
    rw [c1] at ho
    have ha : a = w.heap.length := by
      rcases construct_gen hc hg with h1 | ⟨h1, -⟩
      · exact absurd h1 (hs a)
      · exact h1
    have hkl : k < w.objs.length := by
      have := (List.getElem?_eq_some_iff.1 ho).1
      simp at this; omega
    rw [List.getElem?_append_left hkl] at ho
    have := hw k o' a ho hg'
    omega

/-- **C73**: reproducibility.  Construct the same decomposer, with the same seed, in two sessions that have
gone in any way before, and go on in any way that leaves its generator alone: as long as the calls to the
two decomposers are the same, so are the answers. -/
theorem C73_reproducible (lib : Lib F σ M) (w₁ w₂ w₁' w₂' : World F σ) (h₁ : w₁.WF) (h₂ : w₂.WF)
    (cls : Cls) (kw : Dict String (HVal F)) (o₁ o₂ : Obj F)
    (c₁ : construct lib w₁ cls 0 kw = (.ok o₁, w₁')) (c₂ : construct lib w₂ cls 0 kw = (.ok o₂, w₂'))
    (hs : cls = .jThreshold ∨ ∃ v, v ≠ .none ∧ Dict.get? kw "random_state" = some (.py v))
    (ops₁ ops₂ : List (Op F σ)) (a₁ : ∀ op ∈ ops₁, op.avoids w₁.heap.length)
    (a₂ : ∀ op ∈ ops₂, op.avoids w₂.heap.length)
    (hcalls : callsTo w₁.objs.length ops₁ = callsTo w₂.objs.length ops₂) :
    answers w₁.objs.length ops₁ (session lib (step lib w₁ (.make cls 0 kw)).2 ops₁)
      = answers w₂.objs.length ops₂ (session lib (step lib w₂ (.make cls 0 kw)).2 ops₂) := by
  have hng : ∀ a, Dict.get? kw "random_state" ≠ some (.gen a) := by
    intro a hh
    rcases hs with rfl | ⟨v, -, hv⟩
    · obtain ⟨-, hk, -⟩ := construct_inv c₁
      have := hk _ (Dict.mem_keys.2 ⟨_, hh⟩)
      simp [Cls.hparams, cbinsParam, Dict.keys] at this
    · rw [hv] at hh; cases hh
  have main : ∀ (w w' : World F σ) (o : Obj F), w.WF → construct lib w cls 0 kw = (.ok o, w') →
      ∀ ops : List (Op F σ), (∀ op ∈ ops, op.avoids w.heap.length) →
      answers w.objs.length ops (session lib (step lib w (.make cls 0 kw)).2 ops)
        = solo lib cls (Dict.erase (bindArgs cls kw) "random_state")
          (match Dict.get? kw "random_state" with
            | some (.py v) => (lib.seeded v).toOption
            | _ => none) (callsTo w.objs.length ops) := by
    intro w w' o hw hc ops hav
    have hp := private_of_make hw hc hng
    have hstep : (step lib w (.make cls 0 kw)).2 = { w' with objs := w'.objs ++ [o] } := by
      simp only [step, hc]
    have hadr : ∀ a, o.gen? = some a → a = w.heap.length := by
      intro a hg
      rcases construct_gen hc hg with h1 | ⟨h1, -⟩
      · exact absurd h1 (hng a)
      · exact h1
    rw [hstep, C73_isolation lib _ _ o hp ops (by
      intro op ho a hg; rw [hadr a hg]; exact hav op ho)]
    obtain ⟨-, -, hcls, -, hcase⟩ := construct_inv hc
    have hpar : o.params = Dict.erase (bindArgs cls kw) "random_state" := by
      rcases hcase with ⟨-, e, -⟩ | ⟨v, r, -, -, e⟩
      · rw [Obj.params, e]
      · rw [Obj.params, e, Dict.erase_set]
    rw [hcls, hpar]
    congr 1
    rcases hs with hj | ⟨v, hv, hk⟩
    · have hno : o.gen? = none := by
        refine (C72_attributes hc).2.2.2.2.2.2 ?_
        rw [hj]; simp [Cls.hparams, cbinsParam, Dict.keys]
      have hkn : Dict.get? kw "random_state" = none := by
        rw [← Dict.not_mem_keys]
        intro hm
        have := (construct_inv hc).2.1 _ hm
        rw [hj] at this
        simp [Cls.hparams, cbinsParam, Dict.keys] at this
      rw [hkn]
      simp [World.stateOf, hno]
    · obtain ⟨s, e1, e2, e3⟩ := (C72_generator hc).2.2.1 v hv hk
      rw [hk]
      simp [World.stateOf, e2, e3, e1, Except.toOption]
  rw [main w₁ w₁' o₁ h₁ c₁ ops₁ a₁, main w₂ w₂' o₂ h₂ c₂ ops₂ a₂, hcalls]

/-- **C73**: decomposers are immutable: nothing in a session changes the class or a hyperparameter of an
object, and assignments raise `AttributeError`. -/
theorem C73_frozen (lib : Lib F σ M) (w : World F σ) (op : Op F σ) (i : Nat) (o : Obj F)
    (h : w.objs[i]? = some o) :
    (step lib w op).2.objs[i]? = some o ∧
    (∀ n v, (step lib w (.setattr i n v)) = (.done (.error .attributeError), w)) := by
  have hi : i < w.objs.length := (List.getElem?_eq_some_iff.1 h).1
  refine ⟨?_, fun _ _ => rfl⟩
  cases op with
  | make cls nPos kw =>
    obtain ⟨c1, -, -⟩ := construct_heap lib w cls nPos kw
    cases hc : construct lib w cls nPos kw with
    | mk r w' =>
      rw [hc] at c1
      cases r with
      | error e => simp only [step, hc]; rw [c1]; exact h
      | ok o₁ =>
        simp only [step, hc]
        rw [c1, List.getElem?_append_left hi]; exact h
  | decompose k c =>
    simp only [step]
    split
    · exact h
    · dsimp only
      split <;> exact h
  | setattr k n v => exact h
  | use b f => exact h

/-! ## Parallel workers -/

/-- the same call, apart from the order in which the workers finish -/
structure SameCall (c c' : Call F) : Prop where
  galaxy : c.galaxy = c'.galaxy
  env : c.env = c'.env
  junk : c.junk = c'.junk
  sched : c.sched.Perm (List.range 14)
  sched' : c'.sched.Perm (List.range 14)

theorem toOption_eq_of_ok {α : Type} {x y : Py α} (h : ∀ r, x = .ok r ↔ y = .ok r) :
    x.toOption = y.toOption := by
  cases x with
  | ok a => rw [(h a).1 rfl]
  | error e =>
    cases y with
    | ok b => have := (h b).2 rfl; cases this
    | error e' => rfl

theorem toOption_bind {α β : Type} {x y : Py α} {f g : α → Py β} (h : x.toOption = y.toOption)
    (hf : ∀ a, (f a).toOption = (g a).toOption) : (x >>= f).toOption = (y >>= g).toOption := by
  cases x with
  | ok a =>
    cases y with
    | ok b =>
      simp only [Except.toOption, Option.some.injEq] at h
      subst h; exact hf a
    | error e => cases h
  | error e =>
    cases y with
    | ok b => cases h
    | error e' => rfl

theorem split_sched (lib : Lib F σ M) (hg : lib.gmm.OK) {c c' : Call F} (h : SameCall c c') (cls : Cls)
    (p : Dict String (HVal F)) (s : Option σ) (X : List (List F)) :
    (Cls.split lib c cls p s X).toOption = (Cls.split lib c' cls p s X).toOption := by
  cases cls <;> cases s <;> simp only [Cls.split, h.junk]
  · rename_i s
    refine toOption_bind rfl fun cBic => toOption_bind ?_ fun r => rfl
    exact toOption_eq_of_ok (C46_split lib.gmm hg cBic (gmmOf p) c.sched c'.sched h.sched h.sched' s X).1

theorem decompose_toOption (env : CircEnv F) (cbins : F × F) (d d' : Decomposer F) (g : Galaxy F)
    (h1 : d.attributes = d'.attributes) (h2 : d.rowsMask = d'.rowsMask)
    (h3 : ∀ X y, (d.split X y).toOption = (d'.split X y).toOption) :
    (decompose env cbins d g).toOption = (decompose env cbins d' g).toOption := by
  unfold decompose
  rw [h1, h2]
  refine toOption_bind rfl fun Xy => toOption_bind rfl fun mask => toOption_bind rfl fun xc =>
    toOption_bind rfl fun yc => toOption_bind (h3 _ _) fun lp => rfl

/-- **C73**: the order in which parallel workers finish does not matter, call after call: the results are
the same, and calls that fail fail in both cases. -/
theorem C73_workers (lib : Lib F σ M) (hg : lib.gmm.OK) (cls : Cls) (p : Dict String (HVal F))
    (s : Option σ) (cs cs' : List (Call F)) (h : List.Forall₂ SameCall cs cs') :
    (solo lib cls p s cs).map Except.toOption = (solo lib cls p s cs').map Except.toOption := by
  induction h generalizing s with
  | nil => rfl
  | @cons c c' l l' hc hl ih =>
    have hsp := split_sched lib hg hc cls p s
    have e1 : (decomposeWith lib c cls p s).1.toOption = (decomposeWith lib c' cls p s).1.toOption := by
      unfold decomposeWith
      dsimp only
      rw [hc.env, hc.galaxy]
      refine decompose_toOption _ _ _ _ _ rfl rfl ?_
      intro X y
      show ((Cls.split lib c cls p s X).map Prod.fst).toOption
        = ((Cls.split lib c' cls p s X).map Prod.fst).toOption
      have := hsp X
      cases h1 : Cls.split lib c cls p s X <;> cases h2 : Cls.split lib c' cls p s X <;>
        rw [h1, h2] at this <;> simp_all [Except.toOption, Except.map]
    have e2 : (decomposeWith lib c cls p s).2 = (decomposeWith lib c' cls p s).2 := by
      unfold decomposeWith
      dsimp only
      have : ∀ d d' : Decomposer F, d.attributes = d'.attributes → d.rowsMask = d'.rowsMask →
          cleanRows c.env (cbinsOf p) d c.galaxy = cleanRows c'.env (cbinsOf p) d' c'.galaxy := by
        intro d d' h1 h2
        unfold cleanRows
        rw [h1, h2, hc.env, hc.galaxy]
      rw [this (Cls.decomposer lib c cls p s) (Cls.decomposer lib c' cls p s) rfl rfl]
      split
      · rfl
      · rename_i X _
        have := hsp X
        cases h1 : Cls.split lib c cls p s X <;> cases h2 : Cls.split lib c' cls p s X <;>
          rw [h1, h2] at this <;> simp_all [Except.toOption]
    simp only [solo, List.map_cons]
    rw [e1, e2, ih]

/-! ## Examples -/

/-- a library in which a generator is a counter; selections come from alternating ends -/
def sessLib : Lib (Ext ℚ) Nat Unit where
  rng := ⟨fun s a k => (if s % 2 = 0 then a.take k else a.reverse.take k, s + 1)⟩
  kmeans := fun _ s X => .ok (X.map fun _ => (0 : Int), s)
  gmm :=
    { int := fun n => .py (.int n), fitState := fun _ s _ => .ok ((), s), fitSeed := fun _ _ _ => .ok (),
      predict := fun _ X => .ok (X.map fun _ => 0), predictProba := fun _ X => .ok ⟨X.map fun _ => [q 1], 1⟩,
      bic := fun _ _ => .ok (q 0), nComponents := fun _ => 1, means := fun _ => ⟨[[q 0, q 0, q 0]], 3⟩,
      randint := fun s n => (List.replicate n 0, s) }
  seeded := fun v => match v with
    | .int i => .ok i.toNat
    | _ => .error .typeError
  entropy := fun n => 1000 + n
  afterError := fun _ _ s _ => s + 100

/-- one counter-rotating star and two co-rotating ones -/
def exCall : Call (Ext ℚ) where
  galaxy := Galaxy.ofBodies { exLost with
    stars := [orbit (-29/100) (-2), orbit (-29/100) 2, orbit (-28/100) 1]
    dm := [orbit (-1) 1, orbit (-27/100) 3, orbit (-1/1000) 4] }
  env := exEnv
  junk := fun _ => 7
  sched := List.range 14

/-- the labels an operation shows -/
def Out.labels? : Out F → Option (List (Option Int))
  | .components (.ok c) => some c.labels
  | _ => none

/-- a `JHistogram` with two bins -/
def exMake (rs : HVal (Ext ℚ)) : Op (Ext ℚ) Nat :=
  .make .jHistogram 0 [("n_bin", .py (.int 2)), ("random_state", rs)]

/-- **C73** (what a seed does not give): the second call to the same decomposer, with the same galaxy,
gives other labels, since the generator has moved on; a new decomposer with the same seed gives the labels
of the first call again. -/
theorem C73_second_call :
    (session sessLib ⟨[], [], 0⟩ [exMake (.py (.int 0)), .decompose 0 exCall, .decompose 0 exCall,
        exMake (.py (.int 0)), .decompose 1 exCall]).map Out.labels?
      = [none, some [some 0, some 0, some 1, none, none, none],
         some [some 0, some 1, some 0, none, none, none], none,
         some [some 0, some 0, some 1, none, none, none]] := by
  decide +kernel

/-- **C73** (the condition is needed): a generator given to two decomposers is shared: a call to one changes
the next answer of the other. -/
theorem C73_shared_generator :
    (session sessLib ⟨[], [], 0⟩ [exMake (.py (.int 0)), exMake (.gen 0), .decompose 0 exCall]).map
        Out.labels? = [none, none, some [some 0, some 0, some 1, none, none, none]] ∧
    (session sessLib ⟨[], [], 0⟩ [exMake (.py (.int 0)), exMake (.gen 0), .decompose 1 exCall,
        .decompose 0 exCall]).map Out.labels?
      = [none, none, some [some 0, some 0, some 1, none, none, none],
         some [some 0, some 1, some 0, none, none, none]] := by
  constructor <;> decide +kernel

/-- non-vacuity of `C73_reproducible`: the second world has seen another decomposer and another call, and
other objects are used in between -/
example :
    (session sessLib ⟨[], [], 0⟩ [exMake (.py (.int 0)), .decompose 0 exCall, .decompose 0 exCall]).map
        Out.labels? = [none, some [some 0, some 0, some 1, none, none, none],
          some [some 0, some 1, some 0, none, none, none]] ∧
    (session sessLib ⟨[], [], 0⟩ [exMake (.py (.int 5)), .decompose 0 exCall, exMake (.py (.int 0)),
        .decompose 1 exCall, .use 0 (· + 1), .decompose 0 exCall, .setattr 1 "n_bin" (.py (.int 4)),
        .decompose 1 exCall]).map Out.labels?
      = [none, some [some 0, some 1, some 0, none, none, none], none,
         some [some 0, some 0, some 1, none, none, none], none,
         some [some 0, some 1, some 0, none, none, none], none,
         some [some 0, some 1, some 0, none, none, none]] := by
  constructor <;> decide +kernel

/-- non-vacuity of C72: the default cut is accepted in exact and in double precision; the `seed` of the
documentation of `JHistogram` is not a parameter; a cut of 2 is refused; a bad `cbins` is refused -/
example : thresholdCheck (Num.ofRat (6/10) : Ext ℚ) = .ok () ∧
    thresholdCheck (Num.ofRat (6/10) : Float64) = .ok () ∧
    ((construct sessLib ⟨[], [], 0⟩ .jHistogram 0 [("seed", .py (.int 1))]).1.toOption.isSome = false) ∧
    ((construct sessLib ⟨[], [], 0⟩ .jThreshold 0 [("eps_cut", .py (.int 2))]).1.toOption.isSome = false) ∧
    ((construct sessLib ⟨[], [], 0⟩ .jThreshold 0 [("eps_cut", .py (.int 1))]).1.toOption.isSome = true) ∧
    ((construct sessLib ⟨[], [], 0⟩ .kMeans 0 [("cbins", .py .none)]).1.toOption.isSome = false) ∧
    ((construct sessLib ⟨[], [], 0⟩ .kMeans 0 []).1.toOption.isSome = true) := by
  decide +kernel

end GChop
