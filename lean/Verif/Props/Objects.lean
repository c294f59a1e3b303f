import Verif.Models
import Verif.Lemmas.Dict
import Verif.Props.Threshold
import Verif.Props.Cluster
import Verif.Props.Decompose

/-!
# C72: constructing decomposers.  C73: decomposers do not disturb each other

The statements of C73 are about sessions: any sequence of constructions, `decompose` calls, assignments
to attributes and other uses of random generators.
-/

set_option linter.unusedSectionVars false

namespace GChop
open Pd

variable {F : Type} [Num F] {σ M : Type}

/-! ## Dictionaries -/

theorem Dict.keys_set_of_mem {ν : Type} {d : Dict String ν} {k : String} {v : ν}
    (h : k ∈ Dict.keys d) : Dict.keys (Dict.set d k v) = Dict.keys d := by
  induction d with
  | nil => simp [Dict.keys] at h
  | cons kv d ih =>
    by_cases hk : kv.1 = k
    · simp [Dict.set, hk, Dict.keys]
    · have : k ∈ Dict.keys d := by
        simp only [Dict.keys, List.map_cons, List.mem_cons] at h
        rcases h with h | h
        · exact absurd h.symm hk
        · exact h
      rw [Dict.set, if_neg hk]
      show kv.1 :: Dict.keys (Dict.set d k v) = kv.1 :: Dict.keys d
      rw [ih this]

theorem Dict.erase_set {ν : Type} (d : Dict String ν) (k : String) (v : ν) :
    Dict.erase (Dict.set d k v) k = Dict.erase d k := by
  induction d with
  | nil => simp [Dict.set, Dict.erase]
  | cons kv d ih =>
    by_cases hk : kv.1 = k
    · simp [Dict.set, hk, Dict.erase]
    · simp [Dict.set, hk, Dict.erase, ih]

theorem Dict.get?_mapVal {ν : Type} (f : String → ν → ν) (d : Dict String ν) (k : String) :
    Dict.get? (d.map fun kv => (kv.1, f kv.1 kv.2)) k = (Dict.get? d k).map (f k) := by
  induction d with
  | nil => rfl
  | cons kv d ih =>
    by_cases hk : kv.1 = k
    · simp [Dict.get?, hk]
    · simp [Dict.get?, hk, ih]

/-! ## Construction -/

theorem get?_bindArgs (cls : Cls) (kw : Dict String (HVal F)) (k : String) :
    Dict.get? (bindArgs cls kw) k
      = (Dict.get? (Cls.hparams cls) k).map fun d => (Dict.get? kw k).getD d :=
  Dict.get?_mapVal (fun k d => (Dict.get? kw k).getD d) _ k

theorem keys_bindArgs (cls : Cls) (kw : Dict String (HVal F)) :
    Dict.keys (bindArgs cls kw) = Dict.keys (Cls.hparams (F := F) cls) := by
  simp [Dict.keys, bindArgs]

/-- the names are all known -/
def KnownNames (cls : Cls) (kw : Dict String (HVal F)) : Prop :=
  ∀ k ∈ Dict.keys kw, k ∈ Dict.keys (Cls.hparams (F := F) cls)

theorem construct_guard (cls : Cls) (kw : Dict String (HVal F)) (nPos : Nat) :
    (nPos ≠ 0 ∨ ¬ (Dict.keys kw).all (fun k => (Dict.keys (Cls.hparams (F := F) cls)).contains k) = true)
      ↔ ¬ (nPos = 0 ∧ KnownNames cls kw) := by
  rw [KnownNames]
  simp only [List.all_eq_true, List.contains_iff_mem]
  tauto

/-- what a successful construction did -/
theorem construct_inv {lib : Lib F σ M} {w w' : World F σ} {cls : Cls} {nPos : Nat}
    {kw : Dict String (HVal F)} {o : Obj F} (h : construct lib w cls nPos kw = (.ok o, w')) :
    nPos = 0 ∧ KnownNames cls kw ∧ o.cls = cls ∧ validate cls o.attrs = .ok () ∧
    ((Dict.get? (bindArgs cls kw) "random_state" = none ∧ o.attrs = bindArgs cls kw ∧ w' = w) ∨
     ∃ v r, Dict.get? (bindArgs cls kw) "random_state" = some v ∧
      defaultRng lib w v = (.ok r, w') ∧
      o.attrs = Dict.set (bindArgs cls kw) "random_state" (.gen r)) := by
  unfold construct at h
  split at h
  · simp at h
  · rename_i hg
    rw [construct_guard, not_not] at hg
    refine ⟨hg.1, hg.2, ?_⟩
    dsimp only at h
    split at h
    · rename_i hn
      simp only [Prod.mk.injEq] at h
      cases hv : validate cls (bindArgs cls kw) with
      | error e => rw [hv] at h; simp [Except.map] at h
      | ok u =>
        rw [hv] at h
        simp only [Except.map, Except.ok.injEq] at h
        obtain ⟨rfl, rfl⟩ := h
        exact ⟨rfl, hv, .inl ⟨hn, rfl, rfl⟩⟩
    · rename_i v hv0
      split at h
      · simp at h
      · rename_i r w₁ hr
        simp only [Prod.mk.injEq] at h
        cases hv : validate cls (Dict.set (bindArgs cls kw) "random_state" (.gen r)) with
        | error e => rw [hv] at h; simp [Except.map] at h
        | ok u =>
          rw [hv] at h
          simp only [Except.map, Except.ok.injEq] at h
          obtain ⟨rfl, rfl⟩ := h
          exact ⟨rfl, hv, .inr ⟨v, r, hv0, hr, rfl⟩⟩

/-- **C72**: positional arguments and unknown keywords (such as the `seed` of the documentation of
`JHistogram`) raise `TypeError` before anything happens. -/
theorem C72_rejects (lib : Lib F σ M) (w : World F σ) (cls : Cls) (nPos : Nat)
    (kw : Dict String (HVal F))
    (h : nPos ≠ 0 ∨ ∃ k ∈ Dict.keys kw, k ∉ Dict.keys (Cls.hparams (F := F) cls)) :
    construct lib w cls nPos kw = (.error .typeError, w) := by
  unfold construct
  rw [if_pos]
  rw [construct_guard, KnownNames]
  rintro ⟨h0, h1⟩
  rcases h with h | ⟨k, hk, hk'⟩
  · exact h h0
  · exact hk' (h1 k hk)

/-- **C72**: an object has the attributes of its class, in order; each holds the argument of that name, or
the default if none was given; `random_state` holds a generator.  `cbins` is a pair of floats. -/
theorem C72_attributes {lib : Lib F σ M} {w w' : World F σ} {cls : Cls} {nPos : Nat}
    {kw : Dict String (HVal F)} {o : Obj F} (h : construct lib w cls nPos kw = (.ok o, w')) :
    o.cls = cls ∧ Dict.keys o.attrs = Dict.keys (Cls.hparams (F := F) cls) ∧
    (∀ k v, k ≠ "random_state" → Dict.get? kw k = some v → Dict.get? o.attrs k = some v) ∧
    (∀ k, k ≠ "random_state" → Dict.get? kw k = none →
      Dict.get? o.attrs k = Dict.get? (Cls.hparams cls) k) ∧
    (∃ a b, Dict.get? o.attrs "cbins" = some (.py (.tuple [.float a, .float b])) ∧
      cbinsOf o.params = (a, b)) ∧
    ("random_state" ∈ Dict.keys (Cls.hparams (F := F) cls) → ∃ r, o.gen? = some r) ∧
    ("random_state" ∉ Dict.keys (Cls.hparams (F := F) cls) → o.gen? = none) := by
  obtain ⟨-, hk, hc, hv, hcase⟩ := construct_inv h
  have hget : ∀ k, k ≠ "random_state" →
      Dict.get? o.attrs k = (Dict.get? (Cls.hparams cls) k).map fun d => (Dict.get? kw k).getD d := by
    intro k hk'
    rcases hcase with ⟨-, ha, -⟩ | ⟨v, r, -, -, ha⟩
    · rw [ha, get?_bindArgs]
    · rw [ha, Dict.get?_set_eq, if_neg (Ne.symm hk'), get?_bindArgs]
  have hmemrs : "random_state" ∈ Dict.keys (Cls.hparams (F := F) cls) ↔
      ∃ v, Dict.get? (bindArgs cls kw) "random_state" = some v := by
    rw [← keys_bindArgs cls kw, Dict.mem_keys]
  refine ⟨hc, ?_, ?_, ?_, ?_, ?_, ?_⟩
  · rcases hcase with ⟨-, ha, -⟩ | ⟨v, r, h1, -, ha⟩
    · rw [ha, keys_bindArgs]
    · rw [ha, Dict.keys_set_of_mem, keys_bindArgs]
      rw [keys_bindArgs]; exact hmemrs.2 ⟨v, h1⟩
  · intro k v hk' hv'
    obtain ⟨d, hd⟩ := Dict.mem_keys.1 (hk k (Dict.mem_keys.2 ⟨v, hv'⟩))
    rw [hget k hk', hd, hv']; rfl
  · intro k hk' hn
    rw [hget k hk', hn]
    cases Dict.get? (Cls.hparams (F := F) cls) k <;> rfl
  · unfold validate at hv
    cases hcb : Dict.get? o.attrs "cbins" with
    | none => rw [hcb] at hv; cases hv
    | some v =>
      rw [hcb] at hv
      match v, hcb, hv with
      | .gen _, hcb, hv => cases hv
      | .py v, hcb, hv =>
        have h2 : cbinsValidator v = .ok () := by
          simp only [Option.getD_some, cbinsCheck] at hv
          cases hh : cbinsValidator v with
          | ok u => rfl
          | error e => rw [hh] at hv; cases hv
        obtain ⟨a, b, rfl⟩ := (C59_cbins v).1.1 h2
        refine ⟨a, b, rfl, ?_⟩
        rw [cbinsOf, attrOf, Obj.params, Dict.get?_erase, if_neg (by decide), hcb]
        rfl
  · intro hm
    rcases hcase with ⟨h1, -, -⟩ | ⟨v, r, -, -, ha⟩
    · obtain ⟨v, hv'⟩ := hmemrs.1 hm
      rw [h1] at hv'; cases hv'
    · exact ⟨r, by rw [Obj.gen?, ha, Dict.get?_set_eq, if_pos rfl]⟩
  · intro hm
    rcases hcase with ⟨h1, ha, -⟩ | ⟨v, r, h1, -, ha⟩
    · rw [Obj.gen?, ha, h1]
    · exact absurd (hmemrs.2 ⟨v, h1⟩) hm

/-- **C72**: which generator the object gets: the one given, or a new one that nothing else refers to, in
the state that belongs to the seed. -/
theorem C72_generator {lib : Lib F σ M} {w w' : World F σ} {cls : Cls} {nPos : Nat}
    {kw : Dict String (HVal F)} {o : Obj F} (h : construct lib w cls nPos kw = (.ok o, w')) :
    w'.objs = w.objs ∧
    (∀ r, Dict.get? kw "random_state" = some (.gen r) → o.gen? = some r ∧ w' = w) ∧
    (∀ v, v ≠ .none → Dict.get? kw "random_state" = some (.py v) →
      ∃ s, lib.seeded v = .ok s ∧ o.gen? = some w.heap.length ∧ w'.heap = w.heap ++ [s]) ∧
    ((Dict.get? kw "random_state" = none ∨ Dict.get? kw "random_state" = some (.py .none)) →
      (o.gen? = none ∧ w' = w) ∨
      (o.gen? = some w.heap.length ∧ w'.heap = w.heap ++ [lib.entropy w.fresh])) := by
  obtain ⟨-, hk, hc, hv, hcase⟩ := construct_inv h
  have hdef : ∀ v : HVal F, Dict.get? (Cls.hparams cls) "random_state" = some v → v = .py .none := by
    intro v hv
    cases cls <;> simp [Cls.hparams, cbinsParam, histogramParams, mixtureParams, Dict.get?] at hv <;>
      exact hv.symm
  rcases hcase with ⟨h1, ha, rfl⟩ | ⟨v, r, h1, h2, ha⟩
  · have hnone : Dict.get? (Cls.hparams (F := F) cls) "random_state" = none := by
      rw [get?_bindArgs] at h1
      cases hd : Dict.get? (Cls.hparams (F := F) cls) "random_state" with
      | none => rfl
      | some d => rw [hd] at h1; cases h1
    have hkw : Dict.get? kw "random_state" = none := by
      rw [← Dict.not_mem_keys]
      intro hm
      exact Dict.not_mem_keys.2 hnone (hk _ hm)
    refine ⟨rfl, ?_, ?_, fun _ => .inl ⟨by rw [Obj.gen?, ha, h1], rfl⟩⟩
    · intro r hr; rw [hkw] at hr; cases hr
    · intro v _ hr; rw [hkw] at hr; cases hr
  · have hg : o.gen? = some r := by rw [Obj.gen?, ha, Dict.get?_set_eq, if_pos rfl]
    have hv' : ∀ u, Dict.get? kw "random_state" = some u → v = u := by
      intro u hu
      rw [get?_bindArgs, hu] at h1
      cases hd : Dict.get? (Cls.hparams (F := F) cls) "random_state" with
      | none => rw [hd] at h1; cases h1
      | some d => rw [hd] at h1; simpa using h1.symm
    have hv0 : Dict.get? kw "random_state" = none → v = .py .none := by
      intro hu
      rw [get?_bindArgs, hu] at h1
      cases hd : Dict.get? (Cls.hparams (F := F) cls) "random_state" with
      | none => rw [hd] at h1; cases h1
      | some d =>
        rw [hd] at h1
        simp only [Option.map_some, Option.getD_none, Option.some.injEq] at h1
        rw [← h1]; exact hdef d hd
    refine ⟨?_, ?_, ?_, ?_⟩
    · unfold defaultRng at h2
      split at h2
      · simp only [Prod.mk.injEq] at h2; rw [← h2.2]
      · simp only [Prod.mk.injEq] at h2; rw [← h2.2]
      · split at h2 <;> simp only [Prod.mk.injEq] at h2 <;> rw [← h2.2]
    · intro r' hr
      rw [hv' _ hr] at h2
      simp only [defaultRng, Prod.mk.injEq, Except.ok.injEq] at h2
      exact ⟨by rw [hg, h2.1], h2.2.symm⟩
    · intro u hu hr
      rw [hv' _ hr] at h2
      have : defaultRng lib w (.py u) = match lib.seeded u with
          | .ok s => (.ok w.heap.length, { w with heap := w.heap ++ [s] })
          | .error e => (.error e, w) := by
        cases u <;> first | rfl | exact absurd rfl hu
      rw [this] at h2
      cases hs : lib.seeded u with
      | error e => rw [hs] at h2; simp at h2
      | ok s =>
        rw [hs] at h2
        simp only [Prod.mk.injEq, Except.ok.injEq] at h2
        exact ⟨s, rfl, by rw [hg, h2.1], by rw [← h2.2]⟩
    · intro hr
      have : v = .py .none := by
        rcases hr with hr | hr
        · exact hv0 hr
        · exact hv' _ hr
      rw [this] at h2
      simp only [defaultRng, Prod.mk.injEq, Except.ok.injEq] at h2
      exact .inr ⟨by rw [hg, h2.1], by rw [← h2.2]⟩

open Classical in
theorem validate_eq (cls : Cls) (attrs : Dict String (HVal F)) {c : HVal F}
    (hc : Dict.get? attrs "cbins" = some c) {e : HVal F}
    (he : cls = .jThreshold → Dict.get? attrs "eps_cut" = some e) :
    validate cls attrs = if (∃ a b, c = .py (.tuple [.float a, .float b])) then
      (if cls = .jThreshold then epsCutValidator e else .ok ()) else .error .valueError := by
  have hcb : cbinsCheck c = if (∃ a b, c = .py (.tuple [.float a, .float b])) then (.ok () : Py Unit)
      else .error .valueError := by
    cases c with
    | gen r => simp [cbinsCheck]
    | py v =>
      by_cases h : ∃ a b, v = .tuple [.float a, .float b]
      · rw [if_pos (by obtain ⟨a, b, rfl⟩ := h; exact ⟨a, b, rfl⟩)]
        exact (C59_cbins v).1.2 h
      · rw [if_neg (by rintro ⟨a, b, hh⟩; exact h ⟨a, b, by injection hh⟩)]
        exact (C59_cbins v).2 h
  unfold validate
  rw [hc, Option.getD_some, hcb]
  by_cases h : ∃ a b, c = .py (.tuple [.float a, .float b])
  · rw [if_pos h, if_pos h]
    by_cases hj : cls = .jThreshold
    · rw [he hj, if_pos hj, if_pos hj]; rfl
    · rw [if_neg hj, if_neg hj]; rfl
  · rw [if_neg h, if_neg h]; rfl

/-- **C72**: what is accepted.  With known names, and a seed numpy accepts, the construction succeeds iff
`cbins`, if given, is a pair of floats and, for `JThreshold`, `eps_cut`, if given, is a number that is not
above 1 nor below -1; a bad `cbins` raises `ValueError`, whatever `eps_cut` is. -/
theorem C72_accepts (lib : Lib F σ M) (w : World F σ) (cls : Cls) (kw : Dict String (HVal F))
    (hd : thresholdCheck (Num.ofRat (6/10) : F) = .ok ()) (hk : KnownNames cls kw)
    (hr : ∀ v, Dict.get? kw "random_state" = some (.py v) → v = .none ∨ ∃ s, lib.seeded v = .ok s) :
    ((∃ o w', construct lib w cls 0 kw = (.ok o, w')) ↔
      (∀ v, Dict.get? kw "cbins" = some v → ∃ a b, v = .py (.tuple [.float a, .float b])) ∧
      (cls = .jThreshold → ∀ v, Dict.get? kw "eps_cut" = some v → ∃ x : F,
        (v = .py (.float x) ∨ (∃ i, v = .py (.int i) ∧ x = Num.ofInt i) ∨
          ∃ b, v = .py (.bool b) ∧ x = Num.ofInt (if b then 1 else 0)) ∧
        (Num.ofRat 1 <. x) = false ∧ (x <. Num.ofRat (-1)) = false)) ∧
    ((∃ v, Dict.get? kw "cbins" = some v ∧ ¬ ∃ a b, v = .py (.tuple [.float a, .float b])) →
      ∃ w', construct lib w cls 0 kw = (.error .valueError, w')) := by
  have hcb : Dict.get? (Cls.hparams (F := F) cls) "cbins"
      = some (.py (.tuple [.float defaultCbin.1, .float defaultCbin.2])) := by
    cases cls <;> simp [Cls.hparams, cbinsParam, Dict.get?]
  have hep : cls = .jThreshold → Dict.get? (Cls.hparams (F := F) cls) "eps_cut"
      = some (.py (.float (Num.ofRat (6/10)))) := by
    rintro rfl; simp [Cls.hparams, cbinsParam, Dict.get?]
  -- the attributes and the world at validation
  have key : ∃ attrs w', (∀ k, k ≠ "random_state" →
        Dict.get? attrs k = Dict.get? (bindArgs cls kw) k) ∧
      construct lib w cls 0 kw = ((validate cls attrs).map fun _ => ⟨cls, attrs⟩, w') := by
    unfold construct
    rw [if_neg (by rw [construct_guard, not_not]; exact ⟨rfl, hk⟩)]
    dsimp only
    cases hrs : Dict.get? (bindArgs cls kw) "random_state" with
    | none => exact ⟨bindArgs cls kw, w, fun _ _ => rfl, rfl⟩
    | some v =>
      have hok : ∃ r w', defaultRng lib w v = (.ok r, w') := by
        cases v with
        | gen r => exact ⟨r, w, rfl⟩
        | py v =>
          have : v = .none ∨ ∃ s, lib.seeded v = .ok s := by
            rw [get?_bindArgs] at hrs
            cases hd' : Dict.get? (Cls.hparams (F := F) cls) "random_state" with
            | none => rw [hd'] at hrs; cases hrs
            | some d =>
              rw [hd'] at hrs
              simp only [Option.map_some, Option.some.injEq] at hrs
              cases hkw : Dict.get? kw "random_state" with
              | some u => rw [hkw] at hrs; exact hr v (by rw [hkw]; exact congrArg some hrs)
              | none =>
                rw [hkw] at hrs
                simp only [Option.getD_none] at hrs
                subst hrs
                left
                cases cls <;>
                  simp [Cls.hparams, cbinsParam, histogramParams, mixtureParams, Dict.get?] at hd' <;>
                  exact hd'.symm
          by_cases hn : v = .none
          · subst hn; exact ⟨_, _, rfl⟩
          · obtain ⟨s, hs⟩ := this.resolve_left hn
            refine ⟨w.heap.length, { w with heap := w.heap ++ [s] }, ?_⟩
            cases v <;> first | exact absurd rfl hn | simp [defaultRng, hs]
      obtain ⟨r, w', h1⟩ := hok
      refine ⟨Dict.set (bindArgs cls kw) "random_state" (.gen r), w', ?_, ?_⟩
      · intro k hk'
        rw [Dict.get?_set_eq, if_neg (Ne.symm hk')]
      · simp only [h1]
  obtain ⟨attrs, w', hat, hcon⟩ := key
  have hval := validate_eq cls attrs
    (c := (Dict.get? kw "cbins").getD (.py (.tuple [.float defaultCbin.1, .float defaultCbin.2])))
    (e := (Dict.get? kw "eps_cut").getD (.py (.float (Num.ofRat (6/10)))))
    (by rw [hat _ (by decide), get?_bindArgs, hcb]; rfl)
    (by intro hj; rw [hat _ (by decide), get?_bindArgs, hep hj]; rfl)
  have hcbiff : (∃ a b, (Dict.get? kw "cbins").getD
        (.py (.tuple [.float defaultCbin.1, .float defaultCbin.2])) = (.py (.tuple [.float a, .float b]) : HVal F)) ↔
      (∀ v, Dict.get? kw "cbins" = some v → ∃ a b, v = .py (.tuple [.float a, .float b])) := by
    cases Dict.get? kw "cbins" with
    | none => simp
    | some v => simp
  have hepiff : epsCutValidator ((Dict.get? kw "eps_cut").getD (.py (.float (Num.ofRat (6/10) : F)))) = .ok () ↔
      (∀ v, Dict.get? kw "eps_cut" = some v → ∃ x : F,
        (v = .py (.float x) ∨ (∃ i, v = .py (.int i) ∧ x = Num.ofInt i) ∨
          ∃ b, v = .py (.bool b) ∧ x = Num.ofInt (if b then 1 else 0)) ∧
        (Num.ofRat 1 <. x) = false ∧ (x <. Num.ofRat (-1)) = false) := by
    have hth : ∀ x : F, thresholdCheck x = .ok () ↔
        (Num.ofRat 1 <. x) = false ∧ (x <. Num.ofRat (-1)) = false := by
      intro x
      unfold thresholdCheck
      cases (Num.ofRat 1 <. x) <;> cases (x <. Num.ofRat (-1)) <;> simp
    cases Dict.get? kw "eps_cut" with
    | none => simpa [epsCutValidator] using hd
    | some v =>
      simp only [Option.getD_some, Option.some.injEq, forall_eq']
      match v with
      | .gen r => simp [epsCutValidator]
      | .py (.float x) =>
        rw [epsCutValidator, hth]
        constructor
        · intro h; exact ⟨x, .inl rfl, h⟩
        · rintro ⟨y, hy | ⟨i, hy, -⟩ | ⟨b, hy, -⟩, h⟩
          · injection hy with hy; injection hy with hy; rw [hy]; exact h
          · injection hy with hy; cases hy
          · injection hy with hy; cases hy
      | .py (.int i) =>
        rw [epsCutValidator, hth]
        constructor
        · intro h; exact ⟨_, .inr (.inl ⟨i, rfl, rfl⟩), h⟩
        · rintro ⟨y, hy | ⟨i', hy, rfl⟩ | ⟨b, hy, -⟩, h⟩
          · injection hy with hy; cases hy
          · injection hy with hy; injection hy with hy; rw [hy]; exact h
          · injection hy with hy; cases hy
      | .py (.bool b) =>
        rw [epsCutValidator, hth]
        constructor
        · intro h; exact ⟨_, .inr (.inr ⟨b, rfl, rfl⟩), h⟩
        · rintro ⟨y, hy | ⟨i', hy, -⟩ | ⟨b', hy, rfl⟩, h⟩
          · injection hy with hy; cases hy
          · injection hy with hy; cases hy
          · injection hy with hy; injection hy with hy; rw [hy]; exact h
      | .py (.str _) => simp [epsCutValidator]
      | .py .none => simp [epsCutValidator]
      | .py (.tuple _) => simp [epsCutValidator]
      | .py (.list _) => simp [epsCutValidator]
      | .py .other => simp [epsCutValidator]
  have hmap : (∃ o w', construct lib w cls 0 kw = (.ok o, w')) ↔ validate cls attrs = .ok () := by
    rw [hcon]
    cases validate cls attrs with
    | ok u => simp [Except.map]
    | error e => simp [Except.map]
  constructor
  · rw [hmap, hval, ← hcbiff, ← hepiff]
    by_cases h1 : ∃ a b, (Dict.get? kw "cbins").getD
        (.py (.tuple [.float defaultCbin.1, .float defaultCbin.2])) = (.py (.tuple [.float a, .float b]) : HVal F)
    · rw [if_pos h1]
      by_cases hj : cls = .jThreshold
      · rw [if_pos hj]; simp only [h1, hj, true_and, forall_const]
      · rw [if_neg hj]; simp [h1, hj]
    · rw [if_neg h1]; simp [h1]
  · rintro ⟨v, hv, hn⟩
    refine ⟨w', ?_⟩
    rw [hcon, hval, if_neg]
    · rfl
    · rw [hcbiff]; intro hall; exact hn (hall v hv)

/-- **C72**: without arguments every class can be constructed and has the documented defaults. -/
theorem C72_defaults (lib : Lib F σ M) (w : World F σ) (cls : Cls)
    (hd : thresholdCheck (Num.ofRat (6/10) : F) = .ok ()) :
    ∃ o w', construct lib w cls 0 [] = (.ok o, w') ∧ cbinsOf o.params = defaultCbin ∧
      ∀ k, k ≠ "random_state" → Dict.get? o.attrs k = Dict.get? (Cls.hparams cls) k := by
  obtain ⟨o, w', h⟩ := (C72_accepts lib w cls [] hd (by intro k hk; simp [Dict.keys] at hk)
    (by intro v hv; simp [Dict.get?] at hv)).1.2 ⟨by intro v hv; simp [Dict.get?] at hv,
      by intro _ v hv; simp [Dict.get?] at hv⟩
  obtain ⟨-, -, -, h4, ⟨a, b, h5, h6⟩, -, -⟩ := C72_attributes h
  refine ⟨o, w', h, ?_, fun k hk => h4 k hk rfl⟩
  rw [h4 "cbins" (by decide) rfl] at h5
  have : Dict.get? (Cls.hparams (F := F) cls) "cbins"
      = some (.py (.tuple [.float defaultCbin.1, .float defaultCbin.2])) := by
    cases cls <;> simp [Cls.hparams, cbinsParam, Dict.get?]
  rw [this] at h5
  simp only [Option.some.injEq, HVal.py.injEq, PyVal.tuple.injEq, List.cons.injEq, PyVal.float.injEq,
    and_true] at h5
  rw [h6, ← h5.1, ← h5.2]

/-- **C72**: `repr` of a `JThreshold` names both hyperparameters, `cbins` first. -/
theorem C72_repr (lib : Lib F σ M) (w w' : World F σ) (reprV : HVal F → String) (a b cut : F)
    (o : Obj F) (h : construct lib w .jThreshold 0 [("eps_cut", .py (.float cut)),
      ("cbins", .py (.tuple [.float a, .float b]))] = (.ok o, w')) :
    o.repr reprV = "JThreshold(cbins=" ++ reprV (.py (.tuple [.float a, .float b])) ++ ", eps_cut="
      ++ reprV (.py (.float cut)) ++ ")" := by
  obtain ⟨-, -, hc, -, ⟨-, ha, -⟩ | ⟨v, r, hv, -, -⟩⟩ := construct_inv h
  · rw [Obj.repr, ha, hc]
    simp [bindArgs, Cls.hparams, cbinsParam, Dict.get?, Cls.name, pyJoin, String.append_assoc]
    rfl
  · simp [bindArgs, Cls.hparams, cbinsParam, Dict.get?] at hv

end GChop
