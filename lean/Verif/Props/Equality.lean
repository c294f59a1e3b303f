import Verif.Equality
import Verif.Props.Session

/-!
# C107: `==` and `hash` of decomposers, galaxies and components
-/

set_option linter.unusedSectionVars false

namespace GChop
open Pd

variable {F : Type} [Num F] {σ M : Type}

/-! ### values -/

mutual
/-- no NaN and no value of unknown type -/
def plainVal : PyVal F → Bool
  | .float x => x ==. x
  | .tuple l => plainVals l
  | .list l => plainVals l
  | .other => false
  | _ => true
/-- all items are plain -/
def plainVals : List (PyVal F) → Bool
  | [] => true
  | v :: l => plainVal v && plainVals l
end

mutual
/-- the same types, in all parts, and no value of unknown type -/
def sameKind : PyVal F → PyVal F → Bool
  | .float _, .float _ => true
  | .int _, .int _ => true
  | .bool _, .bool _ => true
  | .str _, .str _ => true
  | .none, .none => true
  | .tuple a, .tuple b => sameKinds a b
  | .list a, .list b => sameKinds a b
  | _, _ => false
/-- the same types, item by item -/
def sameKinds : List (PyVal F) → List (PyVal F) → Bool
  | [], [] => true
  | a :: l, b :: m => sameKind a b && sameKinds l m
  | _, _ => false
end

mutual
theorem pyEq_refl (e : EqEnv F) : ∀ v : PyVal F, plainVal v = true → pyEq e v v = .ok true
  | .tuple l, h => by
    rw [plainVal] at h
    rw [pyEq]; exact seqEq_refl e l h
  | .list l, h => by
    rw [plainVal] at h
    rw [pyEq]; exact seqEq_refl e l h
  | .float x, h => by
    rw [plainVal] at h
    simp [pyEq, atomEq, integerOf?, numberOf?, h]
  | .int i, _ => by simp [pyEq, atomEq, integerOf?]
  | .bool b, _ => by simp [pyEq, atomEq, integerOf?]
  | .str s, _ => by simp [pyEq, atomEq]
  | .none, _ => by simp [pyEq, atomEq]
  | .other, h => by simp [plainVal] at h
theorem seqEq_refl (e : EqEnv F) : ∀ l : List (PyVal F), plainVals l = true → seqEq e l l = .ok true
  | [], _ => by rw [seqEq]
  | v :: l, h => by
    rw [plainVals, Bool.and_eq_true] at h
    rw [seqEq, pyEq_refl e v h.1, seqEq_refl e l h.2]
    simp
end

/-- equal numbers are the same number (one zero) -/
def EqLawful (F : Type) [Num F] : Prop := ∀ x y : F, (x ==. y) = true → x = y

mutual
theorem pyEq_eq (hF : EqLawful F) {e : EqEnv F} (he : e.OK) : ∀ a b : PyVal F, sameKind a b = true →
    pyEq e a b = .ok true → a = b
  | .tuple a, .tuple b, h, h' => by
    rw [sameKind] at h
    rw [pyEq] at h'
    rw [seqEq_eq hF he a b h h']
  | .list a, .list b, h, h' => by
    rw [sameKind] at h
    rw [pyEq] at h'
    rw [seqEq_eq hF he a b h h']
  | .float x, .float y, _, h' => by
    have : (x ==. y) = true := by simpa [pyEq, atomEq, integerOf?, numberOf?] using h'
    rw [hF x y this]
  | .int i, .int j, _, h' => by
    have : i = j := by simpa [pyEq, atomEq, integerOf?] using h'
    rw [this]
  | .bool i, .bool j, _, h' => by
    revert h'
    cases i <;> cases j <;> simp [pyEq, atomEq, integerOf?]
  | .str i, .str j, _, h' => by
    have : i = j := by simpa [pyEq, atomEq] using h'
    rw [this]
  | .none, .none, _, _ => rfl
theorem seqEq_eq (hF : EqLawful F) {e : EqEnv F} (he : e.OK) : ∀ a b : List (PyVal F),
    sameKinds a b = true → seqEq e a b = .ok true → a = b
  | [], [], _, _ => rfl
  | a :: l, b :: m, h, h' => by
    rw [sameKinds, Bool.and_eq_true] at h
    rw [seqEq] at h'
    split at h'
    · rename_i hs
      rw [he a b hs, seqEq_eq hF he l m h.2 h']
    · split at h'
      · rename_i hp
        rw [pyEq_eq hF he a b h.1 hp, seqEq_eq hF he l m h.2 h']
      · rename_i r hr
        exact absurd h' hr
end

theorem fieldsEq_cons (e : EqEnv F) (s : Bool) (r : Py Bool) (l : List (Bool × Py Bool)) :
    fieldsEq e ((s, r) :: l) = if e.tuples && s then fieldsEq e l else
      match r with
      | .ok true => fieldsEq e l
      | r => r := by
  rcases r with r | r
  · rfl
  · cases r <;> rfl

theorem fieldsEq_true (e : EqEnv F) (l : List (Bool × Py Bool)) :
    fieldsEq e l = .ok true ↔ ∀ p ∈ l, (e.tuples = true ∧ p.1 = true) ∨ p.2 = .ok true := by
  induction l with
  | nil => simp [fieldsEq]
  | cons p l ih =>
    obtain ⟨s, r⟩ := p
    rw [fieldsEq_cons, List.forall_mem_cons]
    by_cases h : (e.tuples && s) = true
    · rw [if_pos h, ih]
      simp only [Bool.and_eq_true] at h
      simp [h]
    · rw [if_neg h]
      have h' : ¬ (e.tuples = true ∧ s = true) := by simpa using h
      rcases r with r | r
      · simp [h']
      · cases r
        · simp [h']
        · rw [ih]
          simp

theorem fieldsEq_mono (e : EqEnv F) {l : List (Bool × Py Bool)} {p : Bool × Py Bool}
    (h : ∀ q ∈ l, ∃ b, q.2 = .ok b) (hp : p ∈ l) (h1 : p.1 = false) (h2 : p.2 = .ok false) :
    fieldsEq e l = .ok false := by
  induction l with
  | nil => simp at hp
  | cons q l ih =>
    obtain ⟨s, r⟩ := q
    rw [fieldsEq_cons]
    rcases List.mem_cons.1 hp with rfl | hm
    · simp only at h1 h2
      simp [h1, h2]
    · split
      · exact ih (fun q hq => h q (List.mem_cons_of_mem _ hq)) hm
      · obtain ⟨b, hb⟩ := h (s, r) (by simp)
        simp only at hb
        subst hb
        cases b
        · rfl
        · exact ih (fun q hq => h q (List.mem_cons_of_mem _ hq)) hm

/-! ### decomposers -/

/-- C107: decomposers of different classes are not equal. -/
theorem C107_classes (e : EqEnv F) (x y : Obj F) (h : x.cls ≠ y.cls) : x.eq e y = .ok false := by
  rw [Obj.eq, if_neg h]

theorem Dict.mem_keys_of_get? {ν : Type} {d : Dict String ν} {k : String} {v : ν}
    (h : Dict.get? d k = some v) : k ∈ Dict.keys d := by
  induction d with
  | nil => simp [Dict.get?] at h
  | cons x d ih =>
    rw [Dict.get?] at h
    split at h
    · rename_i hx; simp [Dict.keys, hx]
    · exact List.mem_cons_of_mem _ (ih h)

theorem mem_zip_get {ν : Type} : ∀ {d d' : Dict String ν}, Dict.keys d = Dict.keys d' →
    (Dict.keys d).Nodup → ∀ p, p ∈ d.zip d' ↔
      ∃ k v v', Dict.get? d k = some v ∧ Dict.get? d' k = some v' ∧ p = ((k, v), (k, v'))
  | [], [], _, _, p => by simp [Dict.get?]
  | [], b :: d', h, _, p => by simp [Dict.keys] at h
  | a :: d, [], h, _, p => by simp [Dict.keys] at h
  | (k, v) :: d, (k', v') :: d', h, hn, p => by
    simp only [Dict.keys, List.map_cons, List.cons.injEq] at h
    obtain ⟨rfl, h⟩ := h
    simp only [Dict.keys, List.map_cons, List.nodup_cons] at hn
    have hn1 : k ∉ Dict.keys d := hn.1
    have ih := mem_zip_get (d := d) (d' := d') h hn.2
    rw [List.zip_cons_cons, List.mem_cons, ih]
    constructor
    · rintro (rfl | ⟨j, w, w', h1, h2, rfl⟩)
      · exact ⟨k, v, v', by simp [Dict.get?], by simp [Dict.get?], rfl⟩
      · have hj : k ≠ j := fun hj => hn1 (hj ▸ Dict.mem_keys_of_get? h1)
        exact ⟨j, w, w', by simp [Dict.get?, hj, h1], by simp [Dict.get?, hj, h2], rfl⟩
    · rintro ⟨j, w, w', h1, h2, rfl⟩
      by_cases hj : k = j
      · subst hj
        simp only [Dict.get?, if_true, Option.some.injEq] at h1 h2
        left; rw [h1, h2]
      · simp only [Dict.get?, if_neg hj] at h1 h2
        exact .inr ⟨j, w, w', h1, h2, rfl⟩

theorem hparams_nodup (cls : Cls) : (Dict.keys (Cls.hparams (F := F) cls)).Nodup := by
  cases cls <;> simp [Cls.hparams, cbinsParam, histogramParams, mixtureParams, Dict.keys]

theorem Dict.get?_some_of_key {ν : Type} {d : Dict String ν} {k : String} (h : k ∈ Dict.keys d) :
    ∃ v, Dict.get? d k = some v := by
  induction d with
  | nil => simp [Dict.keys] at h
  | cons a d ih =>
    rw [Dict.get?]
    split
    · exact ⟨_, rfl⟩
    · rename_i hne
      rcases List.mem_cons.1 h with hk | hk
      · exact absurd hk.symm hne
      · exact ih hk

/-- a decomposer as its constructor makes it -/
structure Obj.Made (x : Obj F) : Prop where
  keys : Dict.keys x.attrs = Dict.keys (Cls.hparams (F := F) x.cls)
  gen : ∀ v, Dict.get? x.attrs "random_state" = some v → ∃ a, v = .gen a ∧ x.gen? = some a

theorem made_of_construct {lib : Lib F σ M} {w w' : World F σ} {cls : Cls} {nPos : Nat}
    {kw : Dict String (HVal F)} {o : Obj F} (h : construct lib w cls nPos kw = (.ok o, w')) : o.Made := by
  obtain ⟨h1, h2, -, -, -, h3, -⟩ := C72_attributes h
  refine ⟨by rw [h1]; exact h2, fun v hv => ?_⟩
  have hk : "random_state" ∈ Dict.keys (Cls.hparams (F := F) cls) := by
    rw [← h2]
    exact Dict.mem_keys_of_get? hv
  obtain ⟨r, hr⟩ := h3 hk
  have hr' := hr
  unfold Obj.gen? at hr
  rw [hv] at hr
  cases v with
  | gen a =>
    injection hr with hr
    subst hr
    exact ⟨a, rfl, hr'⟩
  | py v => cases hr

theorem obj_eq_true {e : EqEnv F} {x y : Obj F} (hx : x.Made) (hy : y.Made) :
    x.eq e y = .ok true ↔ x.cls = y.cls ∧ ∀ k v v', Dict.get? x.attrs k = some v →
      Dict.get? y.attrs k = some v' →
      (e.tuples = true ∧ hvalSame e v v' = true) ∨ hvalEq e v v' = .ok true := by
  rw [Obj.eq]
  by_cases hc : x.cls = y.cls
  · rw [if_pos hc, fieldsEq_true]
    have hk : Dict.keys x.attrs = Dict.keys y.attrs := by rw [hx.keys, hy.keys, hc]
    have hn : (Dict.keys x.attrs).Nodup := by rw [hx.keys]; exact hparams_nodup _
    simp only [hc, true_and, List.mem_map, forall_exists_index, and_imp]
    constructor
    · intro h k v v' h1 h2
      have := h _ ((k, v), (k, v')) ((mem_zip_get hk hn _).2 ⟨k, v, v', h1, h2, rfl⟩) rfl
      exact this
    · rintro h _ p hp rfl
      obtain ⟨k, v, v', h1, h2, rfl⟩ := (mem_zip_get hk hn _).1 hp
      exact h k v v' h1 h2
  · simp [hc]

/-- C107: two decomposers with generators of their own are never equal, whatever the seeds: only a decomposer
that was given the generator of the other one can be equal to it. -/
theorem C107_seeds (e : EqEnv F) (lib : Lib F σ M) (w w' : World F σ) (hw : w.WF) (cls : Cls)
    (hc : cls ≠ .jThreshold) (kw : Dict String (HVal F)) (o : Obj F)
    (h : construct lib w cls 0 kw = (.ok o, w'))
    (hs : ∀ a, Dict.get? kw "random_state" ≠ some (.gen a)) (k : Nat) (x : Obj F)
    (hx : w.objs[k]? = some x) (hm : x.Made) : x.eq e o ≠ .ok true ∧ o.eq e x ≠ .ok true := by
  have hmo := made_of_construct h
  have key : ∀ a b, x.gen? = some a → o.gen? = some b → a ≠ b := by
    intro a b ha hb
    have h1 := hw k x a hx ha
    rcases construct_gen h hb with h2 | ⟨h2, -⟩
    · exact absurd h2 (hs b)
    · omega
  obtain ⟨hcls, -, -, -, -, hg, -⟩ := C72_attributes h
  have hmem : "random_state" ∈ Dict.keys (Cls.hparams (F := F) cls) := by
    cases cls <;> simp [Cls.hparams, cbinsParam, histogramParams, mixtureParams, Dict.keys] at hc ⊢
  obtain ⟨r, hr⟩ := hg hmem
  have hr1 : Dict.get? o.attrs "random_state" = some (.gen r) := by
    obtain ⟨v, hv⟩ := Dict.get?_some_of_key (d := o.attrs) (k := "random_state") (by
      rw [hmo.keys, hcls]; exact hmem)
    obtain ⟨a, rfl, ha⟩ := hmo.gen v hv
    rw [hr] at ha
    injection ha with ha
    rw [hv, ha]
  constructor
  · intro heq
    obtain ⟨h1, h2⟩ := (obj_eq_true hm hmo).1 heq
    obtain ⟨v, hv1⟩ := Dict.get?_some_of_key (d := x.attrs) (k := "random_state") (by
      rw [hm.keys, h1, hcls]; exact hmem)
    obtain ⟨a, rfl, ha⟩ := hm.gen v hv1
    have := h2 _ _ _ hv1 hr1
    simp [hvalSame, hvalEq, key a r ha hr] at this
  · intro heq
    obtain ⟨h1, h2⟩ := (obj_eq_true hmo hm).1 heq
    obtain ⟨v, hv1⟩ := Dict.get?_some_of_key (d := x.attrs) (k := "random_state") (by
      rw [hm.keys, ← h1, hcls]; exact hmem)
    obtain ⟨a, rfl, ha⟩ := hm.gen v hv1
    have := h2 _ _ _ hr1 hv1
    simp [hvalSame, hvalEq, (key a r ha hr).symm] at this

theorem num_refl [NumOrd F] {a : F} (h : Num.isNaN a = false) : (a ==. a) = true := by
  rw [NumOrd.eq_def]
  rcases NumOrd.le_total h h with h | h <;> simp [h]

theorem lit_refl [NumOrd F] {q : ℚ} (h1 : -1 ≤ q) (h2 : q ≤ 1) :
    ((Num.ofRat q : F) ==. Num.ofRat q) = true :=
  num_refl (NumOrd.finite_not_nan (NumOrd.ofRat_finite h1 h2))

/-- a generator or a plain value -/
def plainH : HVal F → Bool
  | .py p => plainVal p
  | .gen _ => true

theorem defaults_all [NumOrd F] (cls : Cls) :
    (Cls.hparams (F := F) cls).all (fun kv => plainH kv.2) = true := by
  have l1 := lit_refl (F := F) (q := 6 / 10) (by norm_num) (by norm_num)
  have l2 := lit_refl (F := F) (q := 1 / 10) (by norm_num) (by norm_num)
  have l3 := lit_refl (F := F) (q := 1 / 1000) (by norm_num) (by norm_num)
  have l4 := lit_refl (F := F) (q := 1 / 1000000) (by norm_num) (by norm_num)
  have l5 := lit_refl (F := F) (q := 1 / 10000) (by norm_num) (by norm_num)
  have l6 := lit_refl (F := F) (q := 1 / 20) (by norm_num) (by norm_num)
  have l7 := lit_refl (F := F) (q := 1 / 200) (by norm_num) (by norm_num)
  cases cls <;>
    simp only [Cls.hparams, cbinsParam, histogramParams, mixtureParams, List.cons_append, List.nil_append,
      List.all_cons, List.all_nil, plainH, plainVal, plainVals, defaultCbin, l1, l2, l3, l4, l5, l6, l7,
      Bool.and_true]

theorem defaults_plain [NumOrd F] (cls : Cls) (k : String) (p : PyVal F)
    (h : Dict.get? (Cls.hparams (F := F) cls) k = some (.py p)) : plainVal p = true :=
  List.all_eq_true.1 (defaults_all (F := F) cls) _ (Dict.get?_mem h)

/-- C107: a second decomposer of the same class with the same arguments, and with the generator of the first
one, is equal to it, if no argument has NaN or a value of unknown type. -/
theorem C107_same_arguments [NumOrd F] (e : EqEnv F) (lib : Lib F σ M) (w w₁ w₂ w₃ : World F σ) (cls : Cls)
    (kw kw' : Dict String (HVal F)) (x y : Obj F) (h : construct lib w cls 0 kw = (.ok x, w₁))
    (h' : construct lib w₂ cls 0 kw' = (.ok y, w₃))
    (hk : ∀ k, k ≠ "random_state" → Dict.get? kw k = Dict.get? kw' k) (hg : x.gen? = y.gen?)
    (hp : ∀ k p, Dict.get? kw k = some (.py p) → plainVal p = true) : x.eq e y = .ok true := by
  have hx := made_of_construct h
  have hy := made_of_construct h'
  obtain ⟨a1, -, a2, a3, -⟩ := C72_attributes h
  obtain ⟨b1, -, b2, b3, -⟩ := C72_attributes h'
  rw [obj_eq_true hx hy]
  refine ⟨by rw [a1, b1], fun k v v' h1 h2 => .inr ?_⟩
  by_cases hr : k = "random_state"
  · subst hr
    obtain ⟨a, rfl, ha⟩ := hx.gen v h1
    obtain ⟨b, rfl, hb⟩ := hy.gen v' h2
    rw [ha, hb] at hg
    injection hg with hg
    simp [hvalEq, hg]
  · have hv : v = v' ∧ ∀ p, v = .py p → plainVal p = true := by
      cases hkw : Dict.get? kw k with
      | none =>
        rw [a3 k hr hkw] at h1
        rw [b3 k hr (by rw [← hk k hr, hkw]), h1] at h2
        injection h2 with h2
        refine ⟨h2, ?_⟩
        rintro p rfl
        exact defaults_plain cls k p h1
      | some u =>
        rw [a2 k u hr hkw] at h1
        rw [b2 k u hr (by rw [← hk k hr, hkw])] at h2
        injection h1 with h1
        injection h2 with h2
        subst h1
        refine ⟨h2, ?_⟩
        rintro p rfl
        exact hp k p hkw
    obtain ⟨rfl, hv⟩ := hv
    cases v with
    | gen a => simp [hvalEq]
    | py p => rw [hvalEq]; exact pyEq_refl e p (hv p rfl)

/-- the same types of hyperparameters -/
def sameKindH : HVal F → HVal F → Bool
  | .gen _, .gen _ => true
  | .py a, .py b => sameKind a b
  | _, _ => false

/-- C107: equal decomposers whose hyperparameters have the same types are the same to every caller: their
classes and hyperparameters are the same, and they share their generator. -/
theorem C107_equal_same (hF : EqLawful F) {e : EqEnv F} (he : e.OK) (x y : Obj F) (hx : x.Made)
    (hy : y.Made) (ht : ∀ k v v', Dict.get? x.attrs k = some v → Dict.get? y.attrs k = some v' →
      sameKindH v v' = true) (h : x.eq e y = .ok true) : x = y := by
  obtain ⟨h1, h2⟩ := (obj_eq_true hx hy).1 h
  have hk : Dict.keys x.attrs = Dict.keys y.attrs := by rw [hx.keys, hy.keys, h1]
  have hn : (Dict.keys x.attrs).Nodup := by rw [hx.keys]; exact hparams_nodup _
  have hl : x.attrs.length = y.attrs.length := by
    have := congrArg List.length hk
    simpa [Dict.keys] using this
  have : x.attrs = y.attrs := by
    apply List.ext_getElem hl
    intro i h3 h4
    have hm : (x.attrs[i], y.attrs[i]) ∈ x.attrs.zip y.attrs := by
      rw [List.mem_iff_getElem]
      exact ⟨i, by simp [h3, h4], by simp⟩
    obtain ⟨k, v, v', g1, g2, g3⟩ := (mem_zip_get hk hn _).1 hm
    have hv : v = v' := by
      have hs := ht k v v' g1 g2
      rcases h2 k v v' g1 g2 with ⟨-, g⟩ | g
      · cases v with
        | gen a =>
          cases v' with
          | gen b => simpa [hvalSame] using g
          | py b => simp [sameKindH] at hs
        | py a =>
          cases v' with
          | gen b => simp [sameKindH] at hs
          | py b => rw [he a b g]
      · cases v with
        | gen a =>
          cases v' with
          | gen b => simpa [hvalEq] using g
          | py b => simp [sameKindH] at hs
        | py a =>
          cases v' with
          | gen b => simp [sameKindH] at hs
          | py b => rw [pyEq_eq hF he a b hs g]
    injection g3 with g4 g5
    rw [g4, g5, hv]
  obtain ⟨c, d⟩ := x
  obtain ⟨c', d'⟩ := y
  simp only at h1 this
  rw [h1, this]

/-- C107: two `JThreshold` with float arguments are equal exactly when the cut and the two bin widths are
equal numbers. -/
theorem C107_threshold [NumOrd F] {e : EqEnv F} (he : e.OK) (lib : Lib F σ M) (w w₁ w₂ w₃ : World F σ)
    (a b cut a' b' cut' : F) (x y : Obj F)
    (h : construct lib w .jThreshold 0 [("eps_cut", .py (.float cut)),
      ("cbins", .py (.tuple [.float a, .float b]))] = (.ok x, w₁))
    (h' : construct lib w₂ .jThreshold 0 [("eps_cut", .py (.float cut')),
      ("cbins", .py (.tuple [.float a', .float b']))] = (.ok y, w₃))
    (hn : Num.isNaN a = false ∧ Num.isNaN b = false ∧ Num.isNaN cut = false) :
    x.eq e y = .ok ((a ==. a') && (b ==. b') && (cut ==. cut')) := by
  have attrs : ∀ {w w' : World F σ} {a b cut : F} {x : Obj F}, construct lib w .jThreshold 0
      [("eps_cut", .py (.float cut)), ("cbins", .py (.tuple [.float a, .float b]))] = (.ok x, w') →
      x = ⟨.jThreshold, [("cbins", .py (.tuple [.float a, .float b])), ("eps_cut", .py (.float cut))]⟩ := by
    intro w w' a b cut x h
    obtain ⟨-, -, hc, -, ⟨-, ha, -⟩ | ⟨v, r, hv, -, -⟩⟩ := construct_inv h
    · obtain ⟨c, d⟩ := x
      simp only at hc ha
      subst hc
      rw [ha]
      rfl
    · simp [bindArgs, Cls.hparams, cbinsParam, Dict.get?] at hv
  rw [attrs h, attrs h']
  have hs : ∀ u v : F, Num.isNaN u = false → e.same (.float u) (.float v) = true → (u ==. v) = true := by
    intro u v hu h
    have := he _ _ h
    injection this with this
    subst this
    exact num_refl hu
  have hs2 : e.same (.tuple [.float a, .float b]) (.tuple [.float a', .float b']) = true →
      (a ==. a') = true ∧ (b ==. b') = true := by
    intro h
    have := he _ _ h
    injection this with this
    injection this with h1 this
    injection this with h2 this
    injection h1 with h1
    injection h2 with h2
    subst h1 h2
    exact ⟨num_refl hn.1, num_refl hn.2.1⟩
  have ha := hs a a' hn.1
  have hb := hs b b' hn.2.1
  have hc := hs cut cut' hn.2.2
  simp only [Obj.eq, if_true, List.zip_cons_cons, List.zip_nil_right, List.map_cons, List.map_nil,
    fieldsEq_cons, hvalEq, hvalSame, pyEq, seqEq, atomEq, integerOf?, numberOf?, fieldsEq]
  generalize e.same (.tuple [.float a, .float b]) (.tuple [.float a', .float b']) = s1 at hs2 ⊢
  generalize e.same (.float a) (.float a') = s2 at ha ⊢
  generalize e.same (.float b) (.float b') = s3 at hb ⊢
  generalize e.same (.float cut) (.float cut') = s4 at hc ⊢
  generalize (a ==. a') = t1 at *
  generalize (b ==. b') = t2 at *
  generalize (cut ==. cut') = t3 at *
  generalize e.tuples = t
  revert hs2 ha hb hc
  cases t <;> cases s1 <;> cases s2 <;> cases s3 <;> cases s4 <;> cases t1 <;> cases t2 <;> cases t3 <;>
    simp

theorem atomEq_hash (other : Bool) {e : EqEnv F} (ho : e.other ≠ .ok true) (a b : PyVal F)
    (h : atomEq e a b = .ok true) : hasHash other a = true ∧ hasHash other b = true := by
  cases a <;> cases b <;> simp_all [atomEq, integerOf?, numberOf?, hasHash]

mutual
theorem pyEq_hash (other : Bool) {e : EqEnv F} (he : e.OK) (ho : e.other ≠ .ok true) :
    ∀ a b : PyVal F, pyEq e a b = .ok true → hasHash other a = hasHash other b
  | .tuple a, .tuple b, h => by
    rw [pyEq] at h
    rw [hasHash, hasHash]
    exact seqEq_hash other he ho a b h
  | .list a, .list b, h => by rw [hasHash, hasHash]
  | .float x, b, h => by
    rw [pyEq] at h
    · obtain ⟨h1, h2⟩ := atomEq_hash other ho _ _ h; rw [h1, h2]
    all_goals (intros; simp_all)
  | .int x, b, h => by
    rw [pyEq] at h
    · obtain ⟨h1, h2⟩ := atomEq_hash other ho _ _ h; rw [h1, h2]
    all_goals (intros; simp_all)
  | .bool x, b, h => by
    rw [pyEq] at h
    · obtain ⟨h1, h2⟩ := atomEq_hash other ho _ _ h; rw [h1, h2]
    all_goals (intros; simp_all)
  | .str x, b, h => by
    rw [pyEq] at h
    · obtain ⟨h1, h2⟩ := atomEq_hash other ho _ _ h; rw [h1, h2]
    all_goals (intros; simp_all)
  | .none, b, h => by
    rw [pyEq] at h
    · obtain ⟨h1, h2⟩ := atomEq_hash other ho _ _ h; rw [h1, h2]
    all_goals (intros; simp_all)
  | .other, b, h => by
    rw [pyEq] at h
    · obtain ⟨h1, h2⟩ := atomEq_hash other ho _ _ h; rw [h1, h2]
    all_goals (intros; simp_all)
  | .tuple a, .float b, h | .tuple a, .int b, h | .tuple a, .bool b, h | .tuple a, .str b, h
  | .tuple a, .none, h | .tuple a, .other, h | .tuple a, .list b, h
  | .list a, .float b, h | .list a, .int b, h | .list a, .bool b, h | .list a, .str b, h
  | .list a, .none, h | .list a, .other, h | .list a, .tuple b, h => by
    simp [pyEq, atomEq, integerOf?, numberOf?, ho] at h
theorem seqEq_hash (other : Bool) {e : EqEnv F} (he : e.OK) (ho : e.other ≠ .ok true) :
    ∀ a b : List (PyVal F), seqEq e a b = .ok true → allHash other a = allHash other b
  | [], [], _ => rfl
  | [], b :: m, h => by simp [seqEq] at h
  | a :: l, [], h => by simp [seqEq] at h
  | a :: l, b :: m, h => by
    rw [seqEq] at h
    rw [allHash, allHash]
    split at h
    · rename_i hs
      rw [he a b hs, seqEq_hash other he ho l m h]
    · split at h
      · rename_i hp
        rw [pyEq_hash other he ho a b hp, seqEq_hash other he ho l m h]
      · rename_i r hr
        exact absurd h hr
end

/-- C107: equal decomposers have the same hash, or `hash` raises TypeError for both, provided equal values
have the same hash and nothing is equal to a value of unknown type. -/
theorem C107_hash (other : Bool) (hashV : HVal F → Int) (mix : Cls → List Int → Int) {e : EqEnv F}
    (he : e.OK) (ho : e.other ≠ .ok true)
    (hv : ∀ a b : HVal F, hvalEq e a b = .ok true → hashV a = hashV b) (x y : Obj F) (hx : x.Made)
    (hy : y.Made) (h : x.eq e y = .ok true) : x.hash other hashV mix = y.hash other hashV mix := by
  obtain ⟨h1, h2⟩ := (obj_eq_true hx hy).1 h
  have hk : Dict.keys x.attrs = Dict.keys y.attrs := by rw [hx.keys, hy.keys, h1]
  have hn : (Dict.keys x.attrs).Nodup := by rw [hx.keys]; exact hparams_nodup _
  have hl : x.attrs.length = y.attrs.length := by
    have := congrArg List.length hk
    simpa [Dict.keys] using this
  have key : x.attrs.map (fun kv => (kv.2.hashable other, hashV kv.2))
      = y.attrs.map fun kv => (kv.2.hashable other, hashV kv.2) := by
    apply List.ext_getElem (by simpa using hl)
    intro i h3 h4
    have h3 : i < x.attrs.length := by simpa using h3
    have h4 : i < y.attrs.length := by simpa using h4
    have hm : (x.attrs[i], y.attrs[i]) ∈ x.attrs.zip y.attrs := by
      rw [List.mem_iff_getElem]
      exact ⟨i, by simp [h3, h4], by simp⟩
    obtain ⟨k, v, v', g1, g2, g3⟩ := (mem_zip_get hk hn _).1 hm
    injection g3 with g4 g5
    have hvv : v = v' ∨ hvalEq e v v' = .ok true := by
      rcases h2 k v v' g1 g2 with ⟨-, g⟩ | g
      · cases v with
        | gen a =>
          cases v' with
          | gen b => left; simpa [hvalSame] using g
          | py b => simp [hvalSame] at g
        | py a =>
          cases v' with
          | gen b => simp [hvalSame] at g
          | py b => left; rw [he a b g]
      · exact .inr g
    simp only [List.getElem_map, g4, g5]
    rcases hvv with rfl | g
    · rfl
    · refine Prod.ext ?_ (hv v v' g)
      cases v with
      | gen a =>
        cases v' with
        | gen b => rfl
        | py b =>
          cases b <;> simp [hvalEq, ho] at g
      | py a =>
        cases v' with
        | gen b => cases a <;> simp [hvalEq, ho] at g
        | py b => exact pyEq_hash other he ho a b g
  have k1 : x.attrs.all (fun kv => kv.2.hashable other) = y.attrs.all fun kv => kv.2.hashable other := by
    have := congrArg (fun l => l.all Prod.fst) key
    simpa [List.all_map, Function.comp_def] using this
  have k2 : x.attrs.map (fun kv => hashV kv.2) = y.attrs.map fun kv => hashV kv.2 := by
    have := congrArg (fun l => l.map Prod.snd) key
    simpa [List.map_map, Function.comp_def] using this
  rw [Obj.hash, Obj.hash, k1, k2, h1]

/-! ### particle sets, galaxies and components -/

theorem fieldsEq_first (e : EqEnv F) (l : List (Bool × Py Bool)) (r : PyErr) (s : Bool)
    (h : (e.tuples && s) = false) : fieldsEq e ((s, .error r) :: l) = .error r := by
  rw [fieldsEq_cons, if_neg (by simp [h])]

theorem arrEq_two {α : Type} (e : EqEnv F) (eq : α → α → Bool) (a b : List α) (h : a.length = b.length)
    (h2 : 2 ≤ a.length) : arrEq e eq a b = .error .valueError := by
  unfold arrEq
  rw [if_pos h]
  match a, b with
  | x :: x' :: a, y :: y' :: b => rfl
  | [], _ => simp at h2
  | [x], _ => simp at h2
  | _ :: _ :: _, [] => simp at h
  | _ :: _ :: _, [_] => simp at h

theorem set_eq_raises (e : EqEnv F) (same : String → Bool) (p q : ParticleSet F)
    (ht : p.ptype = q.ptype) (hl : p.m.length = q.m.length) (h2 : 2 ≤ p.m.length)
    (hs : e.tuples = false ∨ same "m" = false) : p.eq e same q = .error .valueError := by
  rw [ParticleSet.eq]
  simp only [ht, decide_true]
  rw [fieldsEq_cons]
  simp only
  rw [arrEq_two e _ _ _ hl h2, fieldsEq_first]
  · split <;> rfl
  · rcases hs with h | h <;> simp [h]

/-- C107: two galaxies with the same number of stars, two or more, cannot be compared: `==` raises
ValueError, whatever their particles, if they do not share the masses of the stars. -/
theorem C107_galaxies (e : EqEnv F) (c : Common) (hc : c.OK) (g h : Galaxy F)
    (ht : g.stars.ptype = h.stars.ptype) (hl : g.stars.m.length = h.stars.m.length)
    (h2 : 2 ≤ g.stars.m.length) (hs : c.arrays .stars "m" = false) :
    g.eq e c h = .error .valueError := by
  have h0 : c.sets .stars = false := by
    by_contra h0
    rw [hc .stars (by simpa using h0) "m"] at hs
    cases hs
  rw [Galaxy.eq, set_eq_raises e _ _ _ ht hl h2 (.inr hs), fieldsEq_first]
  simp [h0]

/-- C107: a galaxy with two or more stars compared with itself: True if attrs compares tuples, ValueError
otherwise. -/
theorem C107_itself (e : EqEnv F) (c : Common) (hc : ∀ t, c.sets t = true) (g : Galaxy F)
    (h2 : 2 ≤ g.stars.m.length) :
    g.eq e c g = if e.tuples then .ok true else .error .valueError := by
  split
  · rename_i ht
    simp [Galaxy.eq, fieldsEq, ht, hc]
  · rename_i ht
    have ht : e.tuples = false := by simpa using ht
    rw [Galaxy.eq, set_eq_raises e _ _ _ rfl rfl h2 (.inl ht), fieldsEq_first]
    simp [ht]

/-- a list, or a tuple with such a value among its items -/
inductive HasList : PyVal F → Prop
  | list (l : List (PyVal F)) : HasList (.list l)
  | tuple (l : List (PyVal F)) (v : PyVal F) (h : v ∈ l) (hv : HasList v) : HasList (.tuple l)

mutual
theorem hasHash_iff : ∀ v : PyVal F, hasHash true v = false ↔ HasList v
  | .list l => ⟨fun _ => .list l, fun _ => rfl⟩
  | .tuple l => by
    rw [hasHash, allHash_iff l]
    constructor
    · rintro ⟨v, h, hv⟩
      exact .tuple l v h hv
    · rintro ⟨⟩
      rename_i v hv h
      exact ⟨v, h, hv⟩
  | .float _ => ⟨(fun h => by cases h), (fun h => by cases h)⟩
  | .int _ => ⟨(fun h => by cases h), (fun h => by cases h)⟩
  | .bool _ => ⟨(fun h => by cases h), (fun h => by cases h)⟩
  | .str _ => ⟨(fun h => by cases h), (fun h => by cases h)⟩
  | .none => ⟨(fun h => by cases h), (fun h => by cases h)⟩
  | .other => ⟨(fun h => by cases h), (fun h => by cases h)⟩

theorem allHash_iff : ∀ l : List (PyVal F), allHash true l = false ↔ ∃ v ∈ l, HasList v
  | [] => ⟨(fun h => by cases h), (fun ⟨_, h, _⟩ => by cases h)⟩
  | v :: l => by
    have h1 := hasHash_iff v
    have h2 := allHash_iff l
    rw [allHash, Bool.and_eq_false_iff, h1, h2]
    simp
end

/-- C107: `hash` of a decomposer raises TypeError if and only if a hyperparameter is a list or a tuple
with a list inside, provided values of unknown type have a hash. -/
theorem C107_hash_raises (hashV : HVal F → Int) (mix : Cls → List Int → Int) (x : Obj F) :
    (x.hash true hashV mix = .error .typeError ↔ ∃ k v, (k, HVal.py v) ∈ x.attrs ∧ HasList v) ∧
    ((∃ n, x.hash true hashV mix = .ok n) ↔ ¬ ∃ k v, (k, HVal.py v) ∈ x.attrs ∧ HasList v) := by
  have key : (x.attrs.all fun kv => kv.2.hashable true) = false ↔
      ∃ k v, (k, HVal.py v) ∈ x.attrs ∧ HasList v := by
    rw [List.all_eq_false]
    constructor
    · rintro ⟨⟨k, v⟩, hm, hv⟩
      cases v with
      | gen n => exact absurd rfl hv
      | py v => exact ⟨k, v, hm, (hasHash_iff v).1 (by simpa [HVal.hashable] using hv)⟩
    · rintro ⟨k, v, hm, hv⟩
      exact ⟨(k, .py v), hm, by simpa [HVal.hashable] using (hasHash_iff v).2 hv⟩
  unfold Obj.hash
  rw [← key]
  cases x.attrs.all fun kv => kv.2.hashable true <;> simp

/-- C107: `hash` of a galaxy, a particle set or components raises TypeError. -/
theorem C107_no_hash (g : Galaxy F) (p : ParticleSet F) (c : Components F) :
    g.hash = .error .typeError ∧ p.hash = .error .typeError ∧ c.hash = .error .typeError :=
  ⟨rfl, rfl, rfl⟩

/-- C107: components of two or more particles cannot be compared with other components of as many
particles: `==` raises ValueError. -/
theorem C107_components (e : EqEnv F) (same : String → Bool) (a b : Components F)
    (hl : a.labels.length = b.labels.length) (h2 : 2 ≤ a.labels.length)
    (hs : e.tuples = false ∨ same "labels" = false) : a.eq e same b = .error .valueError := by
  rw [Components.eq, arrEq_two e _ _ _ hl h2, fieldsEq_first]
  rcases hs with h | h <;> simp [h]

/-! ### witnesses -/

/-- no two values are the same object, nothing is equal to a value of unknown type -/
def apart (tuples : Bool) : EqEnv F := ⟨tuples, fun _ _ => false, .ok false, .ok false, .ok false⟩

theorem apart_ok (tuples : Bool) : (apart tuples : EqEnv F).OK := by intro a b h; cases h

/-- the objects made in a session -/
def Out.obj? : Out F → Option (Obj F)
  | .made (.ok o) => some o
  | _ => none

/-- C107 (the types matter): `JHistogram(n_bin=2, random_state=g)` and
`JHistogram(n_bin=2.0, random_state=g)` are equal, but only the first one can decompose. -/
theorem C107_types :
    (match (session sessLib ⟨[], [], 0⟩ [exMake (.py (.int 0)), .make .jHistogram 0
        [("n_bin", .py (.float (q 2))), ("random_state", .gen 0)]]).filterMap Out.obj? with
      | [x, y] => some (x.eq (apart false) y, x.eq (apart true) y)
      | _ => none) = some (.ok true, .ok true) ∧
    (session sessLib ⟨[], [], 0⟩ [exMake (.py (.int 0)), .make .jHistogram 0
        [("n_bin", .py (.float (q 2))), ("random_state", .gen 0)], .decompose 0 exCall]).map Out.labels?
      = [none, none, some [some 0, some 0, some 1, none, none, none]] ∧
    (match (session sessLib ⟨[], [], 0⟩ [exMake (.py (.int 0)), .make .jHistogram 0
        [("n_bin", .py (.float (q 2))), ("random_state", .gen 0)], .decompose 1 exCall]).getLast? with
      | some (.components (.error e)) => some e
      | _ => none) = some .typeError := by decide +kernel

/-- C107 (NaN): `JThreshold(eps_cut=nan)` is accepted and, when attrs compares attribute by attribute, is not
equal to itself. -/
theorem C107_nan :
    (match (session sessLib ⟨[], [], 0⟩ [.make .jThreshold 0 [("eps_cut", .py (.float .nan))]]).filterMap
        Out.obj? with
      | [x] => some (x.eq (apart false) x)
      | _ => none) = some (.ok false) := by decide +kernel

/-- the hypotheses of `C107_seeds` hold in a session with two decomposers, and equal seeds do not help -/
example :
    (match (session sessLib ⟨[], [], 0⟩ [exMake (.py (.int 0)), exMake (.py (.int 0))]).filterMap
        Out.obj? with
      | [x, y] => some (x.eq (apart false) y, x.eq (apart false) x)
      | _ => none) = some (.ok false, .ok true) := by decide +kernel

/-- different classes, and a hash that is refused: a list among the arguments -/
example :
    (match (session sessLib ⟨[], [], 0⟩ [.make .jThreshold 0 [], .make .kMeans 0 [], .make .gaussianMixture 0
        [("weights_init", .py (.list [.float (q 1)]))]]).filterMap Out.obj? with
      | [x, y, z] => some (x.eq (apart false) y, x.hash true (fun _ => 0) (fun _ _ => 5),
          z.hash true (fun _ => 0) (fun _ _ => 5))
      | _ => none) = some (.ok false, .ok 5, .error .typeError) := by decide +kernel

/-- the arithmetic of the examples has one zero -/
example : EqLawful (Ext ℚ) := by
  intro x y h
  cases x <;> cases y <;> simp_all [Num.eq, Ext.eq, Ext.le]
  exact le_antisymm h.1 h.2

/-- a galaxy with one particle of each kind is equal to another one with the same numbers; galaxies with
two stars are not comparable -/
example :
    (Galaxy.ofBodies { exLost with stars := [orbit (-1) 1], dm := [orbit (-1) 1], gas := [orbit (-1) 1] }).eq
      (apart false) ⟨fun _ => false, fun _ _ => false⟩ (Galaxy.ofBodies (F := Ext ℚ) { exLost with
        stars := [orbit (-1) 1], dm := [orbit (-1) 1], gas := [orbit (-1) 1] }) = .ok true ∧
    exCall.galaxy.eq (apart true) ⟨fun _ => false, fun _ _ => false⟩ exCall.galaxy
      = .error .valueError := by decide +kernel

end GChop
