import Verif.Lemmas.Circ

/-!
# The circular-orbit profile of `jcirc`, for any arithmetic with IEEE comparisons
-/

set_option linter.unusedSectionVars false

namespace GChop

variable {α β : Type}

theorem Np.take_map (l : List α) (idx : List Nat) (f : α → β) :
    Np.take (l.map f) idx = (Np.take l idx).map f := by
  unfold Np.take
  rw [List.map_filterMap]
  congr 1
  funext i
  simp

theorem Np.take_range (l : List α) : Np.take l (List.range l.length) = l := by
  unfold Np.take
  induction l with
  | nil => rfl
  | cons a l ih =>
    rw [List.length_cons, List.range_succ_eq_map, List.filterMap_cons]
    simp only [List.getElem?_cons_zero, List.filterMap_map]
    congr 1

theorem Np.take_perm {l : List α} {s : List Nat} (h : s.Perm (List.range l.length)) :
    (Np.take l s).Perm l := by
  have := h.filterMap (l[·]?)
  rwa [← Np.take.eq_def, ← Np.take.eq_def, Np.take_range] at this

theorem Np.take_pairwise {l : List α} {s : List Nat} {R : α → α → Prop}
    (h : s.Pairwise fun i j => ∀ a b, l[i]? = some a → l[j]? = some b → R a b) :
    (Np.take l s).Pairwise R := by
  unfold Np.take
  rw [List.pairwise_filterMap]
  exact h.imp fun h a ha b hb => h a b ha hb

theorem Np.take_length {l : List α} {s : List Nat} (h : s.Perm (List.range l.length)) :
    (Np.take l s).length = s.length := by
  rw [(Np.take_perm h).length_eq, h.length_eq, List.length_range]

variable {F : Type} [Num F]

/-- the particles of the energy bin `(lo, hi]` -/
def inBin (e : α → F) (lo hi : F) (l : List α) : List α :=
  l.filter fun a => (e a <=. hi) && (lo <. e a)

/-- choose the particle of a bin, given in order of decreasing `|Jz|` -/
def pick (e j : α → F) : List α → F × F
  | [] => (Num.ofRat 0, Num.ofRat 0)
  | [a] => (e a, Num.abs (j a))
  | a :: c :: _ =>
    if Num.ofRat (1/100) <=. (Num.ofRat 1 -. (Num.abs (j c) /. Num.abs (j a))) then
      (e c, Num.abs (j c))
    else (e a, Num.abs (j a))

theorem fromEnd_append (l : List F) (a : F) : Np.fromEnd (l ++ [a]) 1 = a := by
  simp [Np.fromEnd]

theorem fromEnd_append2 (l : List F) (c a : F) : Np.fromEnd (l ++ [c, a]) 2 = c := by
  simp [Np.fromEnd]

/-- `binPoint` on columns of a list of particles -/
theorem binPoint_map {env : CircEnv F} (hs : Np.ArgsortOK env.argsort) (l : List α) (e j : α → F)
    (lo hi : F) : ∃ t : List α, t.Perm (inBin e lo hi l) ∧
      t.Pairwise (fun a c => (Num.abs (j c) <=. Num.abs (j a)) = true ∨
        Num.isNaN (Num.abs (j a)) = true) ∧
      binPoint env (l.map e) (l.map j) lo hi = pick e j t := by
  have hm : ∀ f : α → F, Np.take (l.map f)
      (Np.whereIdx ((l.map e).map fun e => (e <=. hi) && (lo <. e))) = (inBin e lo hi l).map f := by
    intro f
    rw [List.map_map]
    exact Np.take_whereIdx l ((fun e => (e <=. hi) && (lo <. e)) ∘ e) f
  set m := inBin e lo hi l with hmdef
  set s := env.argsort ((m.map j).map Num.abs) with hsdef
  have hperm : s.Perm (List.range m.length) := by
    have := (hs ((m.map j).map Num.abs)).1
    rwa [List.length_map, List.length_map] at this
  have hsort := (hs ((m.map j).map Num.abs)).2
  refine ⟨(Np.take m s).reverse, (List.reverse_perm _).trans (Np.take_perm hperm), ?_, ?_⟩
  · rw [List.pairwise_reverse]
    apply Np.take_pairwise
    apply hsort.imp
    intro i k h a b ha hb
    exact h _ _ (by simp [ha]) (by simp [hb])
  · unfold binPoint
    simp only [hm]
    rw [← hsdef, ← Np.take_length hperm]
    simp only [Np.take_map]
    generalize ht : Np.take m s = t
    rcases List.eq_nil_or_concat t with rfl | ⟨t', a, rfl⟩
    · simp [pick]
    · rcases List.eq_nil_or_concat t' with rfl | ⟨t'', c, rfl⟩
      · simp [pick, Np.fromEnd]
      · have h2 : ∀ f : α → F, Np.fromEnd (List.map f (t''.concat c ++ [a])) 2 = f c := by
          intro f
          simp [Np.fromEnd]
        have h1 : ∀ f : α → F, Np.fromEnd (List.map f (t''.concat c ++ [a])) 1 = f a := by
          intro f
          simp [Np.fromEnd]
        simp only [List.concat_eq_append] at h1 h2
        simp only [List.concat_eq_append, List.map_map, h1, h2, List.reverse_append,
          List.reverse_cons, List.reverse_nil, List.nil_append, List.cons_append, pick]
        simp

theorem pick_mem {e j : α → F} {t : List α} (h : t ≠ []) :
    ∃ a ∈ t, pick e j t = (e a, Num.abs (j a)) := by
  match t with
  | [a] => exact ⟨a, by simp, rfl⟩
  | a :: c :: r =>
    rw [pick]
    split
    · exact ⟨c, by simp, rfl⟩
    · exact ⟨a, by simp, rfl⟩

/-- the point of a bin is `(0, 0)` or a particle of that bin -/
theorem binPoint_spec {env : CircEnv F} (hs : Np.ArgsortOK env.argsort) (l : List α) (e j : α → F)
    (lo hi : F) :
    (inBin e lo hi l = [] ∧
      binPoint env (l.map e) (l.map j) lo hi = (Num.ofRat 0, Num.ofRat 0)) ∨
    ∃ a ∈ l, (e a <=. hi) = true ∧ (lo <. e a) = true ∧
      binPoint env (l.map e) (l.map j) lo hi = (e a, Num.abs (j a)) := by
  obtain ⟨t, h1, _, h3⟩ := binPoint_map hs l e j lo hi
  rw [h3]
  by_cases ht : t = []
  · subst ht
    exact Or.inl ⟨List.perm_nil.1 h1.symm, rfl⟩
  · obtain ⟨a, ha, hp⟩ := pick_mem (e := e) (j := j) ht
    have := h1.subset ha
    simp only [inBin, List.mem_filter, Bool.and_eq_true] at this
    exact Or.inr ⟨a, this.1, this.2.1, this.2.2, hp⟩

theorem innerPoints_getElem? (env : CircEnv F) (E Jz aux : List F) (k : Nat) :
    (innerPoints env E Jz aux)[k]? =
      aux[k]?.bind fun lo => aux[k + 1]?.map fun hi => binPoint env E Jz lo hi := by
  match aux with
  | [] => simp [innerPoints]
  | [a] => cases k <;> simp [innerPoints]
  | lo :: hi :: aux =>
    cases k with
    | zero => simp [innerPoints]
    | succ k =>
      simp only [innerPoints, List.getElem?_cons_succ]
      rw [innerPoints_getElem? env E Jz (hi :: aux) k]
      simp

section ord
variable [NumOrd F]

/-- a slot of the table that is kept -/
def nz (p : F × F) : Bool := !(p.1 ==. Num.ofRat 0)

theorem zero_eq_zero : ((Num.ofRat 0 : F) ==. Num.ofRat 0) = true := by
  have h0 : Num.isNaN (Num.ofRat 0 : F) = false :=
    (not_nan_of_lt (NumOrd.neg_one_lt_zero (F := F))).2
  rw [NumOrd.eq_def, le_refl' h0]; rfl

/-- the kept inner points increase, and lie between the first and the last bin edge -/
theorem innerPoints_sorted {env : CircEnv F} (hs : Np.ArgsortOK env.argsort) (l : List α)
    (e j : α → F) (aux : List F) (haux : aux.Pairwise fun a b => (a <. b) = true) :
    ((innerPoints env (l.map e) (l.map j) aux).filter nz).Pairwise
        (fun p q => (p.1 <. q.1) = true) ∧
      ∀ p ∈ (innerPoints env (l.map e) (l.map j) aux).filter nz,
        (∀ lo, aux.head? = some lo → (lo <. p.1) = true) ∧
        (∀ top, aux.getLast? = some top → (p.1 <=. top) = true) := by
  match aux with
  | [] => simp [innerPoints]
  | [a] => simp [innerPoints]
  | lo :: hi :: aux =>
    obtain ⟨ih1, ih2⟩ := innerPoints_sorted hs l e j (hi :: aux) (List.pairwise_cons.1 haux).2
    have hlohi := (List.pairwise_cons.1 haux).1 hi (by simp)
    have htop : ∀ top, (lo :: hi :: aux).getLast? = some top → (hi <=. top) = true := by
      intro top ht
      rw [List.getLast?_cons_cons] at ht
      have hmem := List.mem_of_getLast? ht
      rcases List.mem_cons.1 hmem with rfl | hm
      · exact le_refl' (not_nan_of_lt hlohi).2
      · exact le_of_lt' ((List.pairwise_cons.1 (List.pairwise_cons.1 haux).2).1 top hm)
    have ih3 : ∀ p ∈ (innerPoints env (l.map e) (l.map j) (hi :: aux)).filter nz,
        (hi <. p.1) = true := fun p hp => (ih2 p hp).1 hi rfl
    have ih4 : ∀ p ∈ (innerPoints env (l.map e) (l.map j) (hi :: aux)).filter nz,
        ∀ top, (lo :: hi :: aux).getLast? = some top → (p.1 <=. top) = true := by
      intro p hp top ht
      exact (ih2 p hp).2 top (by rwa [List.getLast?_cons_cons] at ht)
    have ih5 : ∀ p ∈ (innerPoints env (l.map e) (l.map j) (hi :: aux)).filter nz,
        (∀ lo', (lo :: hi :: aux).head? = some lo' → (lo' <. p.1) = true) ∧
        (∀ top, (lo :: hi :: aux).getLast? = some top → (p.1 <=. top) = true) := by
      intro p hp
      refine ⟨?_, ih4 p hp⟩
      intro lo' hlo
      cases hlo
      exact lt_of_lt_of_le' hlohi (le_of_lt' (ih3 p hp))
    rw [innerPoints, List.filter_cons]
    rcases binPoint_spec hs l e j lo hi with ⟨_, h⟩ | ⟨a, _, h1, h2, h⟩
    · rw [h]
      simp only [nz, zero_eq_zero, Bool.not_true, Bool.false_eq_true, if_false]
      exact ⟨ih1, ih5⟩
    · rw [h]
      split
      · refine ⟨List.pairwise_cons.2 ⟨fun q hq => lt_of_le_of_lt' h1 (ih3 q hq), ih1⟩, ?_⟩
        intro p hp
        rcases List.mem_cons.1 hp with rfl | hp
        · refine ⟨?_, fun top ht => NumOrd.le_trans h1 (htop top ht)⟩
          intro lo' hlo
          cases hlo
          exact h2
        · exact ih5 p hp
      · exact ⟨ih1, ih5⟩

/-- each inner slot is `(0, 0)` or a particle -/
theorem innerPoints_mem {env : CircEnv F} (hs : Np.ArgsortOK env.argsort) (l : List α)
    (e j : α → F) (aux : List F) :
    ∀ p ∈ innerPoints env (l.map e) (l.map j) aux, p = (Num.ofRat 0, Num.ofRat 0) ∨
      ∃ a ∈ l, p = (e a, Num.abs (j a)) := by
  intro p hp
  obtain ⟨k, hk⟩ := List.mem_iff_getElem?.1 hp
  rw [innerPoints_getElem?] at hk
  cases h1 : aux[k]? with
  | none => simp [h1] at hk
  | some lo =>
    cases h2 : aux[k + 1]? with
    | none => simp [h1, h2] at hk
    | some hi =>
      simp only [h1, h2, Option.bind_some, Option.map_some, Option.some.injEq] at hk
      subst hk
      rcases binPoint_spec hs l e j lo hi with ⟨_, h⟩ | ⟨a, ha, _, _, h⟩
      · exact Or.inl h
      · exact Or.inr ⟨a, ha, h⟩

/-- all slots of the table before empty ones are removed, `_circ.py:133-164` -/
def slots (first : F × F) (inner : List (F × F)) (last : F × F) : List (F × F) :=
  first :: inner ++ [last]

/-- The profile in closed form.  All slots are kept if a particle lies above the last edge; otherwise
the table loses `max 1 (zeros - 1)` slots at the end, where `zeros` counts the slots with `y = 0`.
Then the slots with `x = 0` are removed. -/
theorem profile_eq {env : CircEnv F} (l : List α) (e j : α → F)
    (aux : List F) (top : F) (hl : l ≠ []) (ht : aux.getLast? = some top) :
    ∃ a0 i0, Np.argmin (l.map e) = .ok i0 ∧ l[i0]? = some a0 ∧
    let first := ((Num.ofRat (-1) : F), Num.abs (j a0))
    let inner := innerPoints env (l.map e) (l.map j) aux
    (∃ a ∈ l, (top <. e a) = true ∧
      ((∀ c ∈ l, Num.isNaN (Num.abs (j c)) = false) →
        ∀ c ∈ l, (top <. e c) = true → (Num.abs (j c) <=. Num.abs (j a)) = true) ∧
      profile env aux (l.map e) (l.map j)
        = .ok ((slots first inner (e a, Num.abs (j a))).filter nz)) ∨
    ((∀ a ∈ l, (top <. e a) = false) ∧
      let full := slots first inner (Num.ofRat 0, Num.ofRat 0)
      let zeros := (full.filter fun p => p.2 ==. Num.ofRat 0).length
      profile env aux (l.map e) (l.map j)
        = .ok ((full.take (full.length - max 1 (zeros - 1))).filter nz)) := by
  obtain ⟨i0, hi0⟩ : ∃ i0, Np.argmin (l.map e) = .ok i0 := by
    cases l with
    | nil => exact absurd rfl hl
    | cons a l => exact ⟨_, rfl⟩
  have hlt := argmin_lt hi0
  rw [List.length_map] at hlt
  refine ⟨l[i0], i0, hi0, List.getElem?_eq_getElem hlt, ?_⟩
  have hj0 : (l.map j).getD i0 Num.nan = j l[i0] := by
    simp [List.getD, hlt]
  have hm : ∀ f : α → F, Np.take (l.map f) (Np.whereIdx ((l.map e).map fun e => top <. e))
      = (l.filter fun a => top <. e a).map f := by
    intro f
    rw [List.map_map]
    exact Np.take_whereIdx l ((fun e => top <. e) ∘ e) f
  have hlen : (Np.whereIdx ((l.map e).map fun e => top <. e)).length
      = (l.filter fun a => top <. e a).length := by
    rw [List.map_map, Np.whereIdx_length, Np.count_map_true]
    rfl
  intro first inner
  unfold profile
  simp only [hi0, ht, Py.ok_bind, hj0, hm, hlen]
  by_cases hmask : (l.filter fun a => top <. e a) = []
  · right
    have hmask' := hmask
    rw [List.filter_eq_nil_iff] at hmask'
    refine ⟨fun a ha => by simpa using hmask' a ha, ?_⟩
    set full := slots first inner (Num.ofRat 0, Num.ofRat 0) with hfull
    simp only [hmask, List.length_nil, ne_eq, not_true_eq_false, if_false, Py.pure_eq]
    have : ∀ i, (if i = 0 then dropTail full 1 else dropTail full i)
        = full.take (full.length - max 1 i) := by
      intro i
      unfold dropTail
      by_cases hi : i = 0
      · simp [hi]
      · rw [if_neg hi, if_neg hi]
        congr 2
        omega
    have h2 := this ((full.filter fun p => p.2 ==. Num.ofRat 0).length - 1)
    exact congrArg (fun l => Except.ok (List.filter nz l)) h2
  · left
    have hmap : ((l.filter fun a => top <. e a).map j).map Num.abs ≠ [] := by simpa using hmask
    obtain ⟨k, hk⟩ : ∃ k, Np.argmax (((l.filter fun a => top <. e a).map j).map Num.abs) = .ok k := by
      cases hc : ((l.filter fun a => top <. e a).map j).map Num.abs with
      | nil => exact absurd hc hmap
      | cons a l => exact ⟨_, rfl⟩
    have hklt := argmax_lt hk
    simp only [List.length_map] at hklt
    set m := l.filter fun a => top <. e a with hmdef
    have hmem : m[k] ∈ l.filter fun a => top <. e a := List.getElem_mem hklt
    rw [List.mem_filter] at hmem
    refine ⟨m[k], hmem.1, hmem.2, ?_, ?_⟩
    · intro hn c hc htc
      obtain ⟨k', x, h1, h2, h3⟩ := argmax_spec (l := (m.map j).map Num.abs) (by
        intro x hx
        simp only [List.map_map, List.mem_map] at hx
        obtain ⟨c, hc, rfl⟩ := hx
        exact hn c (List.mem_filter.1 hc).1) hmap
      rw [hk] at h1
      cases h1
      have hx : x = Num.abs (j m[k]) := by
        simp [hklt] at h2
        exact h2.symm
      have hcm : c ∈ m := List.mem_filter.2 ⟨hc, htc⟩
      obtain ⟨i, hi⟩ := List.mem_iff_getElem?.1 hcm
      rw [← hx]
      exact (h3 i (Num.abs (j c)) (by simp [hi])).1
    · have hlen0 : ¬ m.length = 0 := by omega
      simp only [hlen0, ne_eq, not_false_eq_true, if_true, hk, Py.ok_bind, Py.pure_eq]
      simp only [slots, List.getD, List.getElem?_map, List.getElem?_eq_getElem hklt,
        Option.map_some, Option.getD_some]
      rfl

/-- bin edges that increase from -1 on -/
structure EdgesOK (aux : List F) : Prop where
  sorted : aux.Pairwise fun a b => (a <. b) = true
  head : ∃ lo, aux.head? = some lo ∧ (Num.ofRat (-1) <=. lo) = true

/-- the profile increases strictly -/
theorem profile_sorted {env : CircEnv F} (hs : Np.ArgsortOK env.argsort) (l : List α) (e j : α → F)
    (aux : List F) (ha : EdgesOK aux) (pts : List (F × F)) (hl : l ≠ [])
    (h : profile env aux (l.map e) (l.map j) = .ok pts) :
    pts.Pairwise fun p q => (p.1 <. q.1) = true := by
  obtain ⟨hsort, lo, hlo, hle⟩ := ha
  obtain ⟨top, ht⟩ : ∃ top, aux.getLast? = some top := by
    cases aux with
    | nil => cases hlo
    | cons a l => exact ⟨_, List.getLast?_eq_some_getLast (by simp)⟩
  have hlotop : (lo <=. top) = true := by
    cases aux with
    | nil => cases hlo
    | cons a r =>
      cases hlo
      rcases List.mem_cons.1 (List.mem_of_getLast? ht) with rfl | hm
      · exact le_refl' (NumOrd.not_nan_of_le hle).2
      · exact le_of_lt' ((List.pairwise_cons.1 hsort).1 _ hm)
  obtain ⟨h1, h2⟩ := innerPoints_sorted hs l e j aux hsort
  have hfirst : ∀ y : F, nz ((Num.ofRat (-1) : F), y) = true := by
    intro y
    have := lt_iff.1 (NumOrd.neg_one_lt_zero (F := F))
    unfold nz
    rw [NumOrd.eq_def, this.2]; simp
  -- the whole table with any last slot above the top edge
  have hall : ∀ y0 : F, ∀ last : F × F, (nz last = true → (top <. last.1) = true) →
      ((slots (Num.ofRat (-1), y0) (innerPoints env (l.map e) (l.map j) aux) last).filter nz).Pairwise
        fun p q => (p.1 <. q.1) = true := by
    intro y0 last hlast
    unfold slots
    rw [List.filter_append, List.filter_cons, if_pos (hfirst y0), List.cons_append]
    refine List.pairwise_cons.2 ⟨?_, ?_⟩
    · intro q hq
      rcases List.mem_append.1 hq with hq' | hq'
      · exact lt_of_le_of_lt' hle ((h2 q hq').1 lo hlo)
      · simp only [List.mem_filter, List.mem_singleton] at hq'
        obtain ⟨rfl, hz⟩ := hq'
        exact lt_of_le_of_lt' (NumOrd.le_trans hle hlotop) (hlast hz)
    · refine List.pairwise_append.2 ⟨h1, ?_, ?_⟩
      · rw [List.filter_singleton]
        cases nz last <;> simp
      · intro p hp q hq
        simp only [List.mem_filter, List.mem_singleton] at hq
        obtain ⟨rfl, hq⟩ := hq
        exact lt_of_le_of_lt' ((h2 p hp).2 top ht) (hlast hq)
  obtain ⟨a0, i0, _, _, hcase⟩ := profile_eq (env := env) l e j aux top hl ht
  rcases hcase with ⟨a, _, hta, _, hp⟩ | ⟨_, hp⟩
  · rw [hp] at h
    cases h
    exact hall _ _ fun _ => hta
  · rw [hp] at h
    cases h
    refine List.Pairwise.sublist ?_ (hall (Num.abs (j a0)) (Num.ofRat 0, Num.ofRat 0) ?_)
    · exact (List.take_sublist _ _).filter _
    · intro hz
      simp [nz, zero_eq_zero] at hz

/-- every point is the first one or a particle -/
theorem profile_mem {env : CircEnv F} (hs : Np.ArgsortOK env.argsort) (l : List α) (e j : α → F)
    (aux : List F) (pts : List (F × F)) (hl : l ≠ [])
    (h : profile env aux (l.map e) (l.map j) = .ok pts) :
    ∃ i0 a0, Np.argmin (l.map e) = .ok i0 ∧ l[i0]? = some a0 ∧
      pts.head? = some (Num.ofRat (-1), Num.abs (j a0)) ∧
      ∀ p ∈ pts, p = (Num.ofRat (-1), Num.abs (j a0)) ∨ ∃ a ∈ l, p = (e a, Num.abs (j a)) := by
  have haux : aux ≠ [] := by
    rintro rfl
    rw [profile_empty env _ _ (by simpa using hl)] at h
    cases h
  obtain ⟨top, ht⟩ : ∃ top, aux.getLast? = some top := ⟨_, List.getLast?_eq_some_getLast haux⟩
  obtain ⟨i1, r, hi1, hok⟩ := profile_ok env aux (l.map e) (l.map j) (by simpa using hl) (by simp) haux
  obtain ⟨a0, i0, hi0, hget, hcase⟩ := profile_eq (env := env) l e j aux top hl ht
  have hnz : ∀ p : F × F, nz p = true → p ≠ (Num.ofRat 0, Num.ofRat 0) := by
    rintro p hp rfl
    simp [nz, zero_eq_zero] at hp
  refine ⟨i0, a0, hi0, hget, ?_, ?_⟩
  · rw [hi0] at hi1
    cases hi1
    rw [hok] at h
    cases h
    simp [List.getD, hget]
  · rcases hcase with ⟨a, ha, _, _, hp⟩ | ⟨_, hp⟩
    · rw [hp] at h
      cases h
      intro p hp
      obtain ⟨hp, hpz⟩ := List.mem_filter.1 hp
      simp only [slots, List.mem_append, List.mem_cons, List.not_mem_nil,
        or_false] at hp
      rcases hp with (rfl | hp) | rfl
      · exact Or.inl rfl
      · rcases innerPoints_mem hs l e j aux p hp with rfl | h
        · exact absurd rfl (hnz _ hpz)
        · exact Or.inr h
      · exact Or.inr ⟨a, ha, rfl⟩
    · rw [hp] at h
      cases h
      intro p hp
      obtain ⟨hp, hpz⟩ := List.mem_filter.1 hp
      have hp := List.mem_of_mem_take hp
      simp only [slots, List.mem_append, List.mem_cons, List.not_mem_nil,
        or_false] at hp
      rcases hp with (rfl | hp) | rfl
      · exact Or.inl rfl
      · rcases innerPoints_mem hs l e j aux p hp with rfl | h
        · exact absurd rfl (hnz _ hpz)
        · exact Or.inr h
      · exact absurd rfl (hnz _ hpz)

/-! ### which bins contribute -/

theorem innerPoints_eq (env : CircEnv F) (E Jz aux : List F) :
    innerPoints env E Jz aux = (aux.zip aux.tail).map fun q => binPoint env E Jz q.1 q.2 := by
  match aux with
  | [] => rfl
  | [a] => rfl
  | lo :: hi :: aux =>
    have := innerPoints_eq env E Jz (hi :: aux)
    simp only [innerPoints, this, List.tail_cons, List.zip_cons_cons, List.map_cons]

/-- the point of a bin with these particles has `y = 0`: no particle has `Jz ≠ 0`, or only one of
several has (the code then takes the second largest `|Jz|`) -/
def quiet (j : α → F) (t : List α) : Bool :=
  let n := (t.filter fun a => !(Num.abs (j a) ==. Num.ofRat 0)).length
  n == 0 || (n == 1 && decide (2 ≤ t.length))

/-- number of quiet bins below the last edge, and one more if the particle `a0` of the first point has
`Jz = 0` -/
def quietSlots (e j : α → F) (l : List α) (aux : List F) (a0 : α) : Nat :=
  (if Num.abs (j a0) ==. Num.ofRat 0 then 1 else 0) +
    ((aux.zip aux.tail).filter fun q => quiet j (inBin e q.1 q.2 l)).length

theorem edges_lt {aux : List F} (h : aux.Pairwise fun a b => (a <. b) = true) {i k : Nat} {a b : F}
    (hi : aux[i]? = some a) (hk : aux[k]? = some b) (hik : i < k) : (a <. b) = true := by
  obtain ⟨h1, rfl⟩ := List.getElem?_eq_some_iff.1 hi
  obtain ⟨h2, rfl⟩ := List.getElem?_eq_some_iff.1 hk
  exact List.pairwise_iff_getElem.1 h i k h1 h2 hik

theorem edges_le {aux : List F} (h : aux.Pairwise fun a b => (a <. b) = true)
    (hn : ∀ a ∈ aux, Num.isNaN a = false) {i k : Nat} {a b : F}
    (hi : aux[i]? = some a) (hk : aux[k]? = some b) (hik : i ≤ k) : (a <=. b) = true := by
  rcases hik.lt_or_eq with h1 | rfl
  · exact le_of_lt' (edges_lt h hi hk h1)
  · rw [hi] at hk; cases hk; exact le_refl' (hn a (List.mem_of_getElem? hi))

theorem nz_of_neg {p : F × F} (h : (p.1 <. Num.ofRat 0) = true) : nz p = true := by
  unfold nz
  rw [NumOrd.eq_def, (lt_iff.1 h).2]; simp

/-- a point of the kept slots that lies in bin `k` sits in slot `k + 1` -/
theorem slot_index {env : CircEnv F} (hs : Np.ArgsortOK env.argsort) (l : List α) (e j : α → F)
    (aux : List F) (ha : EdgesOK aux) (y0 : F) (last : F × F) (k : Nat) (lo hi top : F)
    (ht : aux.getLast? = some top) (hlo : aux[k]? = some lo) (hhi : aux[k + 1]? = some hi)
    (hlast : nz last = true → (top <. last.1) = true) (i : Nat) (p : F × F)
    (hp : (slots (Num.ofRat (-1), y0) (innerPoints env (l.map e) (l.map j) aux) last)[i]? = some p)
    (hz : nz p = true) (h1 : (lo <. p.1) = true) (h2 : (p.1 <=. hi) = true) : i = k + 1 := by
  obtain ⟨hsort, lo0, hlo0, hle⟩ := ha
  have hlo0' : aux[0]? = some lo0 := by rw [← List.head?_eq_getElem?]; exact hlo0
  have hnn : ∀ a ∈ aux, Num.isNaN a = false := by
    intro a haux
    obtain ⟨i, hi⟩ := List.mem_iff_getElem?.1 haux
    by_cases hi0 : i = 0
    · subst hi0; rw [hlo0'] at hi; cases hi; exact (NumOrd.not_nan_of_le hle).2
    · exact (not_nan_of_lt (edges_lt hsort hlo0' hi (by omega))).2
  have hlen := innerPoints_length env (l.map e) (l.map j) aux
  have hk1 : k + 1 < aux.length := (List.getElem?_eq_some_iff.1 hhi).1
  by_contra hne
  unfold slots at hp
  rw [List.cons_append] at hp
  cases i with
  | zero =>
    -- the first point
    simp only [List.getElem?_cons_zero, Option.some.injEq] at hp
    subst hp
    have := lt_of_le_of_lt' (edges_le hsort hnn hlo0' hlo (by omega)) h1
    have := lt_of_le_of_lt' hle this
    rw [lt_irrefl'] at this; cases this
  | succ i =>
    rw [List.getElem?_cons_succ] at hp
    by_cases hi' : i < (innerPoints env (l.map e) (l.map j) aux).length
    · rw [List.getElem?_append_left hi', innerPoints_getElem?] at hp
      cases h3 : aux[i]? with
      | none => simp [h3] at hp
      | some lo' =>
        cases h4 : aux[i + 1]? with
        | none => simp [h3, h4] at hp
        | some hi'' =>
          simp only [h3, h4, Option.bind_some, Option.map_some, Option.some.injEq] at hp
          rcases binPoint_spec hs l e j lo' hi'' with ⟨_, h⟩ | ⟨a, _, ha1, ha2, h⟩
          · rw [h] at hp
            subst hp
            simp [nz, zero_eq_zero] at hz
          · rw [h] at hp
            subst hp
            rcases Nat.lt_or_gt_of_ne (show i ≠ k by omega) with hik | hik
            · have := lt_of_lt_of_le' h1 (NumOrd.le_trans ha1
                (edges_le hsort hnn h4 hlo (by omega)))
              rw [lt_irrefl'] at this; cases this
            · have := lt_of_lt_of_le' ha2 (NumOrd.le_trans h2
                (edges_le hsort hnn hhi h3 (by omega)))
              rw [lt_irrefl'] at this; cases this
    · rw [List.getElem?_append_right (by omega)] at hp
      have : i - (innerPoints env (l.map e) (l.map j) aux).length = 0 := by
        by_contra hc
        rw [List.getElem?_eq_none (by simp; omega)] at hp
        cases hp
      rw [this] at hp
      simp only [List.getElem?_cons_zero, Option.some.injEq] at hp
      subst hp
      have htop : aux[aux.length - 1]? = some top := by rw [← List.getLast?_eq_getElem?]; exact ht
      have := lt_of_lt_of_le' (hlast hz) (NumOrd.le_trans h2
        (edges_le hsort hnn hhi htop (by omega)))
      rw [lt_irrefl'] at this; cases this

/-- which bins contribute to the profile -/
theorem profile_bins {env : CircEnv F} (hs : Np.ArgsortOK env.argsort) (l : List α) (e j : α → F)
    (aux : List F) (ha : EdgesOK aux) (hneg : ∀ a ∈ aux, (a <. Num.ofRat 0) = true)
    (hq : ∀ lo hi, ((binPoint env (l.map e) (l.map j) lo hi).2 ==. Num.ofRat 0)
      = quiet j (inBin e lo hi l))
    (pts : List (F × F)) (hl : l ≠ []) (h : profile env aux (l.map e) (l.map j) = .ok pts) :
    ∃ a0 i0, Np.argmin (l.map e) = .ok i0 ∧ l[i0]? = some a0 ∧
    ∀ (k : Nat) (lo hi top : F), aux.getLast? = some top → aux[k]? = some lo →
      aux[k + 1]? = some hi →
      ((∃ p ∈ pts, (lo <. p.1) = true ∧ (p.1 <=. hi) = true) ↔
        (∃ a ∈ l, (lo <. e a) = true ∧ (e a <=. hi) = true) ∧
        ((∃ a ∈ l, (top <. e a) = true) ∨ k + max 1 (quietSlots e j l aux a0) < aux.length)) := by
  have haux : aux ≠ [] := by
    rintro rfl
    rw [profile_empty env _ _ (by simpa using hl)] at h
    cases h
  obtain ⟨top, ht⟩ : ∃ top, aux.getLast? = some top := ⟨_, List.getLast?_eq_some_getLast haux⟩
  obtain ⟨a0, i0, hi0, hget, hcase⟩ := profile_eq (env := env) l e j aux top hl ht
  refine ⟨a0, i0, hi0, hget, ?_⟩
  intro k lo hi top' ht' hlo hhi
  rw [ht] at ht'
  cases ht'
  have hk1 : k + 1 < aux.length := (List.getElem?_eq_some_iff.1 hhi).1
  have hlen := innerPoints_length env (l.map e) (l.map j) aux
  have hslot : ∀ (y0 : F) (last : F × F),
      (slots (Num.ofRat (-1), y0) (innerPoints env (l.map e) (l.map j) aux) last)[k + 1]?
        = some (binPoint env (l.map e) (l.map j) lo hi) := by
    intro y0 last
    unfold slots
    rw [List.cons_append, List.getElem?_cons_succ, List.getElem?_append_left (by omega),
      innerPoints_getElem?, hlo, hhi]
    rfl
  -- a populated bin has its point in the bin
  have hpop : (∃ a ∈ l, (lo <. e a) = true ∧ (e a <=. hi) = true) →
      nz (binPoint env (l.map e) (l.map j) lo hi) = true ∧
      (lo <. (binPoint env (l.map e) (l.map j) lo hi).1) = true ∧
      ((binPoint env (l.map e) (l.map j) lo hi).1 <=. hi) = true := by
    rintro ⟨a, ha, h1, h2⟩
    rcases binPoint_spec hs l e j lo hi with ⟨hemp, _⟩ | ⟨c, _, hc1, hc2, h⟩
    · have : a ∈ inBin e lo hi l := List.mem_filter.2 ⟨ha, by rw [h2, h1]; rfl⟩
      rw [hemp] at this; cases this
    · rw [h]
      exact ⟨nz_of_neg (lt_of_le_of_lt' hc1 (hneg hi (List.mem_of_getElem? hhi))), hc2, hc1⟩
  -- conversely, a kept point of the slot is a particle
  have hpop' : nz (binPoint env (l.map e) (l.map j) lo hi) = true →
      ∃ a ∈ l, (lo <. e a) = true ∧ (e a <=. hi) = true := by
    intro hz
    rcases binPoint_spec hs l e j lo hi with ⟨_, h⟩ | ⟨c, hc, hc1, hc2, _⟩
    · rw [h] at hz; simp [nz, zero_eq_zero] at hz
    · exact ⟨c, hc, hc2, hc1⟩
  rcases hcase with ⟨a, hal, hta, _, hp⟩ | ⟨hnone, hp⟩
  · rw [hp] at h
    cases h
    constructor
    · rintro ⟨p, hpm, h1, h2⟩
      obtain ⟨hpm, hz⟩ := List.mem_filter.1 hpm
      obtain ⟨i, hi'⟩ := List.mem_iff_getElem?.1 hpm
      have := slot_index hs l e j aux ha _ _ k lo hi top ht hlo hhi (fun _ => hta) i p hi' hz h1 h2
      subst this
      rw [hslot] at hi'
      cases hi'
      exact ⟨hpop' hz, Or.inl ⟨a, hal, hta⟩⟩
    · rintro ⟨hex, _⟩
      obtain ⟨hz, h1, h2⟩ := hpop hex
      exact ⟨_, List.mem_filter.2 ⟨List.mem_of_getElem? (hslot _ _), hz⟩, h1, h2⟩
  · rw [hp] at h
    cases h
    have hno : ¬ ∃ a ∈ l, (top <. e a) = true := by
      rintro ⟨a, ha, hta⟩
      rw [hnone a ha] at hta; cases hta
    set full := slots ((Num.ofRat (-1) : F), Num.abs (j a0))
      (innerPoints env (l.map e) (l.map j) aux) (Num.ofRat 0, Num.ofRat 0) with hfull
    have hzeros : (full.filter fun p => p.2 ==. Num.ofRat 0).length - 1
        = quietSlots e j l aux a0 := by
      rw [hfull]
      unfold slots quietSlots
      have h1 : (List.filter (fun p : F × F => p.2 ==. Num.ofRat 0)
          [((Num.ofRat 0 : F), (Num.ofRat 0 : F))]).length = 1 := by
        simp [zero_eq_zero]
      have h2 : ((innerPoints env (l.map e) (l.map j) aux).filter
          fun p => p.2 ==. Num.ofRat 0).length
          = ((aux.zip aux.tail).filter fun q => quiet j (inBin e q.1 q.2 l)).length := by
        rw [innerPoints_eq, List.filter_map, List.length_map]
        congr 1
        apply List.filter_congr
        intro q _
        exact hq q.1 q.2
      rw [List.filter_append, List.filter_cons, List.length_append, h1, Nat.add_sub_cancel]
      split_ifs
      · rw [List.length_cons, h2, Nat.add_comm]
      · rw [h2, Nat.zero_add]
    have hflen : full.length = aux.length + 1 := by
      rw [hfull]; simp [slots, hlen]; omega
    constructor
    · rintro ⟨p, hpm, h1, h2⟩
      obtain ⟨hpm, hz⟩ := List.mem_filter.1 hpm
      obtain ⟨i, hi'⟩ := List.mem_iff_getElem?.1 hpm
      rw [List.getElem?_take] at hi'
      split at hi'
      · rename_i hlt
        have := slot_index hs l e j aux ha _ _ k lo hi top ht hlo hhi (fun hz => by
          simp [nz, zero_eq_zero] at hz) i p hi' hz h1 h2
        subst this
        rw [hslot] at hi'
        cases hi'
        refine ⟨hpop' hz, Or.inr ?_⟩
        rw [hzeros, hflen] at hlt
        omega
      · cases hi'
    · rintro ⟨hex, hor⟩
      rcases hor with hor | hor
      · exact absurd hor hno
      obtain ⟨hz, h1, h2⟩ := hpop hex
      refine ⟨_, List.mem_filter.2 ⟨List.mem_of_getElem? (i := k + 1) ?_, hz⟩, h1, h2⟩
      rw [List.getElem?_take, if_pos (by rw [hzeros, hflen]; omega)]
      exact hslot _ _

end ord
end GChop
