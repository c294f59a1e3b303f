import Verif.Lemmas.Profile

/-! # The profile of two arithmetics

The profile of circular orbits is built from comparisons only.  Two sets of columns, in two arithmetics,
whose comparisons have the same outcome get their points from the same particles. -/

namespace GChop

variable {α : Type} {F G : Type} [Num F] [Num G]

/-- two particles in the same energy bin, or both above the last edge -/
def Together (e : α → F) (aux : List F) (a c : α) : Prop :=
  (∃ (k : Nat) (lo hi : F), aux[k]? = some lo ∧ aux[k + 1]? = some hi ∧
    ((lo <. e a) = true ∧ (e a <=. hi) = true) ∧ (lo <. e c) = true ∧ (e c <=. hi) = true) ∨
  ∃ top, aux.getLast? = some top ∧ (top <. e a) = true ∧ (top <. e c) = true

/-- The comparisons that the profile makes have the same outcome for the columns `e`, `j` with the
edges `aux` and for the columns `e'`, `j'` with the edges `aux'`, and no two different particles of a bin
have the same `|Jz|`. -/
structure Alike (l : List α) (e j : α → F) (aux : List F) (e' j' : α → G) (aux' : List G) : Prop where
  len : aux.length = aux'.length
  le : ∀ (k : Nat) u u', aux[k]? = some u → aux'[k]? = some u' → ∀ a ∈ l,
    (e a <=. u) = (e' a <=. u')
  lt : ∀ (k : Nat) u u', aux[k]? = some u → aux'[k]? = some u' → ∀ a ∈ l,
    (u <. e a) = (u' <. e' a)
  min : Np.argmin (l.map e) = Np.argmin (l.map e')
  nan : ∀ a ∈ l, Num.isNaN (Num.abs (j a)) = false
  nan' : ∀ a ∈ l, Num.isNaN (Num.abs (j' a)) = false
  order : ∀ a ∈ l, ∀ c ∈ l, Together e aux a c → a ≠ c →
    (Num.abs (j a) <. Num.abs (j c)) = (Num.abs (j' a) <. Num.abs (j' c)) ∧
    ((Num.abs (j a) <. Num.abs (j c)) = true ∨ (Num.abs (j c) <. Num.abs (j a)) = true)
  second : ∀ (k : Nat) lo hi, aux[k]? = some lo → aux[k + 1]? = some hi → ∀ a ∈ inBin e lo hi l,
    ∀ c ∈ inBin e lo hi l, a ≠ c → (∀ d ∈ inBin e lo hi l, (Num.abs (j d) <=. Num.abs (j a)) = true ∧
      (d ≠ a → (Num.abs (j d) <=. Num.abs (j c)) = true)) →
    ((Num.ofRat (1/100) : F) <=. (Num.ofRat 1 -. (Num.abs (j c) /. Num.abs (j a))))
      = ((Num.ofRat (1/100) : G) <=. (Num.ofRat 1 -. (Num.abs (j' c) /. Num.abs (j' a))))
  zeroJ : ∀ a ∈ l, (Num.abs (j a) ==. Num.ofRat 0) = (Num.abs (j' a) ==. Num.ofRat 0)
  zeroE : ∀ a ∈ l, (e a ==. Num.ofRat 0) = (e' a ==. Num.ofRat 0)

/-- the point of a slot: that of a particle, or `(0, 0)` -/
def slotPoint (e j : α → F) : Option α → F × F
  | none => (Num.ofRat 0, Num.ofRat 0)
  | some a => (e a, Num.abs (j a))

/-- the particle that `pick` takes -/
def pickOf (j : α → F) : List α → Option α
  | [] => none
  | [a] => some a
  | a :: c :: _ =>
    if Num.ofRat (1/100) <=. (Num.ofRat 1 -. (Num.abs (j c) /. Num.abs (j a))) then some c else some a

theorem pick_pickOf (e j : α → F) (t : List α) : pick e j t = slotPoint e j (pickOf j t) := by
  match t with
  | [] => rfl
  | [a] => rfl
  | a :: c :: r =>
    simp only [pick, pickOf]
    split <;> rfl

theorem pickOf_mem {j : α → F} {t : List α} {a : α} (h : pickOf j t = some a) : a ∈ t := by
  match t with
  | [] => cases h
  | [c] => cases h; simp
  | c :: d :: r =>
    simp only [pickOf] at h
    split at h <;> cases h <;> simp

variable [NumOrd F] [NumOrd G]

/-- the points of one bin come from the same particle -/
theorem bin_transfer {env : CircEnv F} {env' : CircEnv G} (hs : Np.ArgsortOK env.argsort)
    (hs' : Np.ArgsortOK env'.argsort) {l : List α} {e j : α → F} {aux : List F} {e' j' : α → G}
    {aux' : List G} (h : Alike l e j aux e' j' aux') {k : Nat} {lo hi : F} {lo' hi' : G}
    (hlo : aux[k]? = some lo) (hhi : aux[k + 1]? = some hi) (hlo' : aux'[k]? = some lo')
    (hhi' : aux'[k + 1]? = some hi') :
    ∃ o : Option α, (∀ a, o = some a → a ∈ l) ∧
      binPoint env (l.map e) (l.map j) lo hi = slotPoint e j o ∧
      binPoint env' (l.map e') (l.map j') lo' hi' = slotPoint e' j' o := by
  have hbin : inBin e lo hi l = inBin e' lo' hi' l := by
    apply List.filter_congr
    intro a ha
    rw [h.le _ _ _ hhi hhi' a ha, h.lt _ _ _ hlo hlo' a ha]
  obtain ⟨t, t1, t2, t3⟩ := binPoint_map hs l e j lo hi
  obtain ⟨t', u1, u2, u3⟩ := binPoint_map hs' l e' j' lo' hi'
  have hmem : ∀ a ∈ t, a ∈ l ∧ (e a <=. hi) = true ∧ (lo <. e a) = true := by
    intro a ha
    have := t1.subset ha
    simpa only [inBin, List.mem_filter, Bool.and_eq_true] using this
  have htog : ∀ a ∈ t, ∀ c ∈ t, Together e aux a c := fun a ha c hc =>
    Or.inl ⟨k, lo, hi, hlo, hhi, ⟨(hmem a ha).2.2, (hmem a ha).2.1⟩, (hmem c hc).2.2, (hmem c hc).2.1⟩
  rw [← hbin] at u1
  have htt : t'.Perm t := u1.trans t1.symm
  -- both are sorted by `|Jz|` in the first arithmetic
  have s1 : t.Pairwise fun a c => (Num.abs (j c) <=. Num.abs (j a)) = true := by
    refine t2.imp_of_mem ?_
    intro a c ha hc hac
    rcases hac with hac | hac
    · exact hac
    · rw [h.nan a (hmem a ha).1] at hac; cases hac
  have s2 : t'.Pairwise fun a c => (Num.abs (j c) <=. Num.abs (j a)) = true := by
    refine u2.imp_of_mem ?_
    intro a c ha hc hac
    have ma := hmem a (htt.subset ha)
    have mc := hmem c (htt.subset hc)
    rcases hac with hac | hac
    · by_cases hne : a = c
      · subst hne; exact le_refl' (h.nan a ma.1)
      · obtain ⟨o1, o2⟩ := h.order a ma.1 c mc.1 (htog a (htt.subset ha) c (htt.subset hc)) hne
        rcases o2 with o2 | o2
        · rw [o1] at o2
          have := lt_of_lt_of_le' o2 hac
          rw [lt_irrefl'] at this; cases this
        · exact le_of_lt' o2
    · rw [h.nan' a ma.1] at hac; cases hac
  have heq : t = t' := by
    refine List.Perm.eq_of_pairwise ?_ s1 s2 htt.symm
    intro a c ha hc h1 h2
    by_contra hne
    have hc' := htt.subset hc
    rcases (h.order a (hmem a ha).1 c (hmem c hc').1 (htog a ha c hc') hne).2 with o | o
    · have := lt_of_lt_of_le' o h1
      rw [lt_irrefl'] at this; cases this
    · have := lt_of_lt_of_le' o h2
      rw [lt_irrefl'] at this; cases this
  subst heq
  rw [t3, u3, pick_pickOf, pick_pickOf]
  by_cases hdup : ∃ a r, t = a :: a :: r
  · obtain ⟨a, r, rfl⟩ := hdup
    have h1 : pickOf j (a :: a :: r) = some a := by simp [pickOf]
    have h2 : pickOf j' (a :: a :: r) = some a := by simp [pickOf]
    exact ⟨some a, by rintro _ ⟨⟩; exact (hmem a (by simp)).1, by rw [h1], by rw [h2]⟩
  · refine ⟨pickOf j t, fun a ha => (hmem a (pickOf_mem ha)).1, rfl, ?_⟩
    have : pickOf j' t = pickOf j t := by
      match t, hdup, hmem, htog, s1, hbin, t1 with
      | [], _, _, _, _, _, _ => rfl
      | [a], _, _, _, _, _, _ => rfl
      | a :: c :: r, hdup, hmem, htog, s1, hbin, t1 =>
        have hne : a ≠ c := by
          rintro rfl
          exact hdup ⟨a, r, rfl⟩
        simp only [pickOf]
        rw [h.second k lo hi hlo hhi a (t1.subset (by simp)) c (t1.subset (by simp)) hne ?_]
        intro d hd
        have ma := h.nan a (hmem a (by simp)).1
        have mc := h.nan c (hmem c (by simp)).1
        rw [List.pairwise_cons, List.pairwise_cons] at s1
        have hd' := t1.symm.subset hd
        simp only [List.mem_cons] at hd'
        rcases hd' with rfl | rfl | hd'
        · exact ⟨le_refl' ma, fun hc => absurd rfl hc⟩
        · exact ⟨s1.1 d (by simp), fun _ => le_refl' mc⟩
        · exact ⟨s1.1 d (by simp [hd']), fun _ => s1.2.1 d hd'⟩
    rw [this]

/-- the inner slots hold the same particles -/
theorem inner_transfer {env : CircEnv F} {env' : CircEnv G} (hs : Np.ArgsortOK env.argsort)
    (hs' : Np.ArgsortOK env'.argsort) {l : List α} {e j : α → F} {aux : List F} {e' j' : α → G}
    {aux' : List G} (h : Alike l e j aux e' j' aux') :
    ∃ os : List (Option α), (∀ a, some a ∈ os → a ∈ l) ∧
      innerPoints env (l.map e) (l.map j) aux = os.map (slotPoint e j) ∧
      innerPoints env' (l.map e') (l.map j') aux' = os.map (slotPoint e' j') := by
  have key : ∀ (n : Nat) (r : List F) (r' : List G), r.length = r'.length →
      (∀ k, r[k]? = aux[n + k]?) → (∀ k, r'[k]? = aux'[n + k]?) →
      ∃ os : List (Option α), (∀ a, some a ∈ os → a ∈ l) ∧
        innerPoints env (l.map e) (l.map j) r = os.map (slotPoint e j) ∧
        innerPoints env' (l.map e') (l.map j') r' = os.map (slotPoint e' j') := by
    intro n r
    induction r generalizing n with
    | nil =>
      intro r' hl _ _
      rw [List.length_nil, eq_comm, List.length_eq_zero_iff] at hl
      subst hl
      exact ⟨[], by simp, rfl, rfl⟩
    | cons lo r ih =>
      intro r' hl hr hr'
      match r, r', hl with
      | [], [lo'], _ => exact ⟨[], by simp, rfl, rfl⟩
      | hi :: r, lo' :: hi' :: r', hl =>
        obtain ⟨os, o1, o2, o3⟩ := ih (n + 1) (hi' :: r') (by simpa using hl)
          (fun k => by rw [Nat.add_assoc, Nat.add_comm 1, ← hr]; rfl)
          (fun k => by rw [Nat.add_assoc, Nat.add_comm 1, ← hr']; rfl)
        obtain ⟨o, p1, p2, p3⟩ := bin_transfer hs hs' h (k := n) (hr 0).symm (hr 1).symm (hr' 0).symm
          (hr' 1).symm
        refine ⟨o :: os, ?_, ?_, ?_⟩
        · intro a ha
          rw [List.mem_cons] at ha
          rcases ha with ha | ha
          · exact p1 a ha.symm
          · exact o1 a ha
        · rw [innerPoints, o2, p2]; rfl
        · rw [innerPoints, o3, p3]; rfl
  exact key 0 aux aux' h.len (by simp) (by simp)

theorem nz_slot {l : List α} {e j : α → F} {aux : List F} {e' j' : α → G} {aux' : List G}
    (h : Alike l e j aux e' j' aux') {o : Option α} (ho : ∀ a, o = some a → a ∈ l) :
    nz (slotPoint e j o) = nz (slotPoint e' j' o) := by
  cases o with
  | none => simp [nz, slotPoint, zero_eq_zero]
  | some a => simp only [nz, slotPoint]; rw [h.zeroE a (ho a rfl)]

theorem zero_slot {l : List α} {e j : α → F} {aux : List F} {e' j' : α → G} {aux' : List G}
    (h : Alike l e j aux e' j' aux') {o : Option α} (ho : ∀ a, o = some a → a ∈ l) :
    ((slotPoint e j o).2 ==. Num.ofRat 0) = ((slotPoint e' j' o).2 ==. Num.ofRat 0) := by
  cases o with
  | none => simp only [slotPoint, zero_eq_zero]
  | some a => simp only [slotPoint]; exact h.zeroJ a (ho a rfl)

/-- the slots that are not empty -/
theorem filter_slots {l : List α} {e j : α → F} {aux : List F} {e' j' : α → G} {aux' : List G}
    (h : Alike l e j aux e' j' aux') (os : List (Option α)) (ho : ∀ a, some a ∈ os → a ∈ l) :
    ∃ L : List α, (∀ a ∈ L, a ∈ l) ∧
      (os.map (slotPoint e j)).filter nz = L.map (fun a => (e a, Num.abs (j a))) ∧
      (os.map (slotPoint e' j')).filter nz = L.map (fun a => (e' a, Num.abs (j' a))) := by
  induction os with
  | nil => exact ⟨[], by simp, rfl, rfl⟩
  | cons o os ih =>
    obtain ⟨L, h1, h2, h3⟩ := ih fun a ha => ho a (List.mem_cons_of_mem _ ha)
    have ho' : ∀ a, o = some a → a ∈ l := fun a ha => ho a (by simp [ha])
    have hnz := nz_slot h ho'
    cases o with
    | none =>
      have : nz (slotPoint e j none) = false := by simp [nz, slotPoint, zero_eq_zero]
      refine ⟨L, h1, ?_, ?_⟩
      · rw [List.map_cons, List.filter_cons_of_neg (by simp [this]), h2]
      · rw [List.map_cons, List.filter_cons_of_neg (by simp [← hnz, this]), h3]
    | some a =>
      cases hz : nz (slotPoint e j (some a)) with
      | false =>
        refine ⟨L, h1, ?_, ?_⟩
        · rw [List.map_cons, List.filter_cons_of_neg (by simp [hz]), h2]
        · rw [List.map_cons, List.filter_cons_of_neg (by simp [← hnz, hz]), h3]
      | true =>
        refine ⟨a :: L, ?_, ?_, ?_⟩
        · intro c hc
          rw [List.mem_cons] at hc
          rcases hc with rfl | hc
          · exact ho' c rfl
          · exact h1 c hc
        · rw [List.map_cons, List.filter_cons_of_pos hz, h2]; rfl
        · rw [List.map_cons, List.filter_cons_of_pos (by rw [← hnz]; exact hz), h3]; rfl

/-- **The profiles of two arithmetics come from the same particles** when the comparisons agree. -/
theorem profile_transfer {env : CircEnv F} {env' : CircEnv G} (hs : Np.ArgsortOK env.argsort)
    (hs' : Np.ArgsortOK env'.argsort) {l : List α} {e j : α → F} {aux : List F} {e' j' : α → G}
    {aux' : List G} (h : Alike l e j aux e' j' aux') (hl : l ≠ []) (haux : aux ≠ []) :
    ∃ (i0 : Nat) (a0 : α) (L : List α), Np.argmin (l.map e) = .ok i0 ∧ l[i0]? = some a0 ∧
      (∀ a ∈ L, a ∈ l) ∧
      profile env aux (l.map e) (l.map j)
        = .ok ((Num.ofRat (-1), Num.abs (j a0)) :: L.map fun a => (e a, Num.abs (j a))) ∧
      profile env' aux' (l.map e') (l.map j')
        = .ok ((Num.ofRat (-1), Num.abs (j' a0)) :: L.map fun a => (e' a, Num.abs (j' a))) := by
  obtain ⟨top, ht⟩ : ∃ top, aux.getLast? = some top := ⟨_, List.getLast?_eq_some_getLast haux⟩
  have haux' : aux' ≠ [] := by
    rintro rfl
    exact haux (List.length_eq_zero_iff.1 h.len)
  obtain ⟨top', ht'⟩ : ∃ top', aux'.getLast? = some top' := ⟨_, List.getLast?_eq_some_getLast haux'⟩
  obtain ⟨a0, i0, hi0, hget, hcase⟩ := profile_eq (env := env) l e j aux top hl ht
  obtain ⟨a1, i1, hi1, hget', hcase'⟩ := profile_eq (env := env') l e' j' aux' top' hl ht'
  rw [← h.min, hi0] at hi1
  cases hi1
  rw [hget] at hget'
  cases hget'
  obtain ⟨os, o1, o2, o3⟩ := inner_transfer hs hs' h
  simp only [o2] at hcase
  simp only [o3] at hcase'
  have htop : ∀ a ∈ l, (top <. e a) = (top' <. e' a) := by
    rw [List.getLast?_eq_getElem?] at ht ht'
    rw [← h.len] at ht'
    exact h.lt _ _ _ ht ht'
  have first : nz ((Num.ofRat (-1) : F), Num.abs (j a0)) = true := nz_of_neg NumOrd.neg_one_lt_zero
  have first' : nz ((Num.ofRat (-1) : G), Num.abs (j' a0)) = true := nz_of_neg NumOrd.neg_one_lt_zero
  refine ⟨i0, a0, ?_⟩
  rcases hcase with ⟨a, ha, hta, hmax, hp⟩ | ⟨hno, hp⟩
  · rcases hcase' with ⟨c, hc, htc, hmax', hp'⟩ | ⟨hno', hp'⟩
    · -- the particle above the last edge
      have hac : a = c := by
        by_contra hne
        have htc' : (top <. e c) = true := by rw [htop c hc]; exact htc
        have hta' : (top' <. e' a) = true := by rw [← htop a ha]; exact hta
        obtain ⟨g1, g2⟩ := h.order a ha c hc (Or.inr ⟨top, ht, hta, htc'⟩) hne
        have m1 := hmax h.nan c hc htc'
        have m2 := hmax' h.nan' a ha hta'
        rcases g2 with g2 | g2
        · have := lt_of_lt_of_le' g2 m1
          rw [lt_irrefl'] at this; cases this
        · have g3 := (h.order c hc a ha (Or.inr ⟨top, ht, htc', hta⟩) (Ne.symm hne)).1
          rw [g3] at g2
          have := lt_of_lt_of_le' g2 m2
          rw [lt_irrefl'] at this; cases this
      subst hac
      obtain ⟨L, l1, l2, l3⟩ := filter_slots h (os ++ [some a]) (by
        intro d hd
        rw [List.mem_append, List.mem_singleton] at hd
        rcases hd with hd | hd
        · exact o1 d hd
        · cases hd; exact ha)
      refine ⟨L, hi0, hget, l1, ?_, ?_⟩
      · rw [hp, slots, List.cons_append, List.filter_cons_of_pos first, ← l2, List.map_append]; rfl
      · rw [hp', slots, List.cons_append, List.filter_cons_of_pos first', ← l3, List.map_append]; rfl
    · rw [htop a ha, hno' a ha] at hta; cases hta
  · rcases hcase' with ⟨c, hc, htc, hmax', hp'⟩ | ⟨hno', hp'⟩
    · rw [← htop c hc, hno c hc] at htc; cases htc
    · -- no particle above the last edge
      have ha0 : a0 ∈ l := List.mem_of_getElem? hget
      have hz0 := h.zeroJ a0 ha0
      have hz : ((slots (Num.ofRat (-1), Num.abs (j a0)) (os.map (slotPoint e j))
            (Num.ofRat 0, Num.ofRat 0)).filter (fun p => p.2 ==. Num.ofRat 0)).length
          = ((slots (Num.ofRat (-1), Num.abs (j' a0)) (os.map (slotPoint e' j'))
            (Num.ofRat 0, Num.ofRat 0)).filter (fun p => p.2 ==. Num.ofRat 0)).length := by
        have hin : ∀ os : List (Option α), (∀ a, some a ∈ os → a ∈ l) →
            ((os.map (slotPoint e j)).filter (fun p => p.2 ==. Num.ofRat 0)).length
              = ((os.map (slotPoint e' j')).filter (fun p => p.2 ==. Num.ofRat 0)).length := by
          intro os ho
          rw [List.filter_map, List.filter_map, List.length_map, List.length_map]
          congr 1
          apply List.filter_congr
          intro o hoo
          exact zero_slot h fun a ha => ho a (ha ▸ hoo)
        have hin := hin os o1
        unfold slots
        simp only [List.cons_append, List.filter_cons, List.filter_append, hz0, zero_eq_zero,
          List.filter_nil]
        split <;> simp [hin]
      generalize hn : ((slots (Num.ofRat (-1), Num.abs (j a0)) (os.map (slotPoint e j))
            (Num.ofRat 0, Num.ofRat 0)).filter (fun p => p.2 ==. Num.ofRat 0)).length = n at hp hz
      simp only [← hz] at hp'
      have hslots : ∀ {H : Type} [Num H] (y : H) (e j : α → H),
          slots (Num.ofRat (-1), y) (os.map (slotPoint e j)) (Num.ofRat 0, Num.ofRat 0)
            = (Num.ofRat (-1), y) :: (os ++ [none]).map (slotPoint e j) := by
        intro H _ y e j
        simp [slots, slotPoint]
      rw [hslots] at hp hp'
      simp only [List.length_cons, List.length_map] at hp hp'
      cases hk : (os ++ [none]).length + 1 - max 1 (n - 1) with
      | zero =>
        have hle := List.length_filter_le (fun p : F × F => p.2 ==. Num.ofRat 0)
          (slots (Num.ofRat (-1), Num.abs (j a0)) (os.map (slotPoint e j)) (Num.ofRat 0, Num.ofRat 0))
        rw [hn] at hle
        simp only [slots, List.length_append, List.length_cons, List.length_map, List.length_nil]
          at hle hk
        omega
      | succ k =>
        rw [hk, List.take_succ_cons, List.filter_cons_of_pos first, ← List.map_take] at hp
        rw [hk, List.take_succ_cons, List.filter_cons_of_pos first', ← List.map_take] at hp'
        obtain ⟨L, l1, l2, l3⟩ := filter_slots h ((os ++ [none]).take k) (by
          intro d hd
          have := List.mem_of_mem_take hd
          rw [List.mem_append, List.mem_singleton] at this
          rcases this with hd | hd
          · exact o1 d hd
          · cases hd)
        exact ⟨L, hi0, hget, l1, by rw [hp, l2], by rw [hp', l3]⟩

end GChop
