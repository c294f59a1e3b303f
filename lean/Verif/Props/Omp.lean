import Verif.Potential
import Verif.Lemmas.Data
import Mathlib.Algebra.BigOperators.Group.Finset.Basic
import Mathlib.Algebra.Order.BigOperators.Group.Finset
import Mathlib.Tactic.Ring
import Verif.Props.Data

/-!
# C20: the OpenMP loop of `potential.f95`

Proved for every number type, so for float32 with its rounding.
-/

set_option linter.unusedSectionVars false

namespace GChop

variable {S : Type} [Num S]

/-- what holds of the shared memory while thread state `th` runs iteration `i` -/
def OmpThread.Ok (x y z m : List S) (soft2 : S) (n : Nat) (s : OmpState S) : OmpThread S → Prop
  | .idle => True
  | .run i j pc => i < n ∧ s.todo i = false ∧
    match pc with
    | .start => True
    | .head => j ≤ n ∧ s.pe i = fortranInner x y z m soft2 i j
    | .haveDist d => j < n ∧ i ≠ j ∧ d = fortranDist x y z soft2 i j ∧
        s.pe i = fortranInner x y z m soft2 i j
    | .loaded d r => j < n ∧ i ≠ j ∧ d = fortranDist x y z soft2 i j ∧
        r = fortranInner x y z m soft2 i j

/-- thread state `th` executes iteration `i` -/
def OmpThread.Runs (th : OmpThread S) (i : Nat) : Prop := ∃ j pc, th = .run i j pc

/-- the invariant of the parallel loop -/
structure OmpInv (x y z m : List S) (soft2 : S) (n nthreads : Nat) (s : OmpState S) : Prop where
  ok : ∀ t, (s.thr t).Ok x y z m soft2 n s
  uniq : ∀ t t' i, (s.thr t).Runs i → (s.thr t').Runs i → t = t'
  fin : ∀ i, i < n → s.todo i = false → (∀ t, ¬ (s.thr t).Runs i) →
    s.pe i = fortranInner x y z m soft2 i n
  bound : ∀ t, nthreads ≤ t → s.thr t = .idle

theorem runs_run {i j k : Nat} {pc : OmpPc S} : (OmpThread.run i j pc).Runs k ↔ i = k := by
  constructor
  · rintro ⟨_, _, h⟩; injection h
  · rintro rfl; exact ⟨_, _, rfl⟩

theorem not_runs_idle {k : Nat} : ¬ (OmpThread.idle : OmpThread S).Runs k := by
  rintro ⟨_, _, h⟩; cases h

@[simp] theorem upd_same {α : Type} (f : Nat → α) (i : Nat) (a : α) : upd f i a i = a := by
  simp [upd]
theorem upd_ne {α : Type} (f : Nat → α) {i k : Nat} (a : α) (h : k ≠ i) : upd f i a k = f k := by
  simp [upd, h]

/-- a running thread moves on inside its iteration -/
theorem OmpInv.move {x y z m : List S} {soft2 : S} {n T : Nat} {s : OmpState S}
    (h : OmpInv x y z m soft2 n T s) {t i j : Nat} {pc : OmpPc S} (ht : s.thr t = .run i j pc)
    (pe' : S) (j' : Nat) (pc' : OmpPc S)
    (hok : ∀ s' : OmpState S, s'.todo i = false → s'.pe i = pe' →
      (OmpThread.run i j' pc').Ok x y z m soft2 n s') :
    OmpInv x y z m soft2 n T
      { s with pe := upd s.pe i pe', thr := upd s.thr t (.run i j' pc') } := by
  have hi : i < n ∧ s.todo i = false := by
    have := h.ok t; rw [ht] at this; exact ⟨this.1, this.2.1⟩
  have hr : (s.thr t).Runs i := ⟨_, _, ht⟩
  have key : ∀ t' k, (upd s.thr t (.run i j' pc') t').Runs k ↔ (s.thr t').Runs k := by
    intro t' k
    by_cases e : t' = t
    · subst e; rw [upd_same, ht, runs_run, runs_run]
    · rw [upd_ne _ _ e]
  refine ⟨?_, ?_, ?_, ?_⟩
  · intro t'
    by_cases e : t' = t
    · subst e
      simp only [upd_same]
      exact hok _ hi.2 (by simp)
    · simp only [upd_ne _ _ e]
      have := h.ok t'
      cases hth : s.thr t' with
      | idle => trivial
      | run k l pc2 =>
        have hki : k ≠ i := by
          rintro rfl
          exact e (h.uniq t' t k ⟨_, _, hth⟩ hr)
        rw [hth] at this
        cases pc2 <;> simpa [OmpThread.Ok, upd_ne _ _ hki] using this
  · intro t1 t2 k h1 h2
    exact h.uniq t1 t2 k ((key _ _).1 h1) ((key _ _).1 h2)
  · intro k hk htodo hno
    have hki : k ≠ i := by
      rintro rfl
      exact hno t ((key _ _).2 hr)
    simp only [upd_ne _ _ hki]
    exact h.fin k hk htodo fun t' h' => hno t' ((key _ _).2 h')
  · intro t' hT
    have e : t' ≠ t := by
      rintro rfl
      rw [h.bound _ hT] at ht; cases ht
    simp only [upd_ne _ _ e]
    exact h.bound t' hT

theorem upd_self {α : Type} (f : Nat → α) (i : Nat) : upd f i (f i) = f := by
  funext k; simp only [upd]; split
  · subst_vars; rfl
  · rfl

theorem OmpInv.step {x y z m : List S} {soft2 : S} {n T : Nat} {s u : OmpState S}
    (h : OmpInv x y z m soft2 n T s) (st : OmpStep x y z m soft2 n T s u) :
    OmpInv x y z m soft2 n T u := by
  cases st with
  | take t i hT hidle hi htodo =>
    have hnot : ∀ t', ¬ (s.thr t').Runs i := by
      rintro t' ⟨j, pc, e⟩
      have := h.ok t'
      rw [e] at this
      rw [this.2.1] at htodo; cases htodo
    refine ⟨?_, ?_, ?_, ?_⟩
    · intro t'
      by_cases e : t' = t
      · subst e
        simp [OmpThread.Ok, hi]
      · simp only [upd_ne _ _ e]
        have := h.ok t'
        cases hth : s.thr t' with
        | idle => trivial
        | run k l pc2 =>
          have hki : k ≠ i := by
            rintro rfl
            exact hnot t' ⟨_, _, hth⟩
          rw [hth] at this
          cases pc2 <;> simpa [OmpThread.Ok, upd_ne _ _ hki] using this
    · intro t1 t2 k h1 h2
      by_cases e1 : t1 = t
      · by_cases e2 : t2 = t
        · rw [e1, e2]
        · simp only [e1, upd_same, upd_ne _ _ e2] at h1 h2
          rw [runs_run] at h1; subst h1
          exact absurd h2 (hnot _)
      · by_cases e2 : t2 = t
        · simp only [e2, upd_same, upd_ne _ _ e1] at h1 h2
          rw [runs_run] at h2; subst h2
          exact absurd h1 (hnot _)
        · simp only [upd_ne _ _ e1, upd_ne _ _ e2] at h1 h2
          exact h.uniq t1 t2 k h1 h2
    · intro k hk htodo' hno
      have hki : k ≠ i := by
        rintro rfl
        apply hno t
        simp only [upd_same]
        exact ⟨_, _, rfl⟩
      simp only [upd_ne _ _ hki] at htodo' ⊢
      refine h.fin k hk htodo' fun t' h' => ?_
      by_cases e : t' = t
      · subst e
        rw [hidle] at h'
        exact not_runs_idle h'
      · exact hno t' (by simpa only [upd_ne _ _ e] using h')
    · intro t' hT'
      have e : t' ≠ t := by rintro rfl; exact absurd hT (Nat.not_lt.2 hT')
      simp only [upd_ne _ _ e]
      exact h.bound t' hT'
  | init t i j ht =>
    refine h.move ht _ 0 .head fun s' h1 h2 => ?_
    have := h.ok t; rw [ht] at this
    exact ⟨this.1, h1, Nat.zero_le _, h2⟩
  | skip t i j ht hj hij =>
    have := h.ok t; rw [ht] at this
    have hm := h.move ht (s.pe i) (j + 1) .head (fun s' h1 h2 =>
      ⟨this.1, h1, hj, by rw [h2, this.2.2.2]; simp [fortranInner, hij]⟩)
    simpa only [upd_self] using hm
  | dist t i j ht hj hij =>
    have := h.ok t; rw [ht] at this
    have hm := h.move ht (s.pe i) j (.haveDist (fortranDist x y z soft2 i j)) (fun s' h1 h2 =>
      ⟨this.1, h1, hj, hij, rfl, by rw [h2, this.2.2.2]⟩)
    simpa only [upd_self] using hm
  | load t i j d ht =>
    have := h.ok t; rw [ht] at this
    obtain ⟨a, b, c, d1, e, f⟩ := this
    have hm := h.move ht (s.pe i) j (.loaded d (s.pe i)) (fun s' h1 h2 =>
      ⟨a, h1, c, d1, e, f⟩)
    simpa only [upd_self] using hm
  | store t i j d r ht =>
    have := h.ok t; rw [ht] at this
    obtain ⟨a, b, c, d1, e, f⟩ := this
    exact h.move ht _ (j + 1) .head (fun s' h1 h2 =>
      ⟨a, h1, c, by rw [h2, e, f]; simp [fortranInner, d1]⟩)
  | finish t i j ht hj =>
    have hok := h.ok t; rw [ht] at hok
    obtain ⟨hi, htodo, hjn, hpe⟩ := hok
    have hjn' : j = n := by omega
    subst hjn'
    have key : ∀ t' k, (upd s.thr t .idle t').Runs k → (s.thr t').Runs k := by
      intro t' k hr
      by_cases e : t' = t
      · subst e; rw [upd_same] at hr; exact absurd hr not_runs_idle
      · rwa [upd_ne _ _ e] at hr
    refine ⟨?_, ?_, ?_, ?_⟩
    · intro t'
      by_cases e : t' = t
      · subst e; simp [OmpThread.Ok]
      · simp only [upd_ne _ _ e]
        have := h.ok t'
        cases hth : s.thr t' with
        | idle => trivial
        | run k l pc2 => rw [hth] at this; cases pc2 <;> simpa [OmpThread.Ok] using this
    · intro t1 t2 k h1 h2
      exact h.uniq t1 t2 k (key _ _ h1) (key _ _ h2)
    · intro k hk htodo' hno
      by_cases e : k = i
      · subst e; exact hpe
      · refine h.fin k hk htodo' fun t' h' => hno t' ?_
        by_cases e' : t' = t
        · subst e'
          rw [ht, runs_run] at h'
          exact absurd h'.symm e
        · simpa only [upd_ne _ _ e'] using h'
    · intro t' hT'
      by_cases e : t' = t
      · subst e; simp
      · simp only [upd_ne _ _ e]; exact h.bound t' hT'

theorem OmpInv.init {x y z m : List S} {soft2 : S} {n T : Nat} {s : OmpState S} (h : OmpInit s) :
    OmpInv x y z m soft2 n T s := by
  refine ⟨?_, ?_, ?_, ?_⟩
  · intro t; rw [h.2]; trivial
  · intro t t' i hr; rw [h.2] at hr; exact absurd hr not_runs_idle
  · intro i _ ht; rw [h.1] at ht; cases ht
  · intro t _; exact h.2 t

theorem OmpInv.run {x y z m : List S} {soft2 : S} {n T : Nat} {s u : OmpState S}
    (h : OmpInit s) (r : OmpRun x y z m soft2 n T s u) : OmpInv x y z m soft2 n T u := by
  induction r with
  | refl => exact OmpInv.init h
  | tail _ st ih => exact ih.step st

/-- C20: whatever the number of threads, the distribution of the iterations and the interleaving
of their steps, the array at the end of the parallel region is the one a single thread computes. -/
theorem C20_schedule_independent (x y z m : List S) (soft : S) (nthreads : Nat)
    (s u : OmpState S) (hs : OmpInit s)
    (hrun : OmpRun x y z m (Num.sq soft) x.length nthreads s u) (hdone : OmpDone x.length u) :
    (List.range x.length).map u.pe = fortranPe x y z m soft := by
  have hinv := OmpInv.run hs hrun
  unfold fortranPe
  apply List.map_congr_left
  intro i hi
  rw [List.mem_range] at hi
  refine hinv.fin i hi (hdone.1 i hi) fun t hr => ?_
  rw [hdone.2 t] at hr
  exact not_runs_idle hr

/-- C20: no two threads ever work on the same element of the shared array (no data race). -/
theorem C20_no_race (x y z m : List S) (soft : S) (nthreads : Nat)
    (s u : OmpState S) (hs : OmpInit s)
    (hrun : OmpRun x y z m (Num.sq soft) x.length nthreads s u) (t t' i j j' : Nat)
    (pc pc' : OmpPc S) (h : u.thr t = .run i j pc) (h' : u.thr t' = .run i j' pc') : t = t' :=
  (OmpInv.run hs hrun).uniq t t' i ⟨_, _, h⟩ ⟨_, _, h'⟩

/-! ### every schedule ends -/

/-- steps a thread still has to do in its iteration -/
def OmpThread.weight (n : Nat) : OmpThread S → Nat
  | .idle => 0
  | .run _ _ .start => 3 * n + 2
  | .run _ j .head => 3 * (n - j) + 1
  | .run _ j (.haveDist _) => 3 * (n - j)
  | .run _ j (.loaded _ _) => 3 * (n - j) - 1

/-- an upper bound for the number of steps that are left -/
def OmpState.weight (n T : Nat) (s : OmpState S) : Nat :=
  (∑ i ∈ Finset.range n, if s.todo i = true then 3 * n + 3 else 0) +
    ∑ t ∈ Finset.range T, (s.thr t).weight n

theorem sum_upd (f : Nat → OmpThread S) (n T t : Nat) (a : OmpThread S) (ht : t < T) :
    (∑ k ∈ Finset.range T, (upd f t a k).weight n) + (f t).weight n
      = (∑ k ∈ Finset.range T, (f k).weight n) + a.weight n := by
  have hm : t ∈ Finset.range T := Finset.mem_range.2 ht
  rw [← Finset.add_sum_erase _ _ hm, ← Finset.add_sum_erase _ (fun k => (f k).weight n) hm]
  have : ∑ k ∈ (Finset.range T).erase t, (upd f t a k).weight n
      = ∑ k ∈ (Finset.range T).erase t, (f k).weight n :=
    Finset.sum_congr rfl fun k hk => by rw [upd_ne _ _ (Finset.ne_of_mem_erase hk)]
  rw [this, upd_same]; ring

theorem OmpInv.lt_of_run {x y z m : List S} {soft2 : S} {n T : Nat} {s : OmpState S}
    (h : OmpInv x y z m soft2 n T s) {t i j : Nat} {pc : OmpPc S} (ht : s.thr t = .run i j pc) :
    t < T := by
  by_contra hc
  rw [h.bound t (Nat.not_lt.1 hc)] at ht; cases ht

theorem OmpInv.weight_lt {x y z m : List S} {soft2 : S} {n T : Nat} {s u : OmpState S}
    (h : OmpInv x y z m soft2 n T s) (st : OmpStep x y z m soft2 n T s u) :
    u.weight n T < s.weight n T := by
  have aux : ∀ (t : Nat) (a : OmpThread S), t < T → a.weight n < (s.thr t).weight n →
      (∑ k ∈ Finset.range T, (upd s.thr t a k).weight n)
        < ∑ k ∈ Finset.range T, (s.thr k).weight n := by
    intro t a ht hlt
    have := sum_upd s.thr n T t a ht
    omega
  cases st with
  | take t i hT hidle hi htodo =>
    have h1 := sum_upd s.thr n T t (.run i 0 .start) hT
    have w1 : (OmpThread.idle : OmpThread S).weight n = 0 := rfl
    have w2 : (OmpThread.run i 0 .start : OmpThread S).weight n = 3 * n + 2 := rfl
    rw [hidle, w1, w2] at h1
    have hm : i ∈ Finset.range n := Finset.mem_range.2 hi
    have h2 : (∑ k ∈ Finset.range n, if upd s.todo i false k = true then 3 * n + 3 else 0)
        + (3 * n + 3) = ∑ k ∈ Finset.range n, if s.todo k = true then 3 * n + 3 else 0 := by
      rw [← Finset.add_sum_erase _ _ hm,
        ← Finset.add_sum_erase _ (fun k => if s.todo k = true then 3 * n + 3 else 0) hm]
      have : ∑ k ∈ (Finset.range n).erase i, (if upd s.todo i false k = true then 3 * n + 3 else 0)
          = ∑ k ∈ (Finset.range n).erase i, if s.todo k = true then 3 * n + 3 else 0 :=
        Finset.sum_congr rfl fun k hk => by rw [upd_ne _ _ (Finset.ne_of_mem_erase hk)]
      rw [this, upd_same, htodo]
      simp; ring
    simp only [OmpState.weight]
    omega
  | init t i j ht =>
    refine Nat.add_lt_add_left (aux t _ (h.lt_of_run ht) ?_) _
    rw [ht]; simp [OmpThread.weight]
  | skip t i j ht hj hij =>
    refine Nat.add_lt_add_left (aux t _ (h.lt_of_run ht) ?_) _
    rw [ht]; simp only [OmpThread.weight]; omega
  | dist t i j ht hj hij =>
    refine Nat.add_lt_add_left (aux t _ (h.lt_of_run ht) ?_) _
    rw [ht]; simp only [OmpThread.weight]; omega
  | load t i j d ht =>
    have hok := h.ok t; rw [ht] at hok
    have := hok.2.2.1
    refine Nat.add_lt_add_left (aux t _ (h.lt_of_run ht) ?_) _
    rw [ht]; simp only [OmpThread.weight]; omega
  | store t i j d r ht =>
    have hok := h.ok t; rw [ht] at hok
    have := hok.2.2.1
    refine Nat.add_lt_add_left (aux t _ (h.lt_of_run ht) ?_) _
    rw [ht]; simp only [OmpThread.weight]; omega
  | finish t i j ht hj =>
    refine Nat.add_lt_add_left (aux t _ (h.lt_of_run ht) ?_) _
    rw [ht]; simp only [OmpThread.weight]; omega

/-- C20: from every reachable state that is not finished some thread can move, and every step
decreases a measure; so every schedule reaches the end of the region. -/
theorem C20_terminates (x y z m : List S) (soft : S) (nthreads : Nat) (hT : 0 < nthreads)
    (s : OmpState S) (hs : OmpInit s) :
    ∃ μ : OmpState S → Nat, ∀ u, OmpRun x y z m (Num.sq soft) x.length nthreads s u →
      (OmpDone x.length u ∨ ∃ w, OmpStep x y z m (Num.sq soft) x.length nthreads u w) ∧
      ∀ w, OmpStep x y z m (Num.sq soft) x.length nthreads u w → μ w < μ u := by
  refine ⟨OmpState.weight x.length nthreads, fun u hr => ⟨?_, fun w st =>
    (OmpInv.run hs hr).weight_lt st⟩⟩
  have hinv := OmpInv.run hs hr
  by_cases hidle : ∀ t, u.thr t = .idle
  · by_cases htodo : ∀ i, i < x.length → u.todo i = false
    · exact Or.inl ⟨htodo, hidle⟩
    · simp only [not_forall] at htodo
      obtain ⟨i, hi, ht⟩ := htodo
      exact Or.inr ⟨_, OmpStep.take u 0 i hT (hidle 0) hi (by simpa using ht)⟩
  · simp only [not_forall] at hidle
    obtain ⟨t, ht⟩ := hidle
    right
    cases hth : u.thr t with
    | idle => exact absurd hth ht
    | run i j pc =>
      cases pc with
      | start => exact ⟨_, OmpStep.init u t i j hth⟩
      | haveDist d => exact ⟨_, OmpStep.load u t i j d hth⟩
      | loaded d r => exact ⟨_, OmpStep.store u t i j d r hth⟩
      | head =>
        by_cases hj : j < x.length
        · by_cases hij : i = j
          · exact ⟨_, OmpStep.skip u t i j hth hj hij⟩
          · exact ⟨_, OmpStep.dist u t i j hth hj hij⟩
        · exact ⟨_, OmpStep.finish u t i j hth hj⟩

/-- a run can always be completed -/
theorem C20_can_finish (x y z m : List S) (soft : S) (nthreads : Nat) (hT : 0 < nthreads)
    (s : OmpState S) (hs : OmpInit s) :
    ∃ u, OmpRun x y z m (Num.sq soft) x.length nthreads s u ∧ OmpDone x.length u := by
  obtain ⟨μ, h⟩ := C20_terminates x y z m soft nthreads hT s hs
  have key : ∀ k u, μ u ≤ k → OmpRun x y z m (Num.sq soft) x.length nthreads s u →
      ∃ u, OmpRun x y z m (Num.sq soft) x.length nthreads s u ∧ OmpDone x.length u := by
    intro k
    induction k with
    | zero =>
      intro u hu hr
      rcases (h u hr).1 with hd | ⟨w, st⟩
      · exact ⟨u, hr, hd⟩
      · have := (h u hr).2 w st; omega
    | succ k ih =>
      intro u hu hr
      rcases (h u hr).1 with hd | ⟨w, st⟩
      · exact ⟨u, hr, hd⟩
      · exact ih w (by have := (h u hr).2 w st; omega) (.tail hr st)
  exact key _ s le_rfl (.refl s)

-- an initial state exists, whatever the memory holds
example (garbage : Nat → Ext ℚ) : OmpInit (⟨garbage, fun _ => true, fun _ => .idle⟩ :
    OmpState (Ext ℚ)) := ⟨fun _ => rfl, fun _ => rfl⟩

end GChop
