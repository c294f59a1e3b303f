import Verif.Spec.Bodies
import Mathlib.Tactic.Common
import Mathlib.Data.List.Basic

/-!
# Lemmas about the model of `data.py`
-/

set_option linter.unusedSectionVars false

namespace GChop
open Pd

variable {F : Type} [Num F]

/-! ### monad and broadcasting -/

theorem Py.bind_eq_ok {α β : Type} {x : Py α} {f : α → Py β} {b : β} :
    (x >>= f) = .ok b ↔ ∃ a, x = .ok a ∧ f a = .ok b := by
  cases x <;> simp [bind, Except.bind]

@[simp] theorem Py.ok_bind {α β : Type} (a : α) (f : α → Py β) :
    ((Except.ok a : Py α) >>= f) = f a := rfl

@[simp] theorem Py.error_bind {α β : Type} (e : PyErr) (f : α → Py β) :
    ((Except.error e : Py α) >>= f) = .error e := rfl

@[simp] theorem Py.pure_eq {α : Type} (a : α) : (pure a : Py α) = .ok a := rfl

theorem Np.bcast_of_length {α β γ : Type} {f : α → β → γ} {a : List α} {b : List β}
    (h : a.length = b.length) : Np.bcast f a b = .ok (List.zipWith f a b) := by
  simp [Np.bcast, h]

theorem Np.bcast_map {α β γ δ : Type} (f : α → β → γ) (g : δ → α) (h : δ → β) (l : List δ) :
    Np.bcast f (l.map g) (l.map h) = .ok (l.map fun b => f (g b) (h b)) := by
  rw [Np.bcast_of_length (by simp)]
  simp [List.zipWith_map, List.zipWith_self]

theorem Np.bcast_err {α β γ : Type} {f : α → β → γ} {a : List α} {b : List β} {e : PyErr}
    (h : Np.bcast f a b = .error e) : e = .valueError := by
  unfold Np.bcast at h
  split at h
  · cases h
  · split at h <;> simp_all

/-! ### the constructor -/

/-- all columns have the length of `m` -/
def PArgs.SameLen (a : PArgs F) : Prop :=
  a.x.length = a.m.length ∧ a.y.length = a.m.length ∧ a.z.length = a.m.length ∧
  a.vx.length = a.m.length ∧ a.vy.length = a.m.length ∧ a.vz.length = a.m.length ∧
  ∀ pot, a.potential = some pot → pot.length = a.m.length

theorem eraseDups_le_one {l : List Nat} : l.eraseDups.length ≤ 1 ↔ ∀ a ∈ l, ∀ b ∈ l, a = b := by
  cases l with
  | nil => simp
  | cons x xs =>
    rw [List.eraseDups_cons]
    constructor
    · intro h
      have h0 : (List.filter (fun b => !b == x) xs).eraseDups = [] := by
        simpa using h
      have h1 : List.filter (fun b => !b == x) xs = [] := by
        cases hf : List.filter (fun b => !b == x) xs with
        | nil => rfl
        | cons y ys => rw [hf, List.eraseDups_cons] at h0; cases h0
      have h2 : ∀ y ∈ xs, y = x := by
        intro y hy
        by_contra hne
        have : y ∈ List.filter (fun b => !b == x) xs := by simp [hy, hne]
        rw [h1] at this; cases this
      intro a ha b hb
      have ha' : a = x := by
        rcases List.mem_cons.1 ha with h | h
        · exact h
        · exact h2 a h
      have hb' : b = x := by
        rcases List.mem_cons.1 hb with h | h
        · exact h
        · exact h2 b h
      rw [ha', hb']
    · intro h
      have h1 : List.filter (fun b => !b == x) xs = [] := by
        rw [List.filter_eq_nil_iff]
        intro y hy
        have := h y (List.mem_cons_of_mem _ hy) x (List.mem_cons_self)
        simp [this]
      simp [h1]

theorem ParticleSet.distinctLengths_eq_false {a : PArgs F} :
    ParticleSet.distinctLengths a = false ↔ a.SameLen := by
  unfold ParticleSet.distinctLengths
  rw [decide_eq_false_iff_not, not_lt, eraseDups_le_one]
  unfold PArgs.SameLen ParticleSet.lengths
  constructor
  · intro h
    refine ⟨?_, ?_, ?_, ?_, ?_, ?_, ?_⟩
    all_goals first
      | (intro pot hp
         exact h _ (by simp [hp]) _ (by simp))
      | exact h _ (by simp) _ (by simp)
  · rintro ⟨h1, h2, h3, h4, h5, h6, h7⟩
    have key : ∀ n ∈ [a.m.length, a.x.length, a.y.length, a.z.length, a.vx.length, a.vy.length,
        a.vz.length] ++ (match a.potential with | some p => [p.length] | none => []),
        n = a.m.length := by
      intro n hn
      rcases List.mem_append.1 hn with hn | hn
      · simp only [List.mem_cons, List.not_mem_nil, or_false] at hn
        rcases hn with h | h | h | h | h | h | h <;> simp_all
      · cases hp : a.potential with
        | none => rw [hp] at hn; simp at hn
        | some p => rw [hp] at hn; simp at hn; rw [hn]; exact h7 p hp
    intro b hb c hc
    rw [key b hb, key c hc]

/-- the particles of a set of columns -/
def PArgs.rows (a : PArgs F) : List (Body F) :=
  (List.range a.m.length).map fun i =>
    let g (l : List F) := l.getD i Num.nan
    ⟨g a.m, g a.x, g a.y, g a.z, g a.vx, g a.vy, g a.vz, g (a.potential.getD [])⟩

theorem map_getD_range {α : Type} (l : List α) (d : α) (n : Nat) (h : l.length = n) :
    (List.range n).map (fun i => l.getD i d) = l := by
  subst h
  apply List.ext_getElem
  · simp
  · intro i h1 h2
    simp [List.getElem?_eq_getElem h2]

theorem PArgs.SameLen.args_rows {a : PArgs F} (h : a.SameLen) :
    a = BSet.args ⟨a.rows, a.potential.isSome, a.softening⟩ := by
  obtain ⟨h1, h2, h3, h4, h5, h6, h7⟩ := h
  obtain ⟨m, x, y, z, vx, vy, vz, pot, soft⟩ := a
  simp only [BSet.args, PArgs.rows, List.map_map, Function.comp_def, PArgs.mk.injEq] at *
  refine ⟨?_, ?_, ?_, ?_, ?_, ?_, ?_, ?_, trivial⟩
  · exact (map_getD_range _ _ _ rfl).symm
  · exact (map_getD_range _ _ _ h1).symm
  · exact (map_getD_range _ _ _ h2).symm
  · exact (map_getD_range _ _ _ h3).symm
  · exact (map_getD_range _ _ _ h4).symm
  · exact (map_getD_range _ _ _ h5).symm
  · exact (map_getD_range _ _ _ h6).symm
  · cases pot with
    | none => simp
    | some p =>
      simp only [Option.isSome_some, if_true, Option.getD_some, Option.some.injEq]
      exact (map_getD_range _ _ _ (h7 p rfl)).symm

theorem BSet.args_sameLen (s : BSet F) : s.args.SameLen := by
  simp only [PArgs.SameLen, BSet.args, List.length_map, true_and]
  intro pot h
  split at h
  · rw [← Option.some.inj h, List.length_map]
  · cases h

/-- the constructor on the columns of a list of particles -/
theorem ParticleSet.new_args (t : PType) (s : BSet F) :
    ParticleSet.new t s.args = .ok (ParticleSet.ofBodies t s) := by
  have hd : ParticleSet.distinctLengths s.args = false :=
    ParticleSet.distinctLengths_eq_false.2 s.args_sameLen
  unfold ParticleSet.new
  rw [hd]
  rcases s with ⟨l, hp, soft⟩
  cases hp <;>
  simp [ParticleSet.kineticDefault, ParticleSet.totalDefault, ParticleSet.crossTerm, BSet.args,
    List.map_map, Function.comp_def, Np.bcast_map, ParticleSet.ofBodies, Body.kinetic, Body.energy,
    Body.jx, Body.jy, Body.jz]

theorem ParticleSet.crossTerm_err {a b c d : List F} {e : PyErr}
    (h : ParticleSet.crossTerm a b c d = .error e) : e = .valueError := by
  unfold ParticleSet.crossTerm at h
  cases h1 : Np.bcast (· *. ·) a b with
  | error e' => rw [h1] at h; cases h; exact Np.bcast_err h1
  | ok p =>
    rw [h1] at h
    cases h2 : Np.bcast (· *. ·) c d with
    | error e' => rw [h2] at h; cases h; exact Np.bcast_err h2
    | ok q => rw [h2] at h; exact Np.bcast_err h

theorem ParticleSet.new_err {t : PType} {a : PArgs F} {e : PyErr}
    (h : ParticleSet.new t a = .error e) : e = .valueError := by
  unfold ParticleSet.new ParticleSet.kineticDefault at h
  cases h1 : Np.bcast (· +. ·) (a.vx.map Num.sq) (a.vy.map Num.sq) with
  | error e' => simp [h1] at h; subst h; exact Np.bcast_err h1
  | ok s =>
  cases h2 : Np.bcast (· +. ·) s (a.vz.map Num.sq) with
  | error e' => simp [h1, h2] at h; subst h; exact Np.bcast_err h2
  | ok s' =>
  simp only [h1, h2, Py.ok_bind, Py.pure_eq] at h
  cases h3 : ParticleSet.totalDefault a (s'.map (Num.ofRat (1/2) *. ·)) with
  | error e' =>
    simp [h3] at h
    subst h
    unfold ParticleSet.totalDefault at h3
    split at h3
    · cases h3
    · rename_i pot hp
      cases h4 : Np.bcast (· +. ·) (s'.map (Num.ofRat (1/2) *. ·)) pot with
      | error e'' => rw [h4] at h3; cases h3; exact Np.bcast_err h4
      | ok _ => rw [h4] at h3; cases h3
  | ok te =>
  cases h4 : ParticleSet.crossTerm a.y a.vz a.z a.vy with
  | error e' => simp [h3, h4] at h; subst h; exact ParticleSet.crossTerm_err h4
  | ok jx =>
  cases h5 : ParticleSet.crossTerm a.z a.vx a.x a.vz with
  | error e' => simp [h3, h4, h5] at h; subst h; exact ParticleSet.crossTerm_err h5
  | ok jy =>
  cases h6 : ParticleSet.crossTerm a.x a.vy a.y a.vx with
  | error e' => simp [h3, h4, h5, h6] at h; subst h; exact ParticleSet.crossTerm_err h6
  | ok jz =>
  simp only [h3, h4, h5, h6, Py.ok_bind] at h
  split at h
  · cases h; rfl
  · cases h

theorem ParticleSet.sameLen_of_new {t : PType} {a : PArgs F} {p : ParticleSet F}
    (h : ParticleSet.new t a = .ok p) : a.SameLen := by
  by_contra hs
  have hd : ParticleSet.distinctLengths a = true := by
    rw [← Bool.not_eq_false]
    exact fun h' => hs (ParticleSet.distinctLengths_eq_false.1 h')
  unfold ParticleSet.new at h
  rw [hd] at h
  simp [Py.bind_eq_ok] at h

/-- every accepted particle set is the representation of a list of particles -/
theorem ParticleSet.new_ok_iff_ofBodies {t : PType} {a : PArgs F} {p : ParticleSet F} :
    ParticleSet.new t a = .ok p ↔ ∃ s : BSet F, a = s.args ∧ p = ParticleSet.ofBodies t s := by
  constructor
  · intro h
    have hs := ParticleSet.sameLen_of_new h
    refine ⟨_, hs.args_rows, ?_⟩
    rw [hs.args_rows, ParticleSet.new_args] at h
    exact (Except.ok.inj h).symm
  · rintro ⟨s, rfl, rfl⟩
    exact ParticleSet.new_args t s

theorem ParticleSet.valid_iff {p : ParticleSet F} :
    p.Valid ↔ ∃ t s, p = ParticleSet.ofBodies t s := by
  constructor
  · rintro ⟨t, a, h⟩
    obtain ⟨s, _, hp⟩ := ParticleSet.new_ok_iff_ofBodies.1 h
    exact ⟨t, s, hp⟩
  · rintro ⟨t, s, rfl⟩
    exact ⟨t, s.args, ParticleSet.new_args t s⟩

theorem Galaxy.new_ofBodies (b : BGalaxy F) :
    Galaxy.new (.ofBodies .stars b.sSet) (.ofBodies .darkMatter b.dmSet) (.ofBodies .gas b.gSet)
      = .ok (Galaxy.ofBodies b) := by
  rcases b with ⟨s, d, g, hp, ss, sd, sg⟩
  cases hp <;> rfl

theorem Galaxy.valid_iff {g : Galaxy F} : g.Valid ↔ ∃ b : BGalaxy F, g = Galaxy.ofBodies b := by
  constructor
  · rintro ⟨s, d, h, hs, hd, hh, hn⟩
    obtain ⟨ts, bs, rfl⟩ := ParticleSet.valid_iff.1 hs
    obtain ⟨td, bd, rfl⟩ := ParticleSet.valid_iff.1 hd
    obtain ⟨tg, bg, rfl⟩ := ParticleSet.valid_iff.1 hh
    rcases bs with ⟨ls, ps, ss⟩
    rcases bd with ⟨ld, pd, sd⟩
    rcases bg with ⟨lg, pg, sg⟩
    refine ⟨⟨ls, ld, lg, ps, ss, sd, sg⟩, ?_⟩
    cases ps <;> cases pd <;> cases pg <;> cases ts <;> cases td <;> cases tg <;>
      simp [Galaxy.new, Galaxy.hasPotentialDefault, Galaxy.checkTypes, ParticleSet.ofBodies] at hn <;>
      rw [← hn] <;> rfl
  · rintro ⟨b, rfl⟩
    exact ⟨_, _, _, ⟨_, _, ParticleSet.new_args _ b.sSet⟩, ⟨_, _, ParticleSet.new_args _ b.dmSet⟩,
      ⟨_, _, ParticleSet.new_args _ b.gSet⟩, Galaxy.new_ofBodies b⟩

theorem mkgalaxy_ofBodies (b : BGalaxy F) :
    mkgalaxy b.sSet.args b.dmSet.args b.gSet.args = .ok (Galaxy.ofBodies b) := by
  simp [mkgalaxy, ParticleSet.new_args, Galaxy.new_ofBodies]

end GChop
