import Verif.CircWarn
import Verif.Lemmas.Circ

/-!
# `jcirc` under the action `"error"` and under the others

`Sim W s p`: the computation `s`, in which warnings are exceptions, does what `p` does, and stops with
a `RuntimeWarning` if `W` and nothing else is raised before.
-/

namespace GChop
open Pd

structure Sim {α : Type} (W : Prop) (s : PyW α) (p : Py α) : Prop where
  same : ¬ W → s = noWarn p
  warn : W → s = .error .runtimeWarning ∨ ∃ e, p = .error e ∧ s = .error (.raised e)

namespace Sim
variable {α β : Type}

theorem noWarn (p : Py α) : Sim False (noWarn p) p := ⟨fun _ => rfl, False.elim⟩

theorem ret (a : α) : Sim False (pure a : PyW α) (pure a : Py α) := ⟨fun _ => rfl, False.elim⟩

theorem bind {W : Prop} {s : PyW α} {p : Py α} (h : Sim W s p) {W' : α → Prop} {f : α → PyW β}
    {g : α → Py β} (hf : ∀ a, p = .ok a → Sim (W' a) (f a) (g a)) :
    Sim (W ∨ ∃ a, p = .ok a ∧ W' a) (s >>= f) (p >>= g) := by
  by_cases hW : W
  · refine ⟨fun hn => absurd (Or.inl hW) hn, fun _ => ?_⟩
    rcases h.warn hW with hs | ⟨e, hp, hs⟩
    · exact Or.inl (by rw [hs]; rfl)
    · exact Or.inr ⟨e, by rw [hp]; rfl, by rw [hs]; rfl⟩
  · have hs := h.same hW
    cases p with
    | error e =>
      refine ⟨fun _ => by rw [hs]; rfl, fun _ => Or.inr ⟨e, rfl, by rw [hs]; rfl⟩⟩
    | ok a =>
      have ha := hf a rfl
      rw [hs]
      refine ⟨fun hn => ha.same fun hw => hn (Or.inr ⟨a, rfl, hw⟩), ?_⟩
      rintro (h | ⟨a', h1, h2⟩)
      · exact absurd h hW
      · cases h1
        exact ha.warn h2

/-- a step that warns -/
theorem step (w : Bool) {W : Prop} {s : PyW α} {p : Py α} (h : Sim W s p) :
    Sim (w = true ∨ W) (warnIf w >>= fun _ => s) p := by
  cases w
  · exact ⟨fun hn => h.same fun hw => hn (Or.inr hw), fun hw => h.warn (by simpa using hw)⟩
  · exact ⟨fun hn => absurd (Or.inl rfl) hn, fun _ => Or.inl rfl⟩

theorem congr {W W' : Prop} {s : PyW α} {p : Py α} (h : Sim W s p) (e : W ↔ W') : Sim W' s p := by
  rw [← e]
  exact h

theorem ok {W : Prop} {s : PyW α} {p : Py α} (h : Sim W s p) {a : α} :
    s = .ok a ↔ p = .ok a ∧ ¬ W := by
  by_cases hW : W
  · constructor
    · intro hs
      rcases h.warn hW with h1 | ⟨e, -, h1⟩ <;> rw [h1] at hs <;> cases hs
    · exact fun h' => absurd hW h'.2
  · rw [h.same hW]
    constructor
    · intro hs
      cases p with
      | error e => cases hs
      | ok b => cases hs; exact ⟨rfl, hW⟩
    · rintro ⟨rfl, -⟩
      rfl

theorem raised {W : Prop} {s : PyW α} {p : Py α} (h : Sim W s p) {e : PyErr}
    (hs : s = .error (.raised e)) : p = .error e := by
  by_cases hW : W
  · rcases h.warn hW with h1 | ⟨e', hp, h1⟩ <;> rw [h1] at hs <;> cases hs
    exact hp
  · rw [h.same hW] at hs
    cases p with
    | error e' => cases hs; rfl
    | ok a => cases hs

theorem warning {W : Prop} {s : PyW α} {p : Py α} (h : Sim W s p) :
    s = .error .runtimeWarning → W := by
  intro hs
  by_contra hW
  rw [h.same hW] at hs
  cases p <;> cases hs

theorem warning_of {W : Prop} {s : PyW α} {p : Py α} (h : Sim W s p) {a : α} (hp : p = .ok a)
    (hW : W) : s = .error .runtimeWarning := by
  rcases h.warn hW with h1 | ⟨e, h1, -⟩
  · exact h1
  · rw [hp] at h1; cases h1

/-- a step that cannot fail -/
theorem bindOk {W W' : Prop} {s : PyW α} {a : α} (h : Sim W s (.ok a)) {f : α → PyW β} {p : Py β}
    (hf : Sim W' (f a) p) : Sim (W ∨ W') (s >>= f) p :=
  (Sim.bind h (W' := fun a' => a' = a ∧ W') (g := fun _ => p)
    (fun a' ha => by
      cases ha
      exact hf.congr (by simp))).congr (by simp)

end Sim

/-- `s` is `p`, or it stopped with a `RuntimeWarning` -/
def Weak {α : Type} (s : PyW α) (p : Py α) : Prop := s = noWarn p ∨ s = .error .runtimeWarning

namespace Weak
variable {α β : Type}

theorem of {W : Prop} {s : PyW α} {p : Py α} (h : Sim W s p) (hp : ∃ a, p = .ok a) : Weak s p := by
  by_cases hW : W
  · obtain ⟨a, ha⟩ := hp
    exact Or.inr (h.warning_of ha hW)
  · exact Or.inl (h.same hW)

theorem bind {s : PyW α} {p : Py α} (h : Weak s p) {f : α → PyW β} {g : α → Py β}
    (hf : ∀ a, p = .ok a → Weak (f a) (g a)) : Weak (s >>= f) (p >>= g) := by
  rcases h with rfl | rfl
  · cases p with
    | error e => exact Or.inl rfl
    | ok a => exact hf a rfl
  · exact Or.inr rfl

theorem bindOk {s : PyW α} {a : α} (h : Weak s (.ok a)) {f : α → PyW β} {p : Py β}
    (hf : Weak (f a) p) : Weak (s >>= f) p := by
  rcases h with rfl | rfl
  · exact hf
  · exact Or.inr rfl

end Weak

variable {F : Type} [Num F]

theorem divStrict_sim (l : List F) (c : F) :
    Sim (∃ a ∈ l, divWarns a c = true) (divStrict l c) (.ok (l.map (· /. c))) :=
  (Sim.step _ (Sim.ret _)).congr (by simp)

theorem divEachStrict_sim (l m : List F) :
    Sim ((List.zipWith divWarns l m).any id = true) (divEachStrict l m)
      (.ok (List.zipWith Num.div l m)) :=
  (Sim.step _ (Sim.ret _)).congr (by simp)

/-- some step of `sqrt(jx ** 2 + jy ** 2)` warns -/
def jrWarns (jx jy : F) : Bool :=
  opWarns [jx] (Num.sq jx) || opWarns [jy] (Num.sq jy) ||
    opWarns [Num.sq jx, Num.sq jy] (Num.sq jx +. Num.sq jy) ||
    opWarns [Num.sq jx +. Num.sq jy] (Num.sqrt (Num.sq jx +. Num.sq jy))

theorem inPlaneStrict_sim (jx jy : List F) :
    Sim (jx.any (fun a => opWarns [a] (Num.sq a)) = true ∨
        jy.any (fun a => opWarns [a] (Num.sq a)) = true ∨
        (List.zipWith (fun a b => opWarns [Num.sq a, Num.sq b] (Num.sq a +. Num.sq b)) jx jy).any id
          = true ∨
        (List.zipWith (fun a b => opWarns [Num.sq a +. Num.sq b]
          (Num.sqrt (Num.sq a +. Num.sq b))) jx jy).any id = true)
      (inPlaneStrict jx jy) (.ok (inPlane jx jy)) :=
  (Sim.step _ (Sim.step _ (Sim.step _ (Sim.step _ (Sim.ret _))))).congr (by simp)

theorem inPlaneStrict_map (l : List (Body F)) :
    Sim (∃ a ∈ l, jrWarns a.jx a.jy = true) (inPlaneStrict (l.map Body.jx) (l.map Body.jy))
      (.ok (inPlane (l.map Body.jx) (l.map Body.jy))) := by
  refine (inPlaneStrict_sim _ _).congr ?_
  simp only [jrWarns, List.zipWith_map, List.zipWith_self, List.any_map, List.any_eq_true,
    Function.comp_def, Bool.or_eq_true, id]
  constructor
  · rintro (⟨a, h1, h2⟩ | ⟨a, h1, h2⟩ | ⟨a, h1, h2⟩ | ⟨a, h1, h2⟩) <;> refine ⟨a, h1, ?_⟩ <;>
      simp [h2]
  · rintro ⟨a, h1, ((h2 | h2) | h2) | h2⟩
    · exact Or.inl ⟨a, h1, h2⟩
    · exact Or.inr (Or.inl ⟨a, h1, h2⟩)
    · exact Or.inr (Or.inr (Or.inl ⟨a, h1, h2⟩))
    · exact Or.inr (Or.inr (Or.inr ⟨a, h1, h2⟩))

/-- the comparison of the two highest orbits of the bin warns -/
def binWarns (env : CircEnv F) (E Jz : List F) (lo hi : F) : Prop :=
  let mask := Np.whereIdx (E.map fun e => (e <=. hi) && (lo <. e))
  let s := env.argsort ((Np.take Jz mask).map Num.abs)
  let Js := (Np.take (Np.take Jz mask) s).map Num.abs
  let q := Np.fromEnd Js 2 /. Np.fromEnd Js 1
  2 ≤ s.length ∧ (divWarns (Np.fromEnd Js 2) (Np.fromEnd Js 1) = true ∨
    opWarns [Num.ofRat 1, q] (Num.ofRat 1 -. q) = true)

theorem binPointStrict_sim (env : CircEnv F) (E Jz : List F) (lo hi : F) :
    Sim (binWarns env E Jz lo hi) (binPointStrict env E Jz lo hi)
      (.ok (binPoint env E Jz lo hi)) := by
  unfold binWarns binPointStrict binPoint
  simp only
  generalize Np.whereIdx (E.map fun e => (e <=. hi) && (lo <. e)) = mask
  generalize env.argsort ((Np.take Jz mask).map Num.abs) = s
  by_cases h0 : s.length = 0
  · rw [if_pos h0, if_pos h0]
    exact (Sim.ret _).congr ⟨False.elim, fun h => by omega⟩
  · rw [if_neg h0, if_neg h0]
    by_cases h1 : s.length = 1
    · rw [if_pos h1, if_pos h1]
      exact (Sim.ret _).congr ⟨False.elim, fun h => by omega⟩
    · rw [if_neg h1, if_neg h1]
      have h2 : 2 ≤ s.length := by omega
      by_cases h : (Num.ofRat (1/100) <=. (Num.ofRat 1 -. (Np.fromEnd ((Np.take (Np.take Jz mask) s).map
          Num.abs) 2 /. Np.fromEnd ((Np.take (Np.take Jz mask) s).map Num.abs) 1))) = true
      · simp only [h, if_true]
        exact (Sim.step _ (Sim.step _ (Sim.ret _))).congr (by simp [h2])
      · simp only [h]
        exact (Sim.step _ (Sim.step _ (Sim.ret _))).congr (by simp [h2])

theorem innerPointsStrict_sim (env : CircEnv F) (E Jz : List F) : ∀ aux : List F,
    Sim (∃ (k : Nat) (lo hi : F), aux[k]? = some lo ∧ aux[k + 1]? = some hi ∧ binWarns env E Jz lo hi)
      (innerPointsStrict env E Jz aux) (.ok (innerPoints env E Jz aux))
  | [] => (Sim.ret _).congr (by simp)
  | [a] => (Sim.ret _).congr (by simp)
  | lo :: hi :: aux => by
    have h := Sim.bind (binPointStrict_sim env E Jz lo hi) (f := fun p => do
        let r ← innerPointsStrict env E Jz (hi :: aux)
        return p :: r) (g := fun p => do
        let r ← (.ok (innerPoints env E Jz (hi :: aux)) : Py _)
        return p :: r) fun p _ =>
      Sim.bind (innerPointsStrict_sim env E Jz (hi :: aux)) (f := fun r => return p :: r)
        (g := fun r => return p :: r) fun r _ => Sim.ret _
    refine (h.congr ?_)
    constructor
    · rintro (h | ⟨p, -, ⟨k, l, u, h1, h2, h3⟩ | ⟨r, -, h⟩⟩)
      · exact ⟨0, lo, hi, rfl, rfl, h⟩
      · exact ⟨k + 1, l, u, h1, h2, h3⟩
      · exact h.elim
    · rintro ⟨k, l, u, h1, h2, h3⟩
      cases k with
      | zero => cases h1; cases h2; exact Or.inl h3
      | succ k => exact Or.inr ⟨_, rfl, Or.inl ⟨k, l, u, h1, h2, h3⟩⟩

theorem profileStrict_sim (env : CircEnv F) (aux E Jz : List F) :
    Sim (∃ (k : Nat) (lo hi : F), aux[k]? = some lo ∧ aux[k + 1]? = some hi ∧ binWarns env E Jz lo hi)
      (profileStrict env aux E Jz) (profile env aux E Jz) := by
  cases hi0 : Np.argmin E with
  | error e =>
    unfold profileStrict profile
    rw [hi0]
    exact ⟨fun _ => rfl, fun _ => Or.inr ⟨e, rfl, rfl⟩⟩
  | ok i0 =>
  unfold profileStrict profile
  rw [hi0]
  have e1 : ∀ f : Nat → PyW (List (F × F)), (noWarn (.ok i0) >>= f) = f i0 := fun _ => rfl
  have e2 : ∀ f : Nat → Py (List (F × F)), ((.ok i0 : Py Nat) >>= f) = f i0 := fun _ => rfl
  rw [e1, e2]
  cases ht : aux.getLast? with
  | none =>
    have : aux = [] := List.getLast?_eq_none_iff.1 ht
    subst this
    exact ⟨fun _ => rfl, by simp⟩
  | some top =>
    simp only
    have h := Sim.bind (innerPointsStrict_sim env E Jz aux) (W' := fun _ => False)
      (f := fun inner => do
        let mask := Np.whereIdx (E.map fun e => top <. e)
        let Em := Np.take E mask
        let Jm := (Np.take Jz mask).map Num.abs
        let pts ←
          if mask.length ≠ 0 then do
            let k ← noWarn (Np.argmax Jm)
            .ok ((Num.ofRat (-1), Num.abs (Jz.getD i0 Num.nan)) :: inner
              ++ [(Em.getD k Num.nan, Jm.getD k Num.nan)])
          else
            let pts := (Num.ofRat (-1), Num.abs (Jz.getD i0 Num.nan)) :: inner
              ++ [(Num.ofRat 0, Num.ofRat 0)]
            let i := (pts.filter fun p => p.2 ==. Num.ofRat 0).length - 1
            .ok (if i = 0 then dropTail pts 1 else dropTail pts i)
        return pts.filter fun p => !(p.1 ==. Num.ofRat 0))
      (g := fun inner => do
        let mask := Np.whereIdx (E.map fun e => top <. e)
        let Em := Np.take E mask
        let Jm := (Np.take Jz mask).map Num.abs
        let pts ←
          if mask.length ≠ 0 then do
            let k ← Np.argmax Jm
            .ok ((Num.ofRat (-1), Num.abs (Jz.getD i0 Num.nan)) :: inner
              ++ [(Em.getD k Num.nan, Jm.getD k Num.nan)])
          else
            let pts := (Num.ofRat (-1), Num.abs (Jz.getD i0 Num.nan)) :: inner
              ++ [(Num.ofRat 0, Num.ofRat 0)]
            let i := (pts.filter fun p => p.2 ==. Num.ofRat 0).length - 1
            .ok (if i = 0 then dropTail pts 1 else dropTail pts i)
        return pts.filter fun p => !(p.1 ==. Num.ofRat 0)) (by
        intro inner _
        by_cases hm : (Np.whereIdx (E.map fun e => top <. e)).length ≠ 0
        · simp only [if_pos hm]
          cases Np.argmax ((Np.take Jz (Np.whereIdx (E.map fun e => top <. e))).map Num.abs) with
          | error e => exact ⟨fun _ => rfl, False.elim⟩
          | ok k => exact ⟨fun _ => rfl, False.elim⟩
        · simp only [if_neg hm]
          exact ⟨fun _ => rfl, False.elim⟩)
    exact h.congr (by simp)

theorem divStrict_weak (l : List F) (c : F) : Weak (divStrict l c) (.ok (l.map (· /. c))) :=
  .of (divStrict_sim l c) ⟨_, rfl⟩

theorem divEachStrict_weak (l m : List F) :
    Weak (divEachStrict l m) (.ok (List.zipWith Num.div l m)) := .of (divEachStrict_sim l m) ⟨_, rfl⟩

theorem inPlaneStrict_weak (jx jy : List F) : Weak (inPlaneStrict jx jy) (.ok (inPlane jx jy)) :=
  .of (inPlaneStrict_sim jx jy) ⟨_, rfl⟩

theorem profileStrict_weak (env : CircEnv F) (aux E Jz : List F) :
    Weak (profileStrict env aux E Jz) (profile env aux E Jz) := by
  have h := profileStrict_sim env aux E Jz
  cases hp : profile env aux E Jz with
  | ok a => rw [hp] at h; exact .of h ⟨a, rfl⟩
  | error e =>
    rw [hp] at h
    by_cases hW : ∃ (k : Nat) (lo hi : F), aux[k]? = some lo ∧ aux[k + 1]? = some hi ∧
        binWarns env E Jz lo hi
    · rcases h.warn hW with h | ⟨e', h1, h2⟩
      · exact Or.inr h
      · cases h1; exact Or.inl h2
    · exact Or.inl (h.same hW)

/-- under the action `"error"`, `jcirc` does the same or stops with a `RuntimeWarning` -/
theorem jcircStrict_weak (env : CircEnv F) (g : Galaxy F) (bin0 bin1 : F) :
    Weak (jcircStrict env g bin0 bin1) (jcirc env g bin0 bin1) := by
  unfold jcircStrict jcirc
  refine Weak.bind (Or.inl rfl) fun df _ => ?_
  refine Weak.bind (Or.inl rfl) fun jxAll _ => ?_
  refine Weak.bind (Or.inl rfl) fun jyAll _ => ?_
  refine Weak.bind (Or.inl rfl) fun jzAll _ => ?_
  refine Weak.bindOk (inPlaneStrict_weak jxAll jyAll) ?_
  refine Weak.bind (Or.inl rfl) fun eTot _ => ?_
  refine Weak.bind (Or.inl rfl) fun eMin _ => ?_
  refine Weak.bindOk (divStrict_weak _ _) ?_
  refine Weak.bind (Or.inl rfl) fun jzMax _ => ?_
  refine Weak.bindOk (divStrict_weak _ _) ?_
  refine Weak.bind (Or.inl rfl) fun aux _ => ?_
  refine Weak.bind (profileStrict_weak _ _ _ _) fun pts _ => ?_
  refine Weak.bind (Or.inl rfl) fun types _ => ?_
  refine Weak.bindOk (inPlaneStrict_weak _ _) ?_
  refine Weak.bindOk (divStrict_weak _ _) ?_
  refine Weak.bindOk (divStrict_weak _ _) ?_
  refine Weak.bind (Or.inl rfl) fun jrMax _ => ?_
  refine Weak.bindOk (divStrict_weak _ _) ?_
  refine Weak.bind (Or.inl rfl) fun jCirc _ => ?_
  refine Weak.bindOk (divEachStrict_weak _ _) ?_
  refine Weak.bindOk (divEachStrict_weak _ _) ?_
  exact Or.inl rfl

end GChop
