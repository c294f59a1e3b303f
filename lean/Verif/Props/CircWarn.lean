import Verif.Lemmas.CircWarn
import Verif.Props.DoubleCentre

/-!
# C95: `jcirc(..., runtime_warnings=...)`
-/

set_option linter.unusedSectionVars false

namespace GChop
open Pd

section
variable {F : Type} [Num F] [NumOrd F]

/-- some operation of `jcirc` warns -/
def Warns (env : CircEnv F) (b : BGalaxy F) (n : CircNorm F) (aux : List F) : Prop :=
  (∃ a ∈ b.all, jrWarns a.jx a.jy = true) ∨
  (∃ a ∈ b.bound, divWarns a.energy (Num.abs n.eMin) = true) ∨
  (∃ a ∈ b.bound, divWarns a.jz n.jzMax = true) ∨
  (∃ (k : Nat) (lo hi : F), aux[k]? = some lo ∧ aux[k + 1]? = some hi ∧
    binWarns env (b.bound.map n.e) (b.bound.map n.jz) lo hi) ∨
  ∃ a ∈ b.stars, isBound a.energy = true ∧ (divWarns a.jr n.jrMax = true ∨
    divWarns (n.jz a) (n.jc env a) = true ∨ divWarns (a.jr /. n.jrMax) (n.jc env a) = true)

theorem stars_bound {b : BGalaxy F} {a : Body F} (ha : a ∈ b.stars) (hb : isBound a.energy = true) :
    a ∈ b.bound := by
  unfold BGalaxy.bound BGalaxy.all
  simp [ha, hb]

theorem jcircStrict_bodies (env : CircEnv F) (b : BGalaxy F) (hp : b.hasPot = true) (bin0 bin1 : F)
    {n : CircNorm F} (hn : circNorm env b bin0 bin1 = .ok n) {aux : List F}
    (haux : energyBins bin0 bin1 = .ok aux) :
    Sim (Warns env b n aux) (jcircStrict env (Galaxy.ofBodies b) bin0 bin1)
      (jcirc env (Galaxy.ofBodies b) bin0 bin1) := by
  obtain ⟨hne, h1, h2, h5, aux', hb', _, h4⟩ := circNorm_inv hn
  rw [haux] at hb'
  cases hb'
  rw [jcirc_ofBodies env b hp, hn]
  show Sim _ _ (if _ then _ else _)
  have hb : ∀ f : Body F → F, Np.take (b.all.map f)
      (Np.whereIdx ((b.all.map Body.energy).map isBound)) = b.bound.map f := by
    intro f
    rw [List.map_map]
    exact Np.take_whereIdx b.all (isBound ∘ Body.energy) f
  have hs : ∀ f : Body F → F, Np.take (b.stars.map f)
      (Np.whereIdx ((b.stars.map Body.energy).map isBound))
      = (b.stars.filter fun a => isBound a.energy).map f := by
    intro f
    rw [List.map_map]
    exact Np.take_whereIdx b.stars (isBound ∘ Body.energy) f
  have htype : (tableOf (b.rows none) ["ptypev", "total_energy", "Jx", "Jy", "Jz"]).col "ptypev"
      = .ok ((b.rows none).map fun r => (Cell.int r.t.value : Cell F)) := by
    rw [tableOf_col _ _ "ptypev" (by simp)]
    simp
  have hof : ∀ f : Body F → F, ofType ((b.rows none).map fun r => (Cell.int r.t.value : Cell F))
      (b.all.map f) .stars = b.stars.map f := by
    intro f
    rw [← rows_none_map_body b f, ofType_rows, filter_rows]
  have hcol : ∀ (f : Body F → F) (c : String), (∀ r : Row F, r.cell c = .num (f r.body)) →
      (b.rows none).map (fun r => (r.cell c).toNum) = b.all.map f := by
    intro f c h
    rw [← rows_none_map_body]
    simp [h]
  have quiet : ∀ {α β : Type} {p : Py α} {a : α} {f : α → PyW β} {q : Py β} {W : Prop}, p = .ok a →
      Sim W (f a) q → Sim W (noWarn p >>= f) q := by
    intro α β p a f q W h hf
    rw [h]
    exact hf
  have habs : ∀ f : Body F → F, ((b.bound.map f).map Num.abs) = b.bound.map fun a => Num.abs (f a) := by
    intro f
    rw [List.map_map]
    rfl
  have hdiv : ∀ (l : List (Body F)) (f : Body F → F) (c : F),
      (l.map f).map (· /. c) = l.map fun a => f a /. c := by
    intro l f c
    rw [List.map_map]
    rfl
  have key : Sim ((∃ a ∈ b.all, jrWarns a.jx a.jy = true) ∨
      (∃ a ∈ b.bound.map Body.energy, divWarns a (Num.abs n.eMin) = true) ∨
      (∃ a ∈ b.bound.map Body.jz, divWarns a n.jzMax = true) ∨
      (∃ (k : Nat) (lo hi : F), aux[k]? = some lo ∧ aux[k + 1]? = some hi ∧
        binWarns env (b.bound.map n.e) (b.bound.map n.jz) lo hi) ∨
      (∃ a ∈ b.stars, jrWarns a.jx a.jy = true) ∨
      (∃ a ∈ (b.stars.filter fun a => isBound a.energy).map Body.energy,
        divWarns a (Num.abs n.eMin) = true) ∨
      (∃ a ∈ (b.stars.filter fun a => isBound a.energy).map Body.jz, divWarns a n.jzMax = true) ∨
      (∃ a ∈ (b.stars.filter fun a => isBound a.energy).map Body.jr, divWarns a n.jrMax = true) ∨
      ((List.zipWith divWarns ((b.stars.filter fun a => isBound a.energy).map n.jz)
        ((b.stars.filter fun a => isBound a.energy).map (n.jc env))).any id = true) ∨
      ((List.zipWith divWarns ((b.stars.filter fun a => isBound a.energy).map fun a => a.jr /. n.jrMax)
        ((b.stars.filter fun a => isBound a.energy).map (n.jc env))).any id = true) ∨ False)
      (jcircStrict env (Galaxy.ofBodies b) bin0 bin1)
      (if trueFirst (fun a => isBound a.energy) b.stars then .ok (circResult env n b.stars)
        else .error .indexError) := by
    unfold jcircStrict
    refine quiet (frameCirc_ok b) ?_
    refine quiet (a := b.all.map Body.jx) (by
      rw [tableOf_numCol _ _ "Jx" (by simp), hcol Body.jx "Jx" (by simp)]) ?_
    refine quiet (a := b.all.map Body.jy) (by
      rw [tableOf_numCol _ _ "Jy" (by simp), hcol Body.jy "Jy" (by simp)]) ?_
    refine quiet (a := b.all.map Body.jz) (by
      rw [tableOf_numCol _ _ "Jz" (by simp), hcol Body.jz "Jz" (by simp)]) ?_
    refine Sim.bindOk (inPlaneStrict_map b.all) ?_
    refine quiet (a := b.all.map Body.energy) (by
      rw [tableOf_numCol _ _ "total_energy" (by simp), rows_energy b hp]) ?_
    simp only [inPlane_map, hb]
    refine quiet h1 ?_
    refine Sim.bindOk (divStrict_sim _ _) ?_
    refine quiet (by rw [habs]; exact h2) ?_
    refine Sim.bindOk (divStrict_sim _ _) ?_
    refine quiet haux ?_
    rw [hdiv, hdiv]
    refine Sim.bindOk (a := n.pts) ?_ ?_
    · have := profileStrict_sim env aux (b.bound.map n.e) (b.bound.map n.jz)
      rw [h4] at this
      exact this
    refine quiet htype ?_
    simp only [hof]
    refine Sim.bindOk (inPlaneStrict_map b.stars) ?_
    simp only [hs, inPlane_map]
    refine Sim.bindOk (divStrict_sim _ _) ?_
    refine Sim.bindOk (divStrict_sim _ _) ?_
    refine quiet (by rw [habs]; exact h5) ?_
    refine Sim.bindOk (divStrict_sim _ _) ?_
    rw [hdiv, hdiv, hdiv]
    have hpts : n.pts ≠ [] := profile_ne_nil (by simpa using hne) (by simp) h4
    refine quiet (a := (b.stars.filter fun a => isBound a.energy).map (n.jc env)) ?_ ?_
    · unfold Np.interp
      have : ¬ ((n.pts.map (·.1)).length = 0 ∨ (n.pts.map (·.1)).length ≠ (n.pts.map (·.2)).length) := by
        simp [hpts]
      rw [if_neg this, List.map_map]
      rfl
    refine Sim.bindOk (divEachStrict_sim _ _) ?_
    refine Sim.bindOk (divEachStrict_sim _ _) ?_
    have h := Sim.noWarn (finishCirc (b.stars.map Body.energy).length
      (Np.whereIdx ((b.stars.map Body.energy).map isBound))
      ((b.stars.filter fun a => isBound a.energy).map n.e)
      ((b.stars.filter fun a => isBound a.energy).map n.jz)
      ((b.stars.filter fun a => isBound a.energy).map (n.eps env))
      ((b.stars.filter fun a => isBound a.energy).map (n.epsR env))
      (n.pts.map (·.1)) (n.pts.map (·.2)))
    have hf := finishCirc_ok b.stars (fun a => isBound a.energy) n.e n.jz (n.eps env) (n.epsR env)
      (n.pts.map (·.1)) (n.pts.map (·.2))
    rw [List.zipWith_map, List.zipWith_map, List.zipWith_self, List.zipWith_self]
    rw [List.length_map, List.map_map] at h ⊢
    exact (congrArg (Sim False _) hf).mp h
  refine key.congr ?_
  unfold Warns
  simp only [List.zipWith_map, List.zipWith_self, List.any_map, List.any_eq_true, List.mem_map,
    List.mem_filter, Function.comp_def, id, or_false]
  constructor
  · rintro (h | ⟨_, ⟨a, ha, rfl⟩, h⟩ | ⟨_, ⟨a, ha, rfl⟩, h⟩ | h | ⟨a, ha, h⟩ | ⟨_, ⟨a, ha, rfl⟩, h⟩ |
      ⟨_, ⟨a, ha, rfl⟩, h⟩ | ⟨_, ⟨a, ha, rfl⟩, h⟩ | ⟨a, ha, h⟩ | ⟨a, ha, h⟩)
    · exact Or.inl h
    · exact Or.inr (Or.inl ⟨a, ha, h⟩)
    · exact Or.inr (Or.inr (Or.inl ⟨a, ha, h⟩))
    · exact Or.inr (Or.inr (Or.inr (Or.inl h)))
    · exact Or.inl ⟨a, by unfold BGalaxy.all; simp [ha], h⟩
    · exact Or.inr (Or.inl ⟨a, stars_bound ha.1 ha.2, h⟩)
    · exact Or.inr (Or.inr (Or.inl ⟨a, stars_bound ha.1 ha.2, h⟩))
    · exact Or.inr (Or.inr (Or.inr (Or.inr ⟨a, ha.1, ha.2, Or.inl h⟩)))
    · exact Or.inr (Or.inr (Or.inr (Or.inr ⟨a, ha.1, ha.2, Or.inr (Or.inl h)⟩)))
    · exact Or.inr (Or.inr (Or.inr (Or.inr ⟨a, ha.1, ha.2, Or.inr (Or.inr h)⟩)))
  · rintro (h | ⟨a, ha, h⟩ | ⟨a, ha, h⟩ | h | ⟨a, ha, hab, h | h | h⟩)
    · exact Or.inl h
    · exact Or.inr (Or.inl ⟨_, ⟨a, ha, rfl⟩, h⟩)
    · exact Or.inr (Or.inr (Or.inl ⟨_, ⟨a, ha, rfl⟩, h⟩))
    · exact Or.inr (Or.inr (Or.inr (Or.inl h)))
    · exact Or.inr (Or.inr (Or.inr (Or.inr (Or.inr (Or.inr (Or.inr (Or.inl
        ⟨_, ⟨a, ⟨ha, hab⟩, rfl⟩, h⟩)))))))
    · exact Or.inr (Or.inr (Or.inr (Or.inr (Or.inr (Or.inr (Or.inr (Or.inr (Or.inl
        ⟨a, ⟨ha, hab⟩, h⟩))))))))
    · exact Or.inr (Or.inr (Or.inr (Or.inr (Or.inr (Or.inr (Or.inr (Or.inr (Or.inr
        ⟨a, ⟨ha, hab⟩, h⟩))))))))


variable {α : Type}

/-- the warning of a bin in terms of its particles, highest orbit first -/
theorem binWarns_map {env : CircEnv F} (hs : Np.ArgsortOK env.argsort) (l : List α) (e j : α → F)
    (lo hi : F) : ∃ t : List α, t.Perm (inBin e lo hi l) ∧
      t.Pairwise (fun a c => (Num.abs (j c) <=. Num.abs (j a)) = true ∨
        Num.isNaN (Num.abs (j a)) = true) ∧
      (binWarns env (l.map e) (l.map j) lo hi ↔ ∃ a c r, t = a :: c :: r ∧
        (divWarns (Num.abs (j c)) (Num.abs (j a)) = true ∨
          opWarns [Num.ofRat 1, Num.abs (j c) /. Num.abs (j a)]
            (Num.ofRat 1 -. (Num.abs (j c) /. Num.abs (j a))) = true)) := by
  have hm : ∀ f : α → F, Np.take (l.map f)
      (Np.whereIdx ((l.map e).map fun e => (e <=. hi) && (lo <. e))) = (inBin e lo hi l).map f := by
    intro f
    rw [List.map_map]
    exact Np.take_whereIdx l ((fun e => (e <=. hi) && (lo <. e)) ∘ e) f
  set m := inBin e lo hi l with hmdef
  set s := env.argsort ((m.map j).map Num.abs) with hsdef
  have hperm : s.Perm (List.range m.length) := by
    have := (hs ((m.map j).map Num.abs)).1
    rwa [List.length_map, List.length_map] at this
  have hsort := (hs ((m.map j).map Num.abs)).2
  refine ⟨(Np.take m s).reverse, (List.reverse_perm _).trans (Np.take_perm hperm), ?_, ?_⟩
  · rw [List.pairwise_reverse]
    apply Np.take_pairwise
    apply hsort.imp
    intro i k h a b ha hb
    exact h _ _ (by simp [ha]) (by simp [hb])
  · unfold binWarns
    simp only [hm]
    rw [← hsdef, ← Np.take_length hperm]
    simp only [Np.take_map]
    generalize ht : Np.take m s = t
    rcases List.eq_nil_or_concat t with rfl | ⟨t', a, rfl⟩
    · simp
    · rcases List.eq_nil_or_concat t' with rfl | ⟨t'', c, rfl⟩
      · simp
      · have h2 : ∀ f : α → F, Np.fromEnd (List.map f (t''.concat c ++ [a])) 2 = f c := by
          intro f
          simp [Np.fromEnd]
        have h1 : ∀ f : α → F, Np.fromEnd (List.map f (t''.concat c ++ [a])) 1 = f a := by
          intro f
          simp [Np.fromEnd]
        simp only [List.concat_eq_append] at h1 h2
        simp only [List.concat_eq_append, List.map_map, h1, h2, List.reverse_append,
          List.reverse_cons, List.reverse_nil, List.nil_append, List.cons_append]
        constructor
        · rintro ⟨-, h⟩
          exact ⟨a, c, _, rfl, h⟩
        · rintro ⟨a', c', r, he, h⟩
          cases he
          exact ⟨by simp, h⟩

/-- for finite operands: the result is not finite -/
theorem opWarns_finite {args : List F} {r : F} (h : ∀ a ∈ args, Num.isFinite a = true) :
    opWarns args r = true ↔ Num.isFinite r = false := by
  have h1 : args.all Num.isFinite = true := List.all_eq_true.2 h
  have h2 : args.all (fun a => !Num.isNaN a) = true := List.all_eq_true.2 fun a ha => by
    rw [NumOrd.finite_not_nan (h a ha)]
    rfl
  unfold opWarns
  rw [h1, h2]
  cases hr : Num.isFinite r with
  | true => simp [NumOrd.finite_not_nan hr]
  | false => simp

theorem divWarns_finite {a b : F} (ha : Num.isFinite a = true) (hb : Num.isFinite b = true) :
    divWarns a b = true ↔ Num.isFinite (a /. b) = false :=
  opWarns_finite (by simp [ha, hb])

/-- C95: the actions other than `"error"` do not change the result; an unknown action is refused. -/
theorem C95_other_actions (env : CircEnv F) (g : Galaxy F) (bin0 bin1 : F) (action : String)
    (h : action ≠ "error") :
    (action ∈ ["default", "ignore", "always", "module", "once"] →
      jcircAction env g bin0 bin1 action = noWarn (jcirc env g bin0 bin1)) ∧
    (action ∉ ["default", "ignore", "always", "module", "once"] →
      jcircAction env g bin0 bin1 action = .error .assertionError) := by
  unfold jcircAction
  rw [if_neg h]
  exact ⟨fun h => if_pos h, fun h => if_neg h⟩

/-- C95: with `"error"` the call returns what it returns without, raises what it raises without, or
raises `RuntimeWarning`; it never returns something else. -/
theorem C95_error_action (env : CircEnv F) (g : Galaxy F) (bin0 bin1 : F) :
    (∀ j, jcircAction env g bin0 bin1 "error" = .ok j → jcirc env g bin0 bin1 = .ok j) ∧
    (∀ e, jcircAction env g bin0 bin1 "error" = .error (.raised e) →
      jcirc env g bin0 bin1 = .error e) ∧
    jcircAction env g bin0 bin1 "error" ≠ .error .assertionError := by
  unfold jcircAction
  rw [if_pos rfl]
  have h := jcircStrict_weak env g bin0 bin1
  refine ⟨fun j hj => ?_, fun e he => ?_, fun ha => ?_⟩ <;> rcases h with h | h <;>
    cases hc : jcirc env g bin0 bin1 <;> simp_all [noWarn]

end

open Flt

theorem finite_add {a b : Float64} (h : Num.isFinite (a +. b) = true) :
    Num.isFinite a = true ∧ Num.isFinite b = true := by
  cases a with
  | nan => cases h
  | fin s m =>
    refine ⟨rfl, ?_⟩
    cases b with
    | nan => cases h
    | fin t n => rfl
    | inf t => cases t <;> cases h
  | inf s =>
    exfalso
    cases b with
    | nan => cases h
    | fin t n => cases s <;> cases h
    | inf t => cases s <;> cases t <;> cases h

theorem finite_sqrt {a : Float64} (h : Num.isFinite (Num.sqrt a) = true) : Num.isFinite a = true := by
  cases a with
  | nan => cases h
  | fin s m => rfl
  | inf s => cases s <;> cases h

/-- the computation of the angular momentum in the plane warns when it does not give a number -/
theorem jrWarns_iff {a : Body Float64} (hx : Num.isFinite a.jx = true)
    (hy : Num.isFinite a.jy = true) :
    jrWarns a.jx a.jy = true ↔ Num.isFinite a.jr = false := by
  unfold jrWarns
  rw [Bool.or_eq_true, Bool.or_eq_true, Bool.or_eq_true, opWarns_finite (by simp [hx]),
    opWarns_finite (by simp [hy])]
  cases hr : Num.isFinite a.jr with
  | true =>
    have h1 := finite_sqrt hr
    obtain ⟨h2, h3⟩ := finite_add h1
    rw [opWarns_finite (by simp [h2, h3]), opWarns_finite (by simp [h1]), h2, h3, h1]
    have : Num.isFinite (Num.sqrt (Num.sq a.jx +. Num.sq a.jy)) = true := hr
    simp [this]
  | false =>
    simp only [iff_true]
    by_cases h2 : Num.isFinite (Num.sq a.jx) = true
    · by_cases h3 : Num.isFinite (Num.sq a.jy) = true
      · rw [opWarns_finite (by simp [h2, h3])]
        by_cases h1 : Num.isFinite (Num.sq a.jx +. Num.sq a.jy) = true
        · rw [opWarns_finite (by simp [h1])]
          exact Or.inr hr
        · exact Or.inl (Or.inr (by simpa using h1))
      · exact Or.inl (Or.inl (Or.inr (by simpa using h3)))
    · exact Or.inl (Or.inl (Or.inl (by simpa using h2)))

theorem value_zero_iff {a : Float64} (h : Num.isFinite a = true) :
    (a ==. Num.ofRat 0) = true ↔ value a = 0 := by
  constructor
  · intro h0
    obtain ⟨s, m, rfl, hm⟩ := eq_zero_iff.1 h0
    show sval s m = 0
    exact sval_of_zero hm
  · intro h0
    exact eq_zero_of_toExt (by rw [toExt_value h, h0])

/-- a share of a largest value warns only if that is zero -/
theorem share_warns {z M : Float64} (fz : Num.isFinite z = true) (fM : Num.isFinite M = true)
    (hM : 0 ≤ value M) (h : |value z| ≤ value M) : divWarns z M = true ↔ value M = 0 := by
  rw [divWarns_finite fz fM]
  rcases hM.lt_or_eq with hpos | h0
  · rw [(share_err fz fM hpos h).1]
    simp [hpos.ne']
  · rw [← h0]
    simp only [iff_true]
    by_contra hc
    exact (finite_div fM (by simpa using hc)).2 h0.symm

/-- a bin warns if it has two particles and none of its particles rotates -/
theorem binWarns_iff {α : Type} {env : CircEnv Float64} (hs : Np.ArgsortOK env.argsort) (l : List α)
    (e j : α → Float64) (hj : ∀ a ∈ l, Num.isFinite (j a) = true) (lo hi : Float64) :
    binWarns env (l.map e) (l.map j) lo hi ↔ 2 ≤ (inBin e lo hi l).length ∧
      ∀ a ∈ inBin e lo hi l, (j a ==. Num.ofRat 0) = true := by
  obtain ⟨t, hp, hsort, hw⟩ := binWarns_map hs l e j lo hi
  have hfin : ∀ a ∈ t, Num.isFinite (j a) = true := fun a ha =>
    hj a (List.mem_of_mem_filter (hp.subset ha))
  have hmem : (∀ a ∈ inBin e lo hi l, (j a ==. Num.ofRat 0) = true) ↔
      ∀ a ∈ t, (j a ==. Num.ofRat 0) = true := by
    constructor <;> intro h a ha
    · exact h a (hp.subset ha)
    · exact h a (hp.symm.subset ha)
  rw [hw, hmem, ← hp.length_eq]
  match t, hfin, hsort with
  | [], _, _ => simp
  | [a], _, _ => simp
  | a :: c :: r, hfin, hsort =>
    have fa := hfin a (by simp)
    have fc := hfin c (by simp)
    have hle : ∀ x ∈ a :: c :: r, |value (j x)| ≤ |value (j a)| := by
      intro x hx
      rcases List.mem_cons.1 hx with rfl | hx
      · exact le_rfl
      · have h := (List.pairwise_cons.1 hsort).1 x hx
        have h := h.resolve_right (by rw [NumOrd.finite_not_nan (finite_abs fa)]; simp)
        have := (le_value (toExt_value (finite_abs (hfin x (List.mem_cons_of_mem _ hx))))
          (toExt_value (finite_abs fa))).1 h
        rwa [value_abs, value_abs] at this
    have hall : (∀ x ∈ a :: c :: r, (j x ==. Num.ofRat 0) = true) ↔ value (j a) = 0 := by
      constructor
      · exact fun h => (value_zero_iff fa).1 (h a (by simp))
      · intro h x hx
        rw [value_zero_iff (hfin x hx)]
        have := hle x hx
        rw [h, abs_zero] at this
        exact abs_nonpos_iff.1 this
    rw [hall]
    have hsh := share_warns (finite_abs fc) (finite_abs fa) (by rw [value_abs]; exact abs_nonneg _)
      (by rw [value_abs, value_abs, abs_abs]; exact hle c (by simp))
    constructor
    · rintro ⟨a', c', r', he, h⟩
      cases he
      refine ⟨by simp, ?_⟩
      rcases h with h | h
      · have := hsh.1 h
        rwa [value_abs, abs_eq_zero] at this
      · by_contra hne
        have hpos : 0 < value (Num.abs (j a)) := by rw [value_abs]; exact abs_pos.2 hne
        obtain ⟨fq, -, hq⟩ := share_err (finite_abs fc) (finite_abs fa) hpos
          (by rw [value_abs, value_abs, abs_abs]; exact hle c (by simp))
        have f1 : Num.isFinite (Num.ofRat 1 : Float64) = true :=
          NumOrd.ofRat_finite (by norm_num) (by norm_num)
        rw [opWarns_finite (by simp [f1, fq])] at h
        have h2 := (rel_sub f1 fq (by
          have v1 : value (Num.ofRat 1 : Float64) = 1 := value_eq toExt_one
          rw [v1]
          have hq' : |value (Num.abs (j c) /. Num.abs (j a))| ≤ 1 + 1 / 100 := by
            have : ((|value (Num.abs (j c) /. Num.abs (j a))| : ℚ) : ℝ) ≤ ((1 + 1 / 100 : ℚ) : ℝ) := by
              push_cast
              exact hq
            exact_mod_cast this
          rw [abs_le] at hq' ⊢
          constructor <;> linarith)).1
        rw [h2] at h
        cases h
    · rintro ⟨-, h0⟩
      exact ⟨a, c, r, rfl, Or.inl (hsh.2 (by rw [value_abs, h0, abs_zero]))⟩

/-- the reasons for a `RuntimeWarning` when all angular momenta are finite -/
def Reasons (env : CircEnv Float64) (b : BGalaxy Float64) (n : CircNorm Float64)
    (aux : List Float64) : Prop :=
  (∃ a ∈ b.all, Num.isFinite a.jr = false) ∨
  (∀ a ∈ b.all, ¬ Unbound a.energy → (a.energy ==. Num.ofRat 0) = true) ∨
  (∀ a ∈ b.all, ¬ Unbound a.energy → (a.jz ==. Num.ofRat 0) = true) ∨
  (∃ (k : Nat) (lo hi : Float64), aux[k]? = some lo ∧ aux[k + 1]? = some hi ∧
    2 ≤ (inBin n.e lo hi b.bound).length ∧
    ∀ a ∈ inBin n.e lo hi b.bound, (n.jz a ==. Num.ofRat 0) = true) ∨
  ((∃ s ∈ b.stars, ¬ Unbound s.energy) ∧
    ∀ a ∈ b.all, ¬ Unbound a.energy → (a.jr ==. Num.ofRat 0) = true) ∨
  ∃ a ∈ b.stars, ¬ Unbound a.energy ∧ (Num.isFinite (n.eps env a) = false ∨
    Num.isFinite (n.epsR env a) = false)

theorem or_left_congr' {A B B' : Prop} (h : ¬ A → (B ↔ B')) : (A ∨ B) ↔ (A ∨ B') := by
  by_cases hA : A
  · simp [hA]
  · simp [hA, h hA]

/-- what is known when the first three reasons do not hold -/
theorem norms_pos {env : CircEnv Float64} (henv : env.OK) {b : BGalaxy Float64}
    {bin0 bin1 : Float64} (hbins : BinsIncrease bin0 bin1) {j : JCirc Float64}
    (h : jcirc env (Galaxy.ofBodies b) bin0 bin1 = .ok j)
    (hz : ∀ c ∈ b.all, ¬ Unbound c.energy → Num.isFinite c.jz = true)
    {n : CircNorm Float64} (hn : circNorm env b bin0 bin1 = .ok n) (hj : j = circResult env n b.stars)
    (hM : 0 < value n.jzMax) (a : Body Float64) (ha : a ∈ b.bound)
    (fe : Num.isFinite (n.e a) = true) :
    Num.isFinite (n.jz a) = true ∧ Num.isFinite (n.jc env a) = true := by
  obtain ⟨_, h1, h2, h3, _⟩ := circNorm_inv hn
  obtain ⟨fM, hM0, hmax⟩ := largest_amax h2 hz
  obtain ⟨hall, hbd⟩ := mem_bound.1 ha
  obtain ⟨hT, hhead⟩ := farTable henv hbins h hz hn hj hM
  have hkr : -1 ≤ value (n.e a) := by
    rcases norm_energy_range hn ha with hr | hr
    · rw [NumOrd.finite_not_nan fe] at hr
      cases hr
    · exact (le_value toExt_neg_one (toExt_value fe)).1 hr.1
  obtain ⟨fc, -⟩ := interp_err henv.locate hT fe hkr hhead
  refine ⟨(share_err (hz a hall hbd) fM hM (by exact_mod_cast hmax.2 a hall hbd)).1, ?_⟩
  rw [hj] at fc
  exact fc

theorem warns_iff_reasons {env : CircEnv Float64} (henv : env.OK) {b : BGalaxy Float64}
    {bin0 bin1 : Float64} (hbins : BinsIncrease bin0 bin1) {j : JCirc Float64}
    (h : jcirc env (Galaxy.ofBodies b) bin0 bin1 = .ok j)
    (hJ : ∀ c ∈ b.all, Num.isFinite c.jx = true ∧ Num.isFinite c.jy = true ∧
      Num.isFinite c.jz = true)
    {n : CircNorm Float64} (hn : circNorm env b bin0 bin1 = .ok n) (hj : j = circResult env n b.stars)
    (aux : List Float64) : Warns env b n aux ↔ Reasons env b n aux := by
  obtain ⟨hne, h1, h2, h3, _⟩ := circNorm_inv hn
  have hz : ∀ c ∈ b.all, ¬ Unbound c.energy → Num.isFinite c.jz = true := fun c hc _ => (hJ c hc).2.2
  obtain ⟨fM, hM0, hmax⟩ := largest_amax h2 hz
  have hnn : ∀ c ∈ b.bound, Num.isNaN c.energy = false := fun c hc =>
    NumOrd.finite_not_nan (bound_value (mem_bound.1 hc).2).1
  obtain ⟨⟨c0, hc0, hc0e⟩, hmin⟩ := isMinOf_amin h1 hnn
  obtain ⟨fc0, tc0, nc0⟩ := bound_value (mem_bound.1 hc0).2
  have fE : Num.isFinite n.eMin = true := hc0e ▸ fc0
  have hEabs : value (Num.abs n.eMin) = -value n.eMin := by
    rw [value_abs, ← hc0e, abs_of_nonpos nc0]
  have hEle : ∀ a ∈ b.bound, |value a.energy| ≤ value (Num.abs n.eMin) := by
    intro a ha
    obtain ⟨f, t, v⟩ := bound_value (mem_bound.1 ha).2
    have := (le_value (toExt_value fE) t).1 (hmin a ha)
    rw [hEabs, abs_of_nonpos v]
    linarith
  have hE0 : 0 ≤ value (Num.abs n.eMin) := by rw [value_abs]; exact abs_nonneg _
  obtain ⟨a1, ha1⟩ := List.exists_mem_of_ne_nil _ hne
  unfold Warns Reasons
  -- overflow in the plane
  have hA : (∃ a ∈ b.all, jrWarns a.jx a.jy = true) ↔ ∃ a ∈ b.all, Num.isFinite a.jr = false := by
    constructor <;> rintro ⟨a, ha, h⟩ <;> refine ⟨a, ha, ?_⟩
    · exact (jrWarns_iff (hJ a ha).1 (hJ a ha).2.1).1 h
    · exact (jrWarns_iff (hJ a ha).1 (hJ a ha).2.1).2 h
  rw [hA]
  refine or_left_congr' fun hfr => ?_
  have hr : ∀ c ∈ b.all, Num.isFinite c.jr = true := by
    intro c hc
    by_contra hc'
    exact hfr ⟨c, hc, by simpa using hc'⟩
  -- the energies
  have hwE : ∀ a ∈ b.bound, divWarns a.energy (Num.abs n.eMin) = true ↔ value (Num.abs n.eMin) = 0 :=
    fun a ha => share_warns (bound_value (mem_bound.1 ha).2).1 (finite_abs fE) hE0 (hEle a ha)
  have hB : (∃ a ∈ b.bound, divWarns a.energy (Num.abs n.eMin) = true) ↔
      ∀ a ∈ b.all, ¬ Unbound a.energy → (a.energy ==. Num.ofRat 0) = true := by
    constructor
    · rintro ⟨a, ha, h⟩ c hc hcb
      have h0 := (hwE a ha).1 h
      have := hEle c (mem_bound.2 ⟨hc, hcb⟩)
      rw [h0] at this
      exact (value_zero_iff (bound_value hcb).1).2 (abs_nonpos_iff.1 this)
    · intro h
      refine ⟨a1, ha1, (hwE a1 ha1).2 ?_⟩
      have := h c0 (mem_bound.1 hc0).1 (mem_bound.1 hc0).2
      rw [hEabs, ← hc0e, (value_zero_iff fc0).1 this, neg_zero]
  rw [hB]
  refine or_left_congr' fun hnB => ?_
  have hEpos : 0 < value (Num.abs n.eMin) := by
    refine lt_of_le_of_ne hE0 fun h0 => hnB (hB.1 ⟨a1, ha1, (hwE a1 ha1).2 h0.symm⟩)
  have fe : ∀ a ∈ b.bound, Num.isFinite (n.e a) = true := fun a ha =>
    (share_err (bound_value (mem_bound.1 ha).2).1 (finite_abs fE) hEpos (hEle a ha)).1
  -- the angular momenta
  have hzle : ∀ a ∈ b.bound, |value a.jz| ≤ value n.jzMax := by
    intro a ha
    have := hmax.2 a (mem_bound.1 ha).1 (mem_bound.1 ha).2
    exact_mod_cast this
  have hwZ : ∀ a ∈ b.bound, divWarns a.jz n.jzMax = true ↔ value n.jzMax = 0 := fun a ha =>
    share_warns (hJ a (mem_bound.1 ha).1).2.2 fM hM0 (hzle a ha)
  have hC : (∃ a ∈ b.bound, divWarns a.jz n.jzMax = true) ↔
      ∀ a ∈ b.all, ¬ Unbound a.energy → (a.jz ==. Num.ofRat 0) = true := by
    constructor
    · rintro ⟨a, ha, h⟩ c hc hcb
      have h0 := (hwZ a ha).1 h
      have := hzle c (mem_bound.2 ⟨hc, hcb⟩)
      rw [h0] at this
      exact (value_zero_iff (hJ c hc).2.2).2 (abs_nonpos_iff.1 this)
    · intro h
      refine ⟨a1, ha1, (hwZ a1 ha1).2 ?_⟩
      obtain ⟨c, hc, hcb, hcJ⟩ := hmax.1
      have := (value_zero_iff (hJ c hc).2.2).1 (h c hc hcb)
      rw [this] at hcJ
      simpa using hcJ
  rw [hC]
  refine or_left_congr' fun hnC => ?_
  have hMpos : 0 < value n.jzMax := by
    refine lt_of_le_of_ne hM0 fun h0 => hnC (hC.1 ⟨a1, ha1, (hwZ a1 ha1).2 h0.symm⟩)
  have fin := fun a ha => norms_pos henv hbins h hz hn hj hMpos a ha (fe a ha)
  -- the bins
  have hD : (∃ (k : Nat) (lo hi : Float64), aux[k]? = some lo ∧ aux[k + 1]? = some hi ∧
      binWarns env (b.bound.map n.e) (b.bound.map n.jz) lo hi) ↔
      ∃ (k : Nat) (lo hi : Float64), aux[k]? = some lo ∧ aux[k + 1]? = some hi ∧
        2 ≤ (inBin n.e lo hi b.bound).length ∧
        ∀ a ∈ inBin n.e lo hi b.bound, (n.jz a ==. Num.ofRat 0) = true := by
    simp only [binWarns_iff henv.argsort b.bound n.e n.jz fun a ha => (fin a ha).1]
  rw [hD]
  refine or_congr Iff.rfl ?_
  -- the stars
  obtain ⟨fR, hR0, hRmax⟩ := largest_amax h3 fun c hc _ => hr c hc
  have hwR : ∀ a ∈ b.bound, divWarns a.jr n.jrMax = true ↔ value n.jrMax = 0 := fun a ha =>
    share_warns (hr a (mem_bound.1 ha).1) fR hR0 (by
      exact_mod_cast hRmax.2 a (mem_bound.1 ha).1 (mem_bound.1 ha).2)
  have hRz : value n.jrMax = 0 ↔ ∀ a ∈ b.all, ¬ Unbound a.energy → (a.jr ==. Num.ofRat 0) = true := by
    constructor
    · intro h0 c hc hcb
      have := hRmax.2 c hc hcb
      rw [h0] at this
      refine (value_zero_iff (hr c hc)).2 (abs_nonpos_iff.1 ?_)
      exact_mod_cast this
    · intro h
      obtain ⟨c, hc, hcb, hcJ⟩ := hRmax.1
      have := (value_zero_iff (hr c hc)).1 (h c hc hcb)
      rw [this] at hcJ
      simpa using hcJ
  have hwe : ∀ a ∈ b.bound, divWarns (n.jz a) (n.jc env a) = true ↔
      Num.isFinite (n.eps env a) = false := fun a ha =>
    divWarns_finite (fin a ha).1 (fin a ha).2
  have hwr : value n.jrMax ≠ 0 → ∀ a ∈ b.bound, divWarns (a.jr /. n.jrMax) (n.jc env a) = true ↔
      Num.isFinite (n.epsR env a) = false := fun h0 a ha =>
    divWarns_finite (share_err (hr a (mem_bound.1 ha).1) fR (lt_of_le_of_ne hR0 (Ne.symm h0)) (by
      exact_mod_cast hRmax.2 a (mem_bound.1 ha).1 (mem_bound.1 ha).2)).1 (fin a ha).2
  rw [← hRz]
  constructor
  · rintro ⟨a, ha, hab, hw⟩
    have ha' := stars_bound ha hab
    by_cases h0 : value n.jrMax = 0
    · exact Or.inl ⟨⟨a, ha, isBound_eq_true.1 hab⟩, h0⟩
    · refine Or.inr ⟨a, ha, isBound_eq_true.1 hab, ?_⟩
      rcases hw with hw | hw | hw
      · exact absurd ((hwR a ha').1 hw) h0
      · exact Or.inl ((hwe a ha').1 hw)
      · exact Or.inr ((hwr h0 a ha').1 hw)
  · rintro (⟨⟨a, ha, hab⟩, h0⟩ | ⟨a, ha, hab, hw⟩)
    · have hab := isBound_eq_true.2 hab
      exact ⟨a, ha, hab, Or.inl ((hwR a (stars_bound ha hab)).2 h0)⟩
    · have hab := isBound_eq_true.2 hab
      have ha' := stars_bound ha hab
      refine ⟨a, ha, hab, ?_⟩
      by_cases h0 : value n.jrMax = 0
      · exact Or.inl ((hwR a ha').2 h0)
      · rcases hw with hw | hw
        · exact Or.inr (Or.inl ((hwe a ha').2 hw))
        · exact Or.inr (Or.inr ((hwr h0 a ha').2 hw))

/-- C95: let all angular momenta be finite, and let `jcirc` return.  With `"error"` it raises
`RuntimeWarning` exactly in these cases: the square of an in-plane angular momentum overflows, for a
particle of any kind, bound or not; all bound particles have energy zero; no bound particle has `Jz`;
an energy bin has two particles and no normalised `Jz` in it; there is a bound star and no bound
particle has `Jx` or `Jy`; or the circularity or the projected circularity of a bound star, before
any is removed, is not a number.  Otherwise it returns the same result. -/
theorem C95_warning_iff (env : CircEnv Float64) (henv : env.OK) (b : BGalaxy Float64)
    (bin0 bin1 : Float64) (hbins : BinsIncrease bin0 bin1) (j : JCirc Float64)
    (h : jcirc env (Galaxy.ofBodies b) bin0 bin1 = .ok j)
    (hJ : ∀ c ∈ b.all, Num.isFinite c.jx = true ∧ Num.isFinite c.jy = true ∧
      Num.isFinite c.jz = true) :
    ∃ n aux, circNorm env b bin0 bin1 = .ok n ∧ energyBins bin0 bin1 = .ok aux ∧
      (Reasons env b n aux →
        jcircAction env (Galaxy.ofBodies b) bin0 bin1 "error" = .error .runtimeWarning) ∧
      (¬ Reasons env b n aux →
        jcircAction env (Galaxy.ofBodies b) bin0 bin1 "error" = .ok j) := by
  obtain ⟨hp, _, n, hn, hj⟩ := jcirc_inv h
  obtain ⟨hne, h1, h2, h3, aux, hb, _⟩ := circNorm_inv hn
  have hs := (jcircStrict_bodies env b hp bin0 bin1 hn hb).congr
    (warns_iff_reasons henv hbins h hJ hn hj aux)
  exact ⟨n, aux, hn, hb, fun hR => hs.warning_of h hR, fun hR => hs.ok.2 ⟨h, hR⟩⟩

/-- C95: when `jcirc(..., runtime_warnings="error")` returns, for finite angular momenta, every star
has a complete set of finite values with `-1 <= eps <= 1`, or NaN in all of them. -/
theorem C95_complete (env : CircEnv Float64) (henv : env.OK) (b : BGalaxy Float64)
    (bin0 bin1 : Float64) (hbins : BinsIncrease bin0 bin1) (j : JCirc Float64)
    (h : jcircAction env (Galaxy.ofBodies b) bin0 bin1 "error" = .ok j)
    (hJ : ∀ c ∈ b.all, Num.isFinite c.jx = true ∧ Num.isFinite c.jy = true ∧
      Num.isFinite c.jz = true) (i : Nat) (hi : i < b.stars.length) :
    ∃ k e r, j.normalizedStarEnergy[i]? = some k ∧ j.eps[i]? = some e ∧ j.epsR[i]? = some r ∧
      ((Num.isNaN k = true ∧ Num.isNaN e = true ∧ Num.isNaN r = true) ∨
        (Num.isFinite k = true ∧ Num.isFinite e = true ∧ Num.isFinite r = true ∧
          (Num.ofRat (-1) <=. e) = true ∧ (e <=. Num.ofRat 1) = true)) := by
  have h0 := (C95_error_action env _ bin0 bin1).1 j h
  obtain ⟨n, aux, hn, hb, hR, -⟩ := C95_warning_iff env henv b bin0 bin1 hbins j h0 hJ
  have hnR : ¬ Reasons env b n aux := by
    intro hc
    rw [hR hc] at h
    cases h
  have hnW := mt (warns_iff_reasons henv hbins h0 hJ hn (by
    obtain ⟨_, _, n', hn', hj⟩ := jcirc_inv h0
    rw [hn] at hn'
    cases hn'
    exact hj) aux).1 hnR
  obtain ⟨_, _, n', hn', hj⟩ := jcirc_inv h0
  rw [hn] at hn'
  cases hn'
  obtain ⟨hne, h1, h2, h3, _⟩ := circNorm_inv hn
  set a := b.stars[i] with ha
  have hget : b.stars[i]? = some a := List.getElem?_eq_getElem hi
  refine ⟨_, _, _, by rw [hj]; simp only [circResult, List.getElem?_map, hget, Option.map_some]; rfl,
    by rw [hj]; simp only [circResult, List.getElem?_map, hget, Option.map_some]; rfl,
    by rw [hj]; simp only [circResult, List.getElem?_map, hget, Option.map_some]; rfl, ?_⟩
  by_cases hok : (isBound a.energy && keepEps (n.eps env a)) = true
  · right
    simp only [hok, if_true]
    obtain ⟨hab, hkeep⟩ := Bool.and_eq_true _ _ ▸ hok
    have hmem := List.mem_of_getElem? hget
    have hbd := stars_bound hmem hab
    unfold Reasons at hnR
    simp only [not_or] at hnR
    have hstar : Num.isFinite (n.eps env a) = true ∧ Num.isFinite (n.epsR env a) = true := by
      constructor <;> by_contra hc
      · exact hnR.2.2.2.2.2 ⟨a, hmem, isBound_eq_true.1 hab, Or.inl (by simpa using hc)⟩
      · exact hnR.2.2.2.2.2 ⟨a, hmem, isBound_eq_true.1 hab, Or.inr (by simpa using hc)⟩
    have hfe : Num.isFinite (n.e a) = true := by
      by_contra hc
      unfold Warns at hnW
      simp only [not_or] at hnW
      have hnn : ∀ c ∈ b.bound, Num.isNaN c.energy = false := fun c hc =>
        NumOrd.finite_not_nan (bound_value (mem_bound.1 hc).2).1
      obtain ⟨⟨c0, hc0, hc0e⟩, -⟩ := isMinOf_amin h1 hnn
      refine hnW.2.1 ⟨a, hbd, (divWarns_finite (bound_value (mem_bound.1 hbd).2).1 (finite_abs ?_)).2
        (Bool.eq_false_iff.2 hc)⟩
      rw [← hc0e]
      exact (bound_value (mem_bound.1 hc0).2).1
    have hr := (keepEps_true hkeep).resolve_left (by
      rw [NumOrd.finite_not_nan hstar.1]; simp)
    exact ⟨hfe, hstar.1, hstar.2, hr.1, hr.2⟩
  · left
    simp only [hok]
    exact ⟨rfl, rfl, rfl⟩

/-- C95: whenever the most bound particle is a star that does not rotate, as after `center` in C94,
`jcirc(..., runtime_warnings="error")` raises `RuntimeWarning`. -/
theorem C95_lowest_star (env : CircEnv Float64) (henv : env.OK) (b : BGalaxy Float64)
    (bin0 bin1 : Float64) (hbins : BinsIncrease bin0 bin1) (j : JCirc Float64)
    (h : jcirc env (Galaxy.ofBodies b) bin0 bin1 = .ok j)
    (hJ : ∀ c ∈ b.all, Num.isFinite c.jx = true ∧ Num.isFinite c.jy = true ∧
      Num.isFinite c.jz = true) (i : Nat) (a : Body Float64)
    (hi : b.stars[i]? = some a) (ha : ¬ Unbound a.energy)
    (hlow : ∀ c ∈ b.all, ¬ Unbound c.energy → (a.energy <=. c.energy) = true)
    (hrot : ∀ c ∈ b.all, (c.energy ==. a.energy) = true → (c.jz ==. Num.ofRat 0) = true) :
    jcircAction env (Galaxy.ofBodies b) bin0 bin1 "error" = .error .runtimeWarning := by
  obtain ⟨n, aux, hn, hb, hR, hok⟩ := C95_warning_iff env henv b bin0 bin1 hbins j h hJ
  by_cases hRe : Reasons env b n aux
  · exact hR hRe
  · exfalso
    obtain ⟨⟨e, he, hnan⟩, hen⟩ := C94_lowest_star env henv b bin0 bin1 hbins j h i a hi ha hlow hrot
    have hlt := (List.getElem?_eq_some_iff.1 hi).1
    obtain ⟨k, e', r, hk, he', -, hcase⟩ := C95_complete env henv b bin0 bin1 hbins j (hok hRe) hJ i hlt
    rw [he] at he'
    cases he'
    unfold Reasons at hRe
    simp only [not_or] at hRe
    apply hRe.2.1
    intro c hc hcb
    by_contra hne
    obtain ⟨fa, ta, va⟩ := bound_value ha
    obtain ⟨fc, tc, vc⟩ := bound_value hcb
    have h1 := (le_value ta tc).1 (hlow c hc hcb)
    have h2 : value c.energy ≠ 0 := fun h0 => hne ((value_zero_iff fc).2 h0)
    obtain ⟨k', hk', hone⟩ := hen ((lt_value ta toExt_zero).2 (lt_of_le_of_lt h1 (lt_of_le_of_ne vc h2)))
    rw [hk] at hk'
    cases hk'
    rcases hcase with ⟨hc1, -⟩ | ⟨-, hc2, -⟩
    · rw [NumOrd.eq_def, le_nan_left hc1] at hone
      cases hone
    · rw [NumOrd.finite_not_nan hc2] at hnan
      cases hnan

/-- the galaxy of C94: the default action returns, `"error"` raises -/
example : (jcircAction sortEnv (Galaxy.ofBodies exCentral) defaultCbin.1 defaultCbin.2 "ignore").isOk
    = true ∧ ((center (Galaxy.ofBodies exCentral)).toOption.map fun g =>
      ((jcircAction sortEnv g defaultCbin.1 defaultCbin.2 "ignore").isOk,
        jcircAction sortEnv g defaultCbin.1 defaultCbin.2 "error")) =
      some (true, .error .runtimeWarning) := by
  decide +kernel

/-- two stars on inclined orbits, the most bound one rotates -/
def exClean : BGalaxy Float64 where
  stars := [⟨Num.ofRat 1, Num.ofRat 1, Num.ofRat 0, Num.ofRat 0, Num.ofRat 0, Num.ofRat 1, Num.ofRat 1,
      Num.ofRat (-4)⟩,
    ⟨Num.ofRat 1, Num.ofRat 2, Num.ofRat 0, Num.ofRat 0, Num.ofRat 0, Num.ofRat 1, Num.ofRat 0,
      Num.ofRat (-51/100)⟩]
  dm := []
  gas := []
  hasPot := true
  softS := Num.ofRat 0
  softDm := Num.ofRat 0
  softG := Num.ofRat 0

/-- `"error"` returns, with a complete set of values for both stars -/
example : (jcircAction sortEnv (Galaxy.ofBodies exClean) defaultCbin.1 defaultCbin.2 "error").toOption.map
    (fun j => (j.eps.map Num.isFinite, j.epsR.map Num.isFinite)) = some ([true, true], [true, true]) := by
  decide +kernel

end GChop
