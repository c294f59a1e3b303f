import Verif.Softening
import Verif.Props.Quantity
import Verif.Props.CircExact

/-!
# C120: softenings and cutoff radii given as quantities
-/

namespace GChop
open Pd

variable {U F : Type} [Num F]

/-- the number a softening stands for: the number itself, the only entry of an array, the number a string
spells, or the only entry of a quantity without dimension, converted to the unit 1 -/
inductive Denotes (env : UnitEnv U F) (one : U) (parse : String → Option F) : SoftArg U F → F → Prop
  | number (x : F) : Denotes env one parse (.number x) x
  | text (s : String) (x : F) : parse s = some x → Denotes env one parse (.text s) x
  | array (x : F) : Denotes env one parse (.array [x]) x
  | quantity (x : F) (u : U) : env.equiv u one = true →
      Denotes env one parse (.quantity ⟨[x], u⟩) (env.conv u one x)

omit [Num F] in
theorem toFloat_iff {env : UnitEnv U F} {one : U} {parse : String → Option F} {a : SoftArg U F} {x : F} :
    a.toFloat env one parse = .ok x ↔ Denotes env one parse a x := by
  constructor
  · intro h
    rcases a with y | s | l | ⟨l, u⟩ | _
    · cases h; exact .number _
    · simp only [SoftArg.toFloat] at h
      split at h
      · cases h; exact .text _ _ (by assumption)
      · cases h
    · rcases l with _ | ⟨y, _ | ⟨z, l⟩⟩ <;> cases h
      exact .array _
    · simp only [SoftArg.toFloat] at h
      split_ifs at h with hu
      rcases l with _ | ⟨y, _ | ⟨z, l⟩⟩ <;> cases h
      exact .quantity _ _ hu
    · cases h
  · rintro (_ | ⟨s, _, h⟩ | _ | ⟨y, u, h⟩)
    · rfl
    · simp [SoftArg.toFloat, h]
    · rfl
    · simp [SoftArg.toFloat, h]

/-- a quantity in a unit that is equivalent to kpc -/
def IsLength (env : UnitEnv U F) (a : SoftArg U F) : Prop :=
  ∃ q : Quantity U F, a = .quantity q ∧ env.equiv q.unit env.kpc = true

omit [Num F] in
theorem toFloat_length {env : UnitEnv U F} {one : U} (parse : String → Option F)
    (h1 : ∀ u, env.equiv u env.kpc = true → env.equiv u one = false) {a : SoftArg U F}
    (ha : IsLength env a) : a.toFloat env one parse = .error .typeError := by
  obtain ⟨q, rfl, hq⟩ := ha
  simp [SoftArg.toFloat, h1 _ hq]

/-- C120: `mkgalaxy` returns a galaxy exactly when each softening stands for a number and `mkgalaxy` returns
it for these numbers. -/
theorem C120_accepted (env : UnitEnv U F) (one : U) (parse : String → Option F) (s d g : QArgs U F)
    (ss sd sg : SoftArg U F) (G : QGalaxy U F) :
    mkgalaxySoft env one parse s d g ss sd sg = .ok G ↔ ∃ a b c, Denotes env one parse ss a ∧
      Denotes env one parse sd b ∧ Denotes env one parse sg c ∧
      qmkgalaxy env { s with softening := a } { d with softening := b } { g with softening := c } = .ok G := by
  simp only [← toFloat_iff]
  unfold mkgalaxySoft newSoft qmkgalaxy
  cases hs : ss.toFloat env one parse with
  | error e => simp [bind, Except.bind]
  | ok a =>
  cases hsn : QSet.new env .stars { s with softening := a } with
  | error e => simp [bind, Except.bind, hsn]
  | ok ps =>
  cases hd : sd.toFloat env one parse with
  | error e => simp [bind, Except.bind, hsn]
  | ok b =>
  cases hdn : QSet.new env .darkMatter { d with softening := b } with
  | error e => simp [bind, Except.bind, hsn, hdn]
  | ok pd =>
  cases hg : sg.toFloat env one parse with
  | error e => simp [bind, Except.bind, hsn, hdn]
  | ok c => simp [bind, Except.bind, hsn, hdn]

/-- C120: a softening that is a quantity with a unit of length is refused: no galaxy results, and if it is the
one of the stars the exception is TypeError, whatever the other arguments are. -/
theorem C120_length_refused (env : UnitEnv U F) (one : U) (parse : String → Option F)
    (h1 : ∀ u, env.equiv u env.kpc = true → env.equiv u one = false) (s d g : QArgs U F)
    (ss sd sg : SoftArg U F) :
    (IsLength env ss → mkgalaxySoft env one parse s d g ss sd sg = .error .typeError) ∧
    (IsLength env ss ∨ IsLength env sd ∨ IsLength env sg →
      ∀ G, mkgalaxySoft env one parse s d g ss sd sg ≠ .ok G) := by
  refine ⟨fun h => ?_, fun h G hG => ?_⟩
  · unfold mkgalaxySoft newSoft
    rw [toFloat_length parse h1 h]
    rfl
  · obtain ⟨a, b, c, ha, hb, hc, -⟩ := (C120_accepted env one parse s d g ss sd sg G).1 hG
    rw [← toFloat_iff] at ha hb hc
    rcases h with h | h | h <;> rw [toFloat_length parse h1 h] at * <;> simp_all

/-- C120: a cutoff radius that is a quantity with a unit of length makes `star_align` raise ValueError as soon
as one star has a finite distance other than zero from the origin, whatever the cutoff is. -/
theorem C120_cut_refused (env : UnitEnv U F) (one : U) (b : BGalaxy F) (x : F) (u : U)
    (hu : env.equiv u one = false) (a : Body F) (ha : a ∈ b.stars)
    (h0 : (radius a.x a.y a.z ==. Num.ofRat 0) = false) (hf : Num.isFinite (radius a.x a.y a.z) = true) :
    starAlignQuantity env one (Galaxy.ofBodies b) x u = .error .valueError := by
  have hall : (zip3With radius (Galaxy.ofBodies b).stars.x (Galaxy.ofBodies b).stars.y
      (Galaxy.ofBodies b).stars.z).all anyUnit = false := by
    have e : zip3With radius (Galaxy.ofBodies b).stars.x (Galaxy.ofBodies b).stars.y
        (Galaxy.ofBodies b).stars.z = b.stars.map fun a => radius a.x a.y a.z := by
      show zip3With radius (b.stars.map (·.x)) (b.stars.map (·.y)) (b.stars.map (·.z)) = _
      induction b.stars with
      | nil => rfl
      | cons c l ih => exact congrArg (_ :: ·) ih
    rw [e, ← Bool.not_eq_true, List.all_eq_true]
    intro h
    have := h _ (List.mem_map.2 ⟨a, ha, rfl⟩)
    simp [anyUnit, h0, hf] at this
  unfold starAlignQuantity
  rw [hu, hall]
  simp

/-- C120: if every star is at the origin, at infinity or nowhere, the unit of the cutoff does not matter: any
unit of length gives what the bare number gives. -/
theorem C120_cut_any_unit (env : UnitEnv U F) (one : U) (g : Galaxy F) (x : F) (u v : U)
    (hu : env.equiv u one = false) (hv : env.equiv v one = false)
    (hall : ∀ r ∈ zip3With radius g.stars.x g.stars.y g.stars.z,
      (r ==. Num.ofRat 0) = true ∨ Num.isFinite r = false) :
    starAlignQuantity env one g x u = starAlign g (some x) ∧
      starAlignQuantity env one g x u = starAlignQuantity env one g x v := by
  have h : (zip3With radius g.stars.x g.stars.y g.stars.z).all anyUnit = true := by
    rw [List.all_eq_true]
    intro r hr
    rcases hall r hr with h | h <;> simp [anyUnit, h]
  have key : ∀ w, env.equiv w one = false → starAlignQuantity env one g x w = starAlign g (some x) := by
    intro w hw
    unfold starAlignQuantity
    rw [hw, h]
    simp only [Bool.false_eq_true, if_false, if_true]
    split_ifs with hx
    · unfold starAlign
      rw [if_pos (by simpa [badCut] using hx)]
    · rfl
  exact ⟨key u hu, (key u hu).trans (key v hv).symm⟩

/-! ### examples -/

section examples
/-- the unit 1 of the example units -/
def unitOne : PhysUnit ℚ := ⟨(0, 0, 0), 1, one_pos⟩

/-- in the usual units a unit of length is not equivalent to 1 -/
example (a b c : {x : ℚ // 0 < x}) (u : PhysUnit ℚ)
    (h : (physEnv a b c).equiv u (physEnv a b c).kpc = true) :
    (physEnv a b c).equiv u unitOne = false := by
  simp only [physEnv, unitOne, decide_eq_true_eq, decide_eq_false_iff_not] at h ⊢
  rw [h]
  simp

/-- the softening 1 kpc is refused, the softening 1 and the quantity 50 in units of 1/100 are not -/
example : (SoftArg.quantity ⟨[.fin 1], (physEnv ⟨1, one_pos⟩ ⟨1, one_pos⟩ ⟨1, one_pos⟩).kpc⟩).toFloat
      (physEnv (K := ℚ) ⟨1, one_pos⟩ ⟨1, one_pos⟩ ⟨1, one_pos⟩) unitOne (fun _ => none) = .error .typeError ∧
    (SoftArg.number (.fin 1)).toFloat
      (physEnv (K := ℚ) ⟨1, one_pos⟩ ⟨1, one_pos⟩ ⟨1, one_pos⟩) unitOne (fun _ => none) = .ok (.fin 1) ∧
    (SoftArg.quantity ⟨[.fin 50], ⟨(0, 0, 0), 1 / 100, by norm_num⟩⟩).toFloat
      (physEnv (K := ℚ) ⟨1, one_pos⟩ ⟨1, one_pos⟩ ⟨1, one_pos⟩) unitOne (fun _ => none) = .ok (.fin (1 / 2)) := by
  decide +kernel

/-- `mkgalaxy` with the softenings 1 kpc, and with the softenings 1, "2" and the array [3] -/
example : mkgalaxySoft exUnits unitOne (fun s => if s = "2" then some (.fin 2) else none) exQSet exQSet exQSet
      (.quantity ⟨[.fin 1], exUnits.kpc⟩) (.number (.fin 2)) (.number (.fin 3)) = .error .typeError ∧
    (mkgalaxySoft exUnits unitOne (fun s => if s = "2" then some (.fin 2) else none) exQSet exQSet exQSet
      (.number (.fin 1)) (.text "2") (.array [.fin 3])).toOption.map
        (fun G => (G.stars.softening, G.darkMatter.softening, G.gas.softening))
      = some (.fin 1, .fin 2, .fin 3) :=
  ⟨(C120_length_refused _ _ _ (fun u h => by
      simp only [exUnits, physEnv, unitOne, decide_eq_true_eq, decide_eq_false_iff_not] at h ⊢
      rw [h]
      simp) _ _ _ _ _ _).1 ⟨_, rfl, by decide +kernel⟩, by decide +kernel⟩

/-- a galaxy whose stars are at distance 1: a cutoff of 30 kpc is refused, one of 30 is not -/
example : starAlignQuantity exUnits unitOne (Galaxy.ofBodies exLost) (.fin 30) exUnits.kpc =
      .error .valueError ∧ (starAlign (Galaxy.ofBodies exLost) (some (.fin 30))).toOption.isSome = true :=
  ⟨C120_cut_refused _ _ _ _ _ (by decide +kernel) (orbit (-1) 1) (by decide +kernel) (by decide +kernel)
    (by decide +kernel), by decide +kernel⟩

/-- without stars the unit does not matter -/
example : starAlignQuantity exUnits unitOne (Galaxy.ofBodies { exLost with stars := [] }) (.fin 30) exUnits.kpc =
    starAlign (Galaxy.ofBodies { exLost with stars := [] }) (some (.fin 30)) :=
  (C120_cut_any_unit _ _ _ _ _ exUnits.kpc (by decide +kernel) (by decide +kernel) (by decide +kernel)).1

end examples

end GChop
