import Verif.Lemmas.BinaryAdd
import Verif.Props.Center
import Verif.Props.PotentialSingle

/-!
# C78: `center` in double precision
-/

namespace GChop
open Flt

/-- a finite coordinate of size at most `2^e` -/
def Within (e : ℤ) (a : Float64) : Prop := Num.isFinite a = true ∧ |value a| ≤ 2 ^ e

/-- `v` is the distance `a - c` along one axis up to a relative error of `2^-53`: it is finite, and
zero only if the two coordinates are equal -/
def Offset (a c v : Float64) : Prop :=
  Num.isFinite v = true ∧
  |value v - (value a - value c)| ≤ |value a - value c| / 2 ^ 53 ∧
  (value v = 0 ↔ value a = value c)

theorem abs_diff_le {e : ℤ} {a c : ℚ} (ha : |a| ≤ 2 ^ e) (hc : |c| ≤ 2 ^ e) :
    |a - c| ≤ 2 ^ (e + 1) ∧ |a + c| ≤ 2 ^ (e + 1) := by
  rw [zpow_add_one₀ (by norm_num)]
  rw [abs_le] at ha hc
  constructor <;> rw [abs_le] <;> constructor <;> linarith [ha.1, ha.2, hc.1, hc.2]

theorem sub_value {a c : Float64} (ha : Within 1022 a) (hc : Within 1022 c) :
    toExt (a -. c) = .fin (Fmt.binary64.srnd (value a - value c)) :=
  value_sub ha.1 hc.1 (abs_diff_le ha.2 hc.2).1

theorem pow_prec : (2 : ℚ) ^ (-(Fmt.binary64.prec : ℤ)) = 1 / 2 ^ 53 := by
  show (2 : ℚ) ^ (-53 : ℤ) = _
  norm_num

theorem sub_offset {a c : Float64} (ha : Within 1022 a) (hc : Within 1022 c) :
    Offset a c (a -. c) := by
  have h := sub_value ha hc
  refine ⟨isFinite_of h, ?_, ?_⟩
  · rw [value_eq h]
    have := srnd_sub_rel a c
    rw [pow_prec] at this
    rw [div_eq_mul_one_div]
    exact this
  · rw [value_eq h]
    exact srnd_sub_eq_zero a c

/-- C78: after `center` every coordinate is the exact distance from the lowest-potential particle up
to a relative error of `2^-53`, so only particles with the coordinates of that particle end at the
origin, and the order of the particles along each axis does not change. -/
theorem C78_center_accuracy (b : BGalaxy Float64) (hp : b.hasPot = true) (i : Nat) (c : Body Float64)
    (hlow : LowestParticle b.all i c) (hlt : (c.pot <. Num.pinf) = true)
    (hpos : ∀ a ∈ b.all, Within 1022 a.x ∧ Within 1022 a.y ∧ Within 1022 a.z) :
    ∃ b' : BGalaxy Float64, center (Galaxy.ofBodies b) = .ok (Galaxy.ofBodies b') ∧
      b'.all.length = b.all.length ∧
      (∀ (j : Nat) (a a' : Body Float64), b.all[j]? = some a → b'.all[j]? = some a' →
        Offset a.x c.x a'.x ∧ Offset a.y c.y a'.y ∧ Offset a.z c.z a'.z) ∧
      ∀ (j k : Nat) (a a' d d' : Body Float64), b.all[j]? = some a → b'.all[j]? = some a' →
        b.all[k]? = some d → b'.all[k]? = some d' →
        (value a.x ≤ value d.x → value a'.x ≤ value d'.x) ∧
        (value a.y ≤ value d.y → value a'.y ≤ value d'.y) ∧
        (value a.z ≤ value d.z → value a'.z ≤ value d'.z) := by
  have hc := hpos c (List.mem_of_getElem? hlow.1)
  refine ⟨_, C09_center_vector b hp i c hlow hlt, by simp [mapBodies_all], ?_, ?_⟩
  · intro j a a' h1 h2
    have ha := hpos a (List.mem_of_getElem? h1)
    rw [mapBodies_all, List.getElem?_map, h1] at h2
    obtain rfl := Option.some.inj h2
    exact ⟨sub_offset ha.1 hc.1, sub_offset ha.2.1 hc.2.1, sub_offset ha.2.2 hc.2.2⟩
  · intro j k a a' d d' h1 h2 h3 h4
    have ha := hpos a (List.mem_of_getElem? h1)
    have hd := hpos d (List.mem_of_getElem? h3)
    rw [mapBodies_all, List.getElem?_map, h1] at h2
    rw [mapBodies_all, List.getElem?_map, h3] at h4
    obtain rfl := Option.some.inj h2
    obtain rfl := Option.some.inj h4
    have mono : ∀ {p q r : Float64}, Within 1022 p → Within 1022 q → Within 1022 r →
        value p ≤ value q → value (p -. r) ≤ value (q -. r) := by
      intro p q r hp hq hr h
      rw [value_eq (sub_value hp hr), value_eq (sub_value hq hr)]
      exact Fmt.srnd_mono _ (by linarith)
    exact ⟨mono ha.1 hd.1 hc.1, mono ha.2.1 hd.2.1 hc.2.1, mono ha.2.2 hd.2.2 hc.2.2⟩

/-! ## Translated galaxies -/

/-- the galaxy with every position moved, each coordinate rounded -/
def BGalaxy.moved (b : BGalaxy Float64) (tx ty tz : Float64) : BGalaxy Float64 :=
  b.mapBodies fun a => { a with x := a.x +. tx, y := a.y +. ty, z := a.z +. tz }

theorem add_within {a t : Float64} (ha : Within 1021 a) (ht : Within 1021 t) :
    Within 1022 (a +. t) ∧ |value (a +. t) - (value a + value t)| ≤ |value a + value t| / 2 ^ 53 := by
  have h1 := (abs_diff_le ha.2 ht.2).2
  have h2 := value_add (fmt := Fmt.binary64) ha.1 ht.1
    (h1.trans (zpow_le_zpow_right₀ (by norm_num) (by decide)))
  refine ⟨⟨isFinite_of h2, ?_⟩, ?_⟩
  · rw [value_eq h2]
    exact abs_srnd_le_pow h1 (by decide)
  · rw [value_eq h2]
    have := srnd_add_rel a t
    rw [pow_prec] at this
    rw [div_eq_mul_one_div]
    exact this

/-- the error of a coordinate that was moved and then centred -/
theorem moved_offset {a c t : Float64} (ha : Within 1021 a) (hc : Within 1021 c) (ht : Within 1021 t) :
    Num.isFinite ((a +. t) -. (c +. t)) = true ∧
    |value ((a +. t) -. (c +. t)) - (value a - value c)|
      ≤ (|value a + value t| + |value c + value t|) / 2 ^ 51 := by
  obtain ⟨w1, e1⟩ := add_within ha ht
  obtain ⟨w2, e2⟩ := add_within hc ht
  obtain ⟨f, e3, -⟩ := sub_offset w1 w2
  refine ⟨f, ?_⟩
  set A := value a + value t
  set C := value c + value t
  have hd : value a - value c = A - C := by ring
  rw [hd]
  have h4 : |value (a +. t) - value (c +. t)| ≤ 2 * (|A| + |C|) := by
    have : value (a +. t) - value (c +. t)
        = (value (a +. t) - A) - (value (c +. t) - C) + A - C := by ring
    rw [this]
    have t1 := abs_sub (value (a +. t) - A - (value (c +. t) - C) + A) C
    have t2 := abs_add_le (value (a +. t) - A - (value (c +. t) - C)) A
    have t3 := abs_sub (value (a +. t) - A) (value (c +. t) - C)
    have := abs_nonneg A
    have := abs_nonneg C
    linarith
  have h5 : value ((a +. t) -. (c +. t)) - (A - C)
      = (value ((a +. t) -. (c +. t)) - (value (a +. t) - value (c +. t)))
        + ((value (a +. t) - A) - (value (c +. t) - C)) := by ring
  rw [h5]
  have t1 := abs_add_le (value ((a +. t) -. (c +. t)) - (value (a +. t) - value (c +. t)))
    ((value (a +. t) - A) - (value (c +. t) - C))
  have t2 := abs_sub (value (a +. t) - A) (value (c +. t) - C)
  have := abs_nonneg A
  have := abs_nonneg C
  linarith

/-- C78: `center` undoes a translation up to rounding.  The coordinates of the moved galaxy after
`center` are the distances of the original one up to `2^-51` times the size of the moved coordinates. -/
theorem C78_translation (b : BGalaxy Float64) (hp : b.hasPot = true) (i : Nat) (c : Body Float64)
    (hlow : LowestParticle b.all i c) (hlt : (c.pot <. Num.pinf) = true)
    (hpos : ∀ a ∈ b.all, Within 1021 a.x ∧ Within 1021 a.y ∧ Within 1021 a.z)
    (tx ty tz : Float64) (ht : Within 1021 tx ∧ Within 1021 ty ∧ Within 1021 tz) :
    ∃ b' : BGalaxy Float64, center (Galaxy.ofBodies (b.moved tx ty tz)) = .ok (Galaxy.ofBodies b') ∧
      b'.all.length = b.all.length ∧
      ∀ (j : Nat) (a a' : Body Float64), b.all[j]? = some a → b'.all[j]? = some a' →
        |value a'.x - (value a.x - value c.x)|
          ≤ (|value a.x + value tx| + |value c.x + value tx|) / 2 ^ 51 ∧
        |value a'.y - (value a.y - value c.y)|
          ≤ (|value a.y + value ty| + |value c.y + value ty|) / 2 ^ 51 ∧
        |value a'.z - (value a.z - value c.z)|
          ≤ (|value a.z + value tz| + |value c.z + value tz|) / 2 ^ 51 := by
  have hc := hpos c (List.mem_of_getElem? hlow.1)
  have hlow' : LowestParticle (b.moved tx ty tz).all i
      { c with x := c.x +. tx, y := c.y +. ty, z := c.z +. tz } := by
    obtain ⟨h1, h2, h3⟩ := hlow
    refine ⟨by rw [BGalaxy.moved, mapBodies_all, List.getElem?_map, h1]; rfl, h2, ?_⟩
    intro j d hd
    rw [BGalaxy.moved, mapBodies_all, List.getElem?_map] at hd
    obtain ⟨d', hd', rfl⟩ := Option.map_eq_some_iff.1 hd
    exact h3 j d' hd'
  refine ⟨_, C09_center_vector (b.moved tx ty tz) hp i _ hlow' hlt,
    by simp [BGalaxy.moved, mapBodies_all], ?_⟩
  intro j a a' h1 h2
  have ha := hpos a (List.mem_of_getElem? h1)
  rw [mapBodies_all, BGalaxy.moved, mapBodies_all, List.getElem?_map, List.getElem?_map, h1] at h2
  obtain rfl := Option.some.inj h2
  exact ⟨(moved_offset ha.1 hc.1 ht.1).2, (moved_offset ha.2.1 hc.2.1 ht.2.1).2,
    (moved_offset ha.2.2 hc.2.2 ht.2.2).2⟩

/-! ## Examples -/

/-- stars on the x axis with potentials -/
def boundGalaxy (l : List (ℚ × ℚ)) : BGalaxy Float64 :=
  ⟨l.map fun a => { onAxis 1 a.2 with pot := .ofExact false a.1 }, [], [], true, .ofExact false 0,
    .ofExact false 0, .ofExact false 0⟩

/-- C78: translation invariance fails in double precision.  Two stars one unit apart, moved by `2^60`,
are both at the origin after `center`. -/
theorem C78_translation_merges :
    let b := boundGalaxy [(-2, 0), (-1, 1)]
    let t : Float64 := .ofExact false (2 ^ 60)
    let o : Float64 := .ofExact false 0
    (∃ b', center (Galaxy.ofBodies b) = .ok (Galaxy.ofBodies b') ∧
      b'.all.map (fun a => value a.x) = [0, 1]) ∧
    ∃ b', center (Galaxy.ofBodies (b.moved t o o)) = .ok (Galaxy.ofBodies b') ∧
      b'.all.map (fun a => value a.x) = [0, 0] := by
  intro b t o
  refine ⟨⟨_, center_ofBodies b rfl b.all[0] (by decide +kernel), by decide +kernel⟩,
    ⟨_, center_ofBodies (b.moved t o o) rfl (b.moved t o o).all[0] (by decide +kernel),
      by decide +kernel⟩⟩

/-- the hypotheses of C78 hold for these two stars -/
example :
    let b := boundGalaxy [(-2, 0), (-1, 1)]
    LowestParticle b.all 0 b.all[0] ∧ ∀ a ∈ b.all, Within 1021 a.x ∧ Within 1021 a.y ∧ Within 1021 a.z := by
  refine ⟨⟨rfl, by decide +kernel, ?_⟩, by unfold Within; decide +kernel⟩
  intro j d hd
  match j, hd with
  | 0, hd => obtain rfl := Option.some.inj hd; decide +kernel
  | 1, hd => obtain rfl := Option.some.inj hd; decide +kernel

end GChop
