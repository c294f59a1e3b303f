import Verif.Upper
import Verif.Props.Data
import Mathlib.Data.Set.Card

/-!
# C119: the strings that name a particle type
-/

namespace GChop

/-! ## Spellings of a word -/

/-- the words that the table `T` maps to `N`, if `n` is at least the length of `N` -/
def spell (T : List (Char × List Char)) : Nat → List Char → List (List Char)
  | _, [] => [[]]
  | 0, _ :: _ => []
  | n + 1, k :: N => T.flatMap fun e =>
    if e.2 <+: k :: N then (spell T n ((k :: N).drop e.2.length)).map (e.1 :: ·) else []

theorem mem_spell {f : Char → List Char} {A : List Char} {T : List (Char × List Char)}
    (h : CharTable f A T) (n : Nat) : ∀ N : List Char, N.length ≤ n → (∀ k ∈ N, k ∈ A) →
      ∀ l, l ∈ spell T n N ↔ l.flatMap f = N := by
  induction n with
  | zero =>
    intro N hN _ l
    obtain rfl : N = [] := List.length_eq_zero_iff.1 (Nat.le_zero.1 hN)
    cases l with
    | nil => simp [spell]
    | cons c l => simp [spell, h.pos]
  | succ n ih =>
    intro N hN hA l
    cases N with
    | nil =>
      cases l with
      | nil => simp [spell]
      | cons c l => simp [spell, h.pos]
    | cons k N =>
      simp only [spell, List.mem_flatMap]
      constructor
      · rintro ⟨e, he, hl⟩
        split_ifs at hl with hp
        · obtain ⟨l', hl', rfl⟩ := List.mem_map.1 hl
          have hpos : 0 < e.2.length := by
            rw [← h.known e he]; exact List.length_pos_iff.2 (h.pos _)
          rw [ih _ (by rw [List.length_drop]; simp only [List.length_cons] at hN ⊢; omega)
            (fun j hj => hA j (List.mem_of_mem_drop hj))] at hl'
          rw [List.flatMap_cons, hl', h.known e he]
          exact List.prefix_iff_eq_append.1 hp
        · simp at hl
      · intro hl
        cases l with
        | nil => simp at hl
        | cons c l =>
          rw [List.flatMap_cons] at hl
          have hc : (c, f c) ∈ T := h.only c fun j hj => hA j (hl ▸ List.mem_append_left _ hj)
          have hpos : 0 < (f c).length := List.length_pos_iff.2 (h.pos _)
          have hd : (k :: N).drop (f c).length = l.flatMap f := by rw [← hl]; simp
          refine ⟨_, hc, ?_⟩
          rw [if_pos ⟨_, hl⟩]
          refine List.mem_map.2 ⟨l, ?_, rfl⟩
          refine (ih _ ?_ (fun j hj => hA j (List.mem_of_mem_drop hj)) l).2 hd.symm
          rw [List.length_drop]
          simp only [List.length_cons] at hN ⊢
          omega

theorem nodup_spell {T : List (Char × List Char)} (h : T.Pairwise fun a b => a.1 ≠ b.1) (n : Nat) :
    ∀ N, (spell T n N).Nodup := by
  induction n with
  | zero => intro N; cases N <;> simp [spell]
  | succ n ih =>
    intro N
    cases N with
    | nil => simp [spell]
    | cons k N =>
      simp only [spell]
      refine List.nodup_flatMap.2 ⟨fun e _ => ?_, h.imp fun {a b} hab => ?_⟩
      · split_ifs
        · exact (ih _).map fun _ _ h => (List.cons.inj h).2
        · exact List.nodup_nil
      · intro l h1 h2
        simp only at h1 h2
        split_ifs at h1 h2 <;> simp only [List.mem_map, List.not_mem_nil] at h1 h2
        obtain ⟨_, _, rfl⟩ := h1
        obtain ⟨_, _, h2⟩ := h2
        exact hab (List.cons.inj h2).1.symm

theorem letters_of_name (p : PType) : p.name.toList.length ≤ 11 ∧ ∀ k ∈ p.name.toList, k ∈ nameLetters := by
  cases p <;> decide +kernel

theorem pyUpper_eq {up : Char → List Char} (h : UpperTable up) (s : String) (p : PType) :
    pyUpper up s = p.name ↔ s.toList ∈ spell upperEntries 11 p.name.toList := by
  rw [mem_spell h 11 _ (letters_of_name p).1 (letters_of_name p).2, pyUpper]
  constructor
  · intro e; rw [← e, String.toList_ofList]
  · intro e; rw [e, String.ofList_toList]

/-! ## The words in lower case -/

/-- a character in lower case, the long s as s, the two ligatures as s and t -/
def plainChar (c : Char) : List Char :=
  if c = 'ſ' then ['s'] else if c = 'ﬅ' ∨ c = 'ﬆ' then ['s', 't'] else [c.toLower]

def plainLetters : List Char := ['a', 'd', 'e', 'g', 'k', 'm', 'r', 's', 't', '_']

def plainEntries : List (Char × List Char) :=
  [('A', ['a']), ('D', ['d']), ('E', ['e']), ('G', ['g']), ('K', ['k']), ('M', ['m']), ('R', ['r']),
   ('S', ['s']), ('T', ['t']), ('_', ['_']), ('a', ['a']), ('d', ['d']), ('e', ['e']), ('g', ['g']),
   ('k', ['k']), ('m', ['m']), ('r', ['r']), ('s', ['s']), ('t', ['t']), ('ſ', ['s']), ('ﬅ', ['s', 't']),
   ('ﬆ', ['s', 't'])]

theorem toLower_eq {c t : Char} (h : c.toLower = t) :
    c = t ∨ (65 ≤ c.toNat ∧ c.toNat ≤ 90 ∧ c.toNat + 32 = t.toNat) := by
  unfold Char.toLower at h
  split_ifs at h with hc
  · right
    subst h
    obtain ⟨h1, h2⟩ := hc
    have h1' : 65 ≤ c.val.toNat := by simpa using UInt32.le_iff_toNat_le.1 h1
    have h2' : c.val.toNat ≤ 90 := by simpa using UInt32.le_iff_toNat_le.1 h2
    refine ⟨h1', h2', ?_⟩
    simp only [Char.toNat, UInt32.toNat_add]
    rw [Nat.mod_eq_of_lt]
    · rfl
    · have : ('a'.val - 'A'.val).toNat = 32 := rfl
      omega
  · exact Or.inl h

theorem char_of_toNat {c : Char} {n : Nat} (d : Char) (h : c.toNat + 32 = n) (hd : d.toNat + 32 = n) : c = d :=
  Char.ext (UInt32.toNat_inj.1 (Nat.add_right_cancel (h.trans hd.symm)))

theorem plain_table : CharTable plainChar plainLetters plainEntries := by
  refine ⟨by decide +kernel, fun c hc => ?_, fun c => ?_⟩
  · unfold plainChar at hc ⊢
    split_ifs at hc ⊢ with h1 h2
    · subst h1; decide +kernel
    · rcases h2 with rfl | rfl <;> decide +kernel
    · have hc := hc c.toLower (by simp)
      simp only [plainLetters, List.mem_cons, List.not_mem_nil, or_false] at hc
      rcases hc with h | h | h | h | h | h | h | h | h | h <;> rw [h] <;>
        rcases toLower_eq h with rfl | ⟨h3, h4, h5⟩
      · decide +kernel
      · obtain rfl := char_of_toNat (c := c) 'A' h5 rfl; decide +kernel
      · decide +kernel
      · obtain rfl := char_of_toNat (c := c) 'D' h5 rfl; decide +kernel
      · decide +kernel
      · obtain rfl := char_of_toNat (c := c) 'E' h5 rfl; decide +kernel
      · decide +kernel
      · obtain rfl := char_of_toNat (c := c) 'G' h5 rfl; decide +kernel
      · decide +kernel
      · obtain rfl := char_of_toNat (c := c) 'K' h5 rfl; decide +kernel
      · decide +kernel
      · obtain rfl := char_of_toNat (c := c) 'M' h5 rfl; decide +kernel
      · decide +kernel
      · obtain rfl := char_of_toNat (c := c) 'R' h5 rfl; decide +kernel
      · decide +kernel
      · obtain rfl := char_of_toNat (c := c) 'S' h5 rfl; decide +kernel
      · decide +kernel
      · obtain rfl := char_of_toNat (c := c) 'T' h5 rfl; decide +kernel
      · decide +kernel
      · have : ('_' : Char).toNat = 95 := rfl
        omega
  · unfold plainChar
    split_ifs <;> simp

theorem letters_of_humanize (p : PType) :
    p.humanize.toList.length ≤ 11 ∧ ∀ k ∈ p.humanize.toList, k ∈ plainLetters := by
  cases p <;> decide +kernel

theorem spell_plain (p : PType) :
    spell upperEntries 11 p.name.toList = spell plainEntries 11 p.humanize.toList := by
  cases p <;> decide +kernel

/-! ## C119 -/

/-- C119: `mktype` accepts a string as a particle type exactly when it is the name of the type in lower case
after turning it into lower case and writing a long s as s and the ligatures of (long) s and t as s and t. -/
theorem C119_strings (up : Char → List Char) (h : UpperTable up) (s : String) (p : PType) :
    PType.mktype (pyUpper up) (.str s) = .ok p ↔ s.toList.flatMap plainChar = p.humanize.toList := by
  rw [(C07_mktype _).2.1, pyUpper_eq h, spell_plain,
    mem_spell plain_table 11 _ (letters_of_humanize p).1 (letters_of_humanize p).2]

/-- C119: a string of ASCII characters is accepted exactly when it is the name in any letter case. -/
theorem C119_ascii (up : Char → List Char) (h : UpperTable up) (s : String)
    (hs : ∀ c ∈ s.toList, c.toNat < 128) (p : PType) :
    PType.mktype (pyUpper up) (.str s) = .ok p ↔ s.toList.map Char.toLower = p.humanize.toList := by
  rw [C119_strings up h]
  have e : s.toList.flatMap plainChar = s.toList.map Char.toLower := by
    rw [← List.flatMap_singleton' (s.toList.map Char.toLower), List.flatMap_map]
    refine List.flatMap_congr fun c hc => ?_
    have h1 := hs c hc
    unfold plainChar
    rw [if_neg (by rintro rfl; revert h1; decide), if_neg (by rintro (rfl | rfl) <;> revert h1 <;> decide)]
  rw [e]

/-- C119: exactly 96 strings denote the stars, 1024 the dark matter and 12 the gas. -/
theorem C119_count (up : Char → List Char) (h : UpperTable up) (p : PType) :
    {s : String | PType.mktype (pyUpper up) (.str s) = .ok p}.ncard =
      match p with
      | .stars => 96
      | .darkMatter => 1024
      | .gas => 12 := by
  have e : {s : String | PType.mktype (pyUpper up) (.str s) = .ok p} =
      String.ofList '' ((spell upperEntries 11 p.name.toList).toFinset : Set (List Char)) := by
    ext s
    simp only [Set.mem_ofPred_eq, Set.mem_image, List.coe_toFinset]
    rw [(C07_mktype _).2.1, pyUpper_eq h]
    constructor
    · intro hs; exact ⟨_, hs, String.ofList_toList⟩
    · rintro ⟨l, hl, rfl⟩; rwa [String.toList_ofList]
  have hi : Function.Injective String.ofList := fun a b hab => by
    rw [← String.toList_ofList (l := a), hab, String.toList_ofList]
  rw [e, Set.ncard_image_of_injective _ hi, Set.ncard_coe_finset,
    List.toFinset_card_of_nodup (nodup_spell (by decide +kernel) _ _)]
  cases p <;> decide +kernel

/-- C119: three of them that are no letter case of a name. -/
theorem C119_ligature (up : Char → List Char) (h : UpperTable up) :
    PType.mktype (pyUpper up) (.str "ﬆars") = .ok .stars ∧
    PType.mktype (pyUpper up) (.str "Starſ") = .ok .stars ∧
    PType.mktype (pyUpper up) (.str "gaſ") = .ok .gas := by
  refine ⟨(C119_strings up h _ _).2 ?_, (C119_strings up h _ _).2 ?_, (C119_strings up h _ _).2 ?_⟩ <;>
    decide +kernel

/-- a table as assumed: the entries of the list, every other character unchanged -/
example : UpperTable fun c => ((upperEntries.find? (·.1 == c)).map Prod.snd).getD [c] := by
  refine ⟨by decide +kernel, fun c hc => ?_, fun c => ?_⟩
  · cases hf : upperEntries.find? (·.1 == c) with
    | none =>
      simp only [hf] at hc
      have h1 : c ∈ nameLetters := hc c (by simp)
      have h2 : ∀ c ∈ nameLetters, upperEntries.find? (·.1 == c) ≠ none := by decide +kernel
      exact absurd hf (h2 c h1)
    | some e =>
      have h1 := List.mem_of_find?_eq_some hf
      have h2 := List.find?_some hf
      obtain ⟨a, b⟩ := e
      obtain rfl : a = c := by simpa using h2
      simpa using h1
  · cases hf : upperEntries.find? (·.1 == c) with
    | none => simp
    | some e =>
      have h1 := List.mem_of_find?_eq_some hf
      have h2 : ∀ e ∈ upperEntries, e.2 ≠ [] := by decide +kernel
      simpa using h2 e h1

end GChop
