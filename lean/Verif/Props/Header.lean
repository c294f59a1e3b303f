import Verif.Header
import Verif.Lemmas.Dict
import Verif.Lemmas.Data

/-!
# C60: the header checker
-/

namespace GChop.Header
open GChop

/-! ## Spec -/

/-- the physical lines of a file -/
def fileLines (text : List Char) : List (List Char) := splitAt (· == '\n') (translate text)

/-- the file starts with the lines of the template, up to trailing whitespace -/
def StartsWith (tpl text : List Char) : Prop :=
  ((fileLines text).take (fileLines tpl).length).map rstrip = (fileLines tpl).map rstrip

/-- no line ends other than those of text files -/
def Plain (text : List Char) : Prop := ∀ c ∈ text, isLineEnd c = true → c = '\n' ∨ c = '\r'

/-- the last line of the text is not blank, or the text is empty -/
def NoBlankEnd (text : List Char) : Prop := ((fileLines text).map rstrip).getLast? ≠ some []

/-! ## Lines -/

theorem isLineEnd_nl : isLineEnd '\n' = true := by decide

theorem translate_mem (text : List Char) : ∀ c ∈ translate text, c = '\n' ∨ (c ∈ text ∧ c ≠ '\r') := by
  induction text using translate.induct with
  | case1 => intro c hc; simp [translate] at hc
  | case2 t ih =>
    intro c hc
    rw [translate] at hc
    rcases List.mem_cons.1 hc with h | h
    · exact Or.inl h
    · rcases ih c h with h | ⟨h, h'⟩
      · exact Or.inl h
      · exact Or.inr ⟨by simp [h], h'⟩
  | case3 t hne ih =>
    intro c hc
    rw [translate.eq_3 _ hne] at hc
    rcases List.mem_cons.1 hc with h | h
    · exact Or.inl h
    · rcases ih c h with h | ⟨h, h'⟩
      · exact Or.inl h
      · exact Or.inr ⟨by simp [h], h'⟩
  | case4 c t h1 h2 ih =>
    intro d hd
    rw [translate.eq_4 c t h1 h2] at hd
    rcases List.mem_cons.1 hd with h | h
    · subst h
      by_cases hr : d = '\r'
      · exact absurd hr h2
      · exact Or.inr ⟨by simp, hr⟩
    · rcases ih d h with h | ⟨h, h'⟩
      · exact Or.inl h
      · exact Or.inr ⟨by simp [h], h'⟩

/-- only newlines end lines -/
def OnlyNL (l : List Char) : Prop := ∀ c ∈ l, isLineEnd c = (c == '\n')

theorem Plain.onlyNL {text : List Char} (h : Plain text) : OnlyNL (translate text) := by
  intro c hc
  rcases translate_mem text c hc with rfl | ⟨h1, h2⟩
  · decide
  · by_cases hn : c = '\n'
    · subst hn; decide
    · by_cases he : isLineEnd c = true
      · rcases h c h1 he with h | h
        · exact absurd h hn
        · exact absurd h h2
      · simp [he, hn]

theorem splitlines_eq {l : List Char} (h : OnlyNL l) : splitlines l = splitAt (· == '\n') l := by
  unfold splitlines
  induction l with
  | nil => rfl
  | cons c t ih =>
    have hc := h c (List.mem_cons_self ..)
    rw [splitAt, splitAt, hc, ih fun d hd => h d (List.mem_cons_of_mem _ hd)]

theorem takeLines_mem (k : Nat) (l : List Char) : ∀ c ∈ takeLines k l, c ∈ l := by
  induction l generalizing k with
  | nil => cases k <;> simp [takeLines]
  | cons d t ih =>
    cases k with
    | zero => simp [takeLines]
    | succ k =>
      intro c hc
      rw [takeLines] at hc
      split at hc
      · rcases List.mem_cons.1 hc with h | h
        · simp [h]
        · exact List.mem_cons_of_mem _ (ih _ c h)
      · rcases List.mem_cons.1 hc with h | h
        · simp [h]
        · exact List.mem_cons_of_mem _ (ih _ c h)

theorem splitAt_takeLines (k : Nat) (l : List Char) :
    splitAt (· == '\n') (takeLines k l) = (splitAt (· == '\n') l).take k := by
  induction l generalizing k with
  | nil => cases k <;> rfl
  | cons c t ih =>
    cases k with
    | zero => simp [takeLines, splitAt]
    | succ k =>
      rw [takeLines]
      by_cases hc : c = '\n'
      · subst hc
        simp [splitAt, ih]
      · rw [if_neg hc]
        simp only [splitAt, beq_iff_eq, hc, if_false, ih]
        cases splitAt (· == '\n') t with
        | nil => simp [consFirst]
        | cons x xs => simp [consFirst]

theorem splitAt_noNL (l : List Char) : ∀ x ∈ splitAt (· == '\n') l, '\n' ∉ x := by
  induction l with
  | nil => simp [splitAt]
  | cons c t ih =>
    rw [splitAt]
    by_cases hc : c = '\n'
    · subst hc
      simp only [beq_self_eq_true, if_true, List.mem_cons]
      rintro x (rfl | h)
      · simp
      · exact ih x h
    · rw [if_neg (by simpa using hc)]
      cases hs : splitAt (· == '\n') t with
      | nil =>
        simp only [consFirst, List.mem_singleton]
        rintro x rfl
        simp [Ne.symm hc]
      | cons y ys =>
        rw [hs] at ih
        simp only [consFirst, List.mem_cons]
        rintro x (rfl | h)
        · have := ih y (List.mem_cons_self ..)
          simp [Ne.symm hc, this]
        · exact ih x (List.mem_cons_of_mem _ h)

theorem rstrip_mem {l : List Char} {c : Char} (h : c ∈ rstrip l) : c ∈ l :=
  (List.rdropWhile_prefix (p := isSpace) l).subset h

theorem splitAt_append {a t : List Char} (ha : '\n' ∉ a) :
    splitAt (· == '\n') (a ++ '\n' :: t) = a :: splitAt (· == '\n') t := by
  induction a with
  | nil => simp [splitAt]
  | cons c a ih =>
    have hc : c ≠ '\n' := fun h => ha (by simp [h])
    have ha' : '\n' ∉ a := fun h => ha (by simp [h])
    rw [List.cons_append, splitAt, if_neg (by simpa using hc), ih ha']
    rfl

theorem splitAt_single {a : List Char} (ha : '\n' ∉ a) :
    splitAt (· == '\n') a = if a = [] then [] else [a] := by
  induction a with
  | nil => rfl
  | cons c a ih =>
    have hc : c ≠ '\n' := fun h => ha (by simp [h])
    have ha' : '\n' ∉ a := fun h => ha (by simp [h])
    rw [splitAt, if_neg (by simpa using hc), ih ha']
    by_cases h : a = []
    · simp [h, consFirst]
    · simp [h, consFirst]

/-- the lines of joined lines: a blank last line is lost -/
theorem splitAt_join (L : List (List Char)) (h : ∀ l ∈ L, '\n' ∉ l) :
    splitAt (· == '\n') (joinNL L) = if L.getLast? = some [] then L.dropLast else L := by
  induction L with
  | nil => rfl
  | cons a L ih =>
    have ha := h a (List.mem_cons_self ..)
    cases L with
    | nil =>
      rw [joinNL, splitAt_single ha]
      by_cases h0 : a = []
      · simp [h0]
      · simp [h0]
    | cons b L =>
      rw [joinNL, splitAt_append ha, ih fun l hl => h l (List.mem_cons_of_mem _ hl)]
      rw [List.getLast?_cons_cons]
      split
      · rw [List.dropLast_cons_cons]
      · rfl

theorem lines_noNL (text : List Char) : ∀ l ∈ (fileLines text).map rstrip, '\n' ∉ l := by
  intro l hl hn
  obtain ⟨x, hx, rfl⟩ := List.mem_map.1 hl
  exact splitAt_noNL _ x hx (rstrip_mem hn)

theorem joinNL_mem {L : List (List Char)} {c : Char} (h : c ∈ joinNL L) :
    c = '\n' ∨ ∃ l ∈ L, c ∈ l := by
  induction L with
  | nil => simp [joinNL] at h
  | cons a L ih =>
    cases L with
    | nil => exact Or.inr ⟨a, by simp, h⟩
    | cons b L =>
      rw [joinNL, List.mem_append, List.mem_cons] at h
      rcases h with h | h | h
      · exact Or.inr ⟨a, by simp, h⟩
      · exact Or.inl h
      · rcases ih h with h | ⟨l, hl, h⟩
        · exact Or.inl h
        · exact Or.inr ⟨l, List.mem_cons_of_mem _ hl, h⟩

theorem splitAt_mem {p : Char → Bool} {l x : List Char} {c : Char} (hx : x ∈ splitAt p l) (hc : c ∈ x) :
    c ∈ l := by
  induction l generalizing x with
  | nil => simp [splitAt] at hx
  | cons d t ih =>
    rw [splitAt] at hx
    split at hx
    · rcases List.mem_cons.1 hx with rfl | h
      · cases hc
      · exact List.mem_cons_of_mem _ (ih h hc)
    · cases hs : splitAt p t with
      | nil =>
        rw [hs] at hx
        simp only [consFirst, List.mem_singleton] at hx
        subst hx
        rw [List.mem_singleton] at hc
        simp [hc]
      | cons y ys =>
        rw [hs] at hx ih
        simp only [consFirst, List.mem_cons] at hx
        rcases hx with rfl | h
        · rcases List.mem_cons.1 hc with rfl | h
          · simp
          · exact List.mem_cons_of_mem _ (ih (List.mem_cons_self ..) h)
        · exact List.mem_cons_of_mem _ (ih (List.mem_cons_of_mem _ h) hc)

theorem linesRstrip_eq {l : List Char} (h : OnlyNL l) :
    linesRstrip l = joinNL ((splitAt (· == '\n') l).map rstrip) := by
  unfold linesRstrip; rw [splitlines_eq h]

theorem linesRstrip_onlyNL {l : List Char} (h : OnlyNL l) : OnlyNL (linesRstrip l) := by
  rw [linesRstrip_eq h]
  intro c hc
  rcases joinNL_mem hc with rfl | ⟨x, hx, hc⟩
  · decide
  · obtain ⟨y, hy, rfl⟩ := List.mem_map.1 hx
    exact h c (splitAt_mem hy (rstrip_mem hc))

/-- the number of lines read from a file -/
def readCount (tpl : List Char) : Nat := (splitlines (linesRstrip (translate tpl))).length

theorem readCount_eq {tpl : List Char} (h : Plain tpl) : readCount tpl
    = if ((fileLines tpl).map rstrip).getLast? = some [] then (fileLines tpl).length - 1
      else (fileLines tpl).length := by
  unfold readCount
  rw [splitlines_eq (linesRstrip_onlyNL h.onlyNL), linesRstrip_eq h.onlyNL]
  change (splitAt _ (joinNL ((fileLines tpl).map rstrip))).length = _
  rw [splitAt_join _ (lines_noNL tpl)]
  split <;> simp [fileLines]

theorem header_read (k : Nat) {text : List Char} (h : Plain text) :
    linesRstrip (takeLines k (translate text)) = joinNL (((fileLines text).take k).map rstrip) := by
  have ho : OnlyNL (takeLines k (translate text)) := fun c hc => h.onlyNL c (takeLines_mem _ _ c hc)
  rw [linesRstrip_eq ho, splitAt_takeLines]
  rfl

/-- the verdict on one file -/
def verdict (tpl text : List Char) : Bool := checkFileHeader text (linesRstrip (translate tpl))

theorem verdict_iff {tpl text : List Char} (hp : Plain tpl) (ht : Plain text) :
    verdict tpl text = true ↔ joinNL (((fileLines text).take (readCount tpl)).map rstrip)
      = joinNL ((fileLines tpl).map rstrip) := by
  unfold verdict checkFileHeader
  rw [beq_iff_eq]
  rw [show (splitlines (linesRstrip (translate tpl))).length = readCount tpl from rfl,
    header_read _ ht, linesRstrip_eq hp.onlyNL]
  rfl

/-- C60: a file has the right header iff its first lines are those of the template up to trailing
whitespace, provided the template does not end with a blank line. -/
theorem C60_file {tpl text : List Char} (hp : Plain tpl) (ht : Plain text) (hb : NoBlankEnd tpl) :
    verdict tpl text = true ↔ StartsWith tpl text := by
  rw [verdict_iff hp ht, readCount_eq hp, if_neg hb]
  unfold StartsWith
  constructor
  · intro h
    have h2 := congrArg (splitAt (· == '\n')) h
    have hno : ∀ l ∈ ((fileLines text).take (fileLines tpl).length).map rstrip, '\n' ∉ l := by
      intro l hl
      obtain ⟨x, hx, rfl⟩ := List.mem_map.1 hl
      exact lines_noNL text _ (List.mem_map.2 ⟨x, List.mem_of_mem_take hx, rfl⟩)
    rw [splitAt_join _ hno, splitAt_join _ (lines_noNL tpl), if_neg hb] at h2
    split at h2
    · next hl =>
      exfalso
      have hlen := congrArg List.length h2
      simp only [List.length_dropLast, List.length_map, List.length_take] at hlen
      have h0 : 0 < (((fileLines text).take (fileLines tpl).length).map rstrip).length := by
        rw [List.length_pos_iff]
        intro hn
        rw [hn] at hl
        cases hl
      simp only [List.length_map, List.length_take] at h0
      omega
    · exact h2
  · intro h
    rw [h]

/-- C60: trailing whitespace in the files does not change the verdict, whatever the template. -/
theorem C60_trailing_spaces (tpl : List Char) {text text' : List Char} (ht : Plain text)
    (ht' : Plain text') (h : (fileLines text).map rstrip = (fileLines text').map rstrip) :
    verdict tpl text = verdict tpl text' := by
  unfold verdict checkFileHeader
  rw [header_read _ ht, header_read _ ht', List.map_take, h, List.map_take]

/-- C60: nor does trailing whitespace in the template. -/
theorem C60_trailing_spaces_template {tpl tpl' : List Char} (text : List Char) (hp : Plain tpl)
    (hp' : Plain tpl') (h : (fileLines tpl).map rstrip = (fileLines tpl').map rstrip) :
    verdict tpl text = verdict tpl' text := by
  have : linesRstrip (translate tpl) = linesRstrip (translate tpl') := by
    rw [linesRstrip_eq hp.onlyNL, linesRstrip_eq hp'.onlyNL]
    exact congrArg joinNL h
  unfold verdict
  rw [this]

theorem joinNL_append_blank (D : List (List Char)) (hD : D ≠ []) :
    joinNL (D ++ [[]]) = joinNL D ++ ['\n'] := by
  induction D with
  | nil => exact absurd rfl hD
  | cons a D ih =>
    cases D with
    | nil => rfl
    | cons b D =>
      have := ih (by simp)
      simp only [List.cons_append, joinNL] at this ⊢
      rw [this]
      simp

/-- C60 (limits): with a template of at least two lines that ends with a blank line no file is right. -/
theorem C60_blank_end_never {tpl text : List Char} (hp : Plain tpl) (ht : Plain text)
    (hb : ¬ NoBlankEnd tpl) (h2 : 2 ≤ (fileLines tpl).length) : verdict tpl text = false := by
  rw [Bool.eq_false_iff]
  intro hv
  rw [verdict_iff hp ht, readCount_eq hp] at hv
  unfold NoBlankEnd at hb
  push Not at hb
  rw [if_pos hb] at hv
  have hT : (fileLines tpl).map rstrip = ((fileLines tpl).map rstrip).dropLast ++ [[]] :=
    (List.dropLast_append_getLast? _ hb).symm
  set D := ((fileLines tpl).map rstrip).dropLast with hDdef
  have hDl : D.length = (fileLines tpl).length - 1 := by simp [hDdef]
  have hDne : D ≠ [] := by
    intro h0
    rw [h0] at hDl
    simp only [List.length_nil] at hDl
    omega
  set L := ((fileLines text).take ((fileLines tpl).length - 1)).map rstrip with hL
  have hLl : L.length ≤ (fileLines tpl).length - 1 := by
    rw [hL, List.length_map, List.length_take]; exact Nat.min_le_left _ _
  have hno : ∀ l ∈ L, '\n' ∉ l := by
    intro l hl
    obtain ⟨x, hx, rfl⟩ := List.mem_map.1 hl
    exact lines_noNL text _ (List.mem_map.2 ⟨x, List.mem_of_mem_take hx, rfl⟩)
  have hs := congrArg (splitAt (· == '\n')) hv
  rw [splitAt_join _ hno, splitAt_join _ (lines_noNL tpl), if_pos hb] at hs
  split at hs
  · next hl =>
    have h0 : 0 < L.length := by
      rw [List.length_pos_iff]
      intro hn
      rw [hn] at hl
      cases hl
    have := congrArg List.length hs
    simp only [List.length_dropLast, List.length_map] at this
    omega
  · rw [hs, ← hDdef, hT, joinNL_append_blank D hDne] at hv
    have := congrArg List.length hv
    simp at this

/-- C60 (limits): with a template of one blank line every file is right. -/
theorem C60_blank_always {tpl : List Char} (hp : Plain tpl) (hb : ¬ NoBlankEnd tpl)
    (h1 : (fileLines tpl).length = 1) (text : List Char) (ht : Plain text) :
    verdict tpl text = true := by
  rw [verdict_iff hp ht, readCount_eq hp]
  unfold NoBlankEnd at hb
  push Not at hb
  rw [if_pos hb, h1]
  obtain ⟨x, hx⟩ := List.length_eq_one_iff.1 h1
  rw [hx] at hb ⊢
  simp only [List.map_cons, List.map_nil, List.getLast?_singleton, Option.some.injEq] at hb
  simp [joinNL, hb]

/-! ## The command -/

/-- the files that are checked -/
def checkedFiles (fs : String → Node) (sources : List String) : List String :=
  sources.flatMap fun s => match fs s with
    | .dir l => l
    | _ => [s]

/-- every source is a directory or has the suffix of Python files -/
def SourcesOk (fs : String → Node) (isPy : String → Bool) (sources : List String) : Prop :=
  ∀ s ∈ sources, (∃ l, fs s = .dir l) ∨ isPy s = true

/-- the header of a path -/
def pathOk (fs : String → Node) (tpl : List Char) (path : String) : Bool :=
  match fs path with
  | .file text => checkFileHeader text tpl
  | _ => false

/-- the results hold the verdicts of the files seen -/
def Holds (fs : String → Node) (tpl : List Char) (seen : List String) (res : Dict String Bool) : Prop :=
  (Dict.keys res).Nodup ∧
    ∀ p, Dict.get? res p = if p ∈ seen then some (pathOk fs tpl p) else none

theorem checkOne_file {fs : String → Node} {tpl : List Char} {res : Dict String Bool} {p : String}
    {t : List Char} (hp : fs p = .file t) :
    checkOne fs tpl res p = .ok (Dict.set res p (pathOk fs tpl p)) := by
  unfold checkOne readFile pathOk
  rw [hp]
  rfl

theorem checkOne_error {fs : String → Node} {tpl : List Char} {res : Dict String Bool} {p : String}
    (hp : ∀ t, fs p ≠ .file t) : checkOne fs tpl res p = .error .osError := by
  unfold checkOne readFile
  cases h : fs p with
  | file t => exact absurd h (hp t)
  | dir l => rfl
  | missing => rfl

theorem checkPaths (fs : String → Node) (tpl : List Char) (paths seen : List String)
    (res : Dict String Bool) (h : Holds fs tpl seen res) :
    ((∀ p ∈ paths, ∃ t, fs p = .file t) →
      ∃ r, paths.foldlM (checkOne fs tpl) res = .ok r ∧ Holds fs tpl (seen ++ paths) r) ∧
    ((¬ ∀ p ∈ paths, ∃ t, fs p = .file t) → paths.foldlM (checkOne fs tpl) res = .error .osError) := by
  induction paths generalizing seen res with
  | nil => exact ⟨fun _ => ⟨res, rfl, by simpa using h⟩, fun hn => absurd (by simp) hn⟩
  | cons p ps ih =>
    rw [List.foldlM_cons]
    by_cases hp : ∃ t, fs p = .file t
    · obtain ⟨t, ht⟩ := hp
      rw [checkOne_file ht]
      simp only [Py.ok_bind]
      have h' : Holds fs tpl (seen ++ [p]) (Dict.set res p (pathOk fs tpl p)) := by
        refine ⟨Dict.nodup_set h.1 _ _, fun q => ?_⟩
        rw [Dict.get?_set_eq, h.2 q]
        by_cases hq : p = q
        · subst hq; simp
        · simp [hq, Ne.symm hq]
      obtain ⟨h1, h2⟩ := ih (seen ++ [p]) _ h'
      constructor
      · intro hall
        have := h1 fun q hq => hall q (List.mem_cons_of_mem _ hq)
        simpa using this
      · intro hn
        refine h2 fun hall => hn fun q hq => ?_
        rcases List.mem_cons.1 hq with rfl | hq
        · exact ⟨t, ht⟩
        · exact hall q hq
    · constructor
      · intro hall
        exact absurd (hall p (List.mem_cons_self ..)) hp
      · intro _
        push Not at hp
        rw [checkOne_error hp]
        rfl

/-- the paths of one source -/
def pathsOf (fs : String → Node) (s : String) : List String :=
  match fs s with
  | .dir l => l
  | _ => [s]

theorem checkedFiles_cons (fs : String → Node) (s : String) (ss : List String) :
    checkedFiles fs (s :: ss) = pathsOf fs s ++ checkedFiles fs ss := rfl

theorem expand_ok {fs : String → Node} {isPy : String → Bool} {s : String}
    (h : (∃ l, fs s = .dir l) ∨ isPy s = true) : expand fs isPy s = .ok (pathsOf fs s) := by
  unfold expand pathsOf
  cases hs : fs s with
  | dir l => rfl
  | file t =>
    rcases h with ⟨l, hl⟩ | h
    · rw [hs] at hl; cases hl
    · simp [h]
  | missing =>
    rcases h with ⟨l, hl⟩ | h
    · rw [hs] at hl; cases hl
    · simp [h]

theorem expand_error {fs : String → Node} {isPy : String → Bool} {s : String}
    (h : ¬ ((∃ l, fs s = .dir l) ∨ isPy s = true)) : expand fs isPy s = .error .valueError := by
  push Not at h
  unfold expand
  cases hs : fs s with
  | dir l => exact absurd hs (h.1 l)
  | file t => simp [h.2]
  | missing => simp [h.2]

theorem checkSources_ok (fs : String → Node) (isPy : String → Bool) (tpl : List Char)
    (sources seen : List String) (res : Dict String Bool) (h : Holds fs tpl seen res)
    (hs : SourcesOk fs isPy sources) (hf : ∀ p ∈ checkedFiles fs sources, ∃ t, fs p = .file t) :
    ∃ r, checkSources fs isPy tpl sources res = .ok r ∧
      Holds fs tpl (seen ++ checkedFiles fs sources) r := by
  induction sources generalizing seen res with
  | nil => exact ⟨res, rfl, by simpa [checkedFiles] using h⟩
  | cons s ss ih =>
    rw [checkedFiles_cons] at hf ⊢
    obtain ⟨r, hr, hh⟩ := (checkPaths fs tpl (pathsOf fs s) seen res h).1
      fun p hp => hf p (List.mem_append_left _ hp)
    rw [checkSources, expand_ok (hs s (List.mem_cons_self ..))]
    simp only [Py.ok_bind, hr]
    rw [← List.append_assoc]
    exact ih _ _ hh (fun x hx => hs x (List.mem_cons_of_mem _ hx))
      fun p hp => hf p (List.mem_append_right _ hp)

/-- the first bad source decides which error is raised -/
theorem checkSources_error (fs : String → Node) (isPy : String → Bool) (tpl : List Char)
    (good : List String) (s : String) (rest seen : List String) (res : Dict String Bool)
    (h : Holds fs tpl seen res) (hs : SourcesOk fs isPy good)
    (hf : ∀ p ∈ checkedFiles fs good, ∃ t, fs p = .file t) :
    ((¬ ((∃ l, fs s = .dir l) ∨ isPy s = true)) →
      checkSources fs isPy tpl (good ++ s :: rest) res = .error .valueError) ∧
    (((∃ l, fs s = .dir l) ∨ isPy s = true) → (¬ ∀ p ∈ pathsOf fs s, ∃ t, fs p = .file t) →
      checkSources fs isPy tpl (good ++ s :: rest) res = .error .osError) := by
  induction good generalizing seen res with
  | nil =>
    constructor
    · intro hb
      rw [List.nil_append, checkSources, expand_error hb]
      rfl
    · intro hg hb
      rw [List.nil_append, checkSources, expand_ok hg]
      simp only [Py.ok_bind, (checkPaths fs tpl _ seen res h).2 hb]
      rfl
  | cons x xs ih =>
    rw [checkedFiles_cons] at hf
    obtain ⟨r, hr, hh⟩ := (checkPaths fs tpl (pathsOf fs x) seen res h).1
      fun p hp => hf p (List.mem_append_left _ hp)
    rw [List.cons_append, checkSources, expand_ok (hs x (List.mem_cons_self ..))]
    simp only [Py.ok_bind, hr]
    exact ih _ _ hh (fun x hx => hs x (List.mem_cons_of_mem _ hx))
      fun p hp => hf p (List.mem_append_right _ hp)

theorem holds_nil (fs : String → Node) (tpl : List Char) : Holds fs tpl [] [] :=
  ⟨by simp [Dict.keys], fun p => by simp [Dict.get?]⟩

theorem Holds.all_iff {fs : String → Node} {tpl : List Char} {seen : List String}
    {res : Dict String Bool} (h : Holds fs tpl seen res) :
    res.all (·.2) = true ↔ ∀ p ∈ seen, pathOk fs tpl p = true := by
  rw [List.all_eq_true]
  constructor
  · intro hall p hp
    have := h.2 p
    rw [if_pos hp] at this
    exact hall _ (Dict.get?_mem this)
  · rintro hall ⟨p, v⟩ hm
    have hg := Dict.get?_of_mem h.1 hm
    rw [h.2 p] at hg
    split at hg
    · next hp =>
      simp only [Option.some.injEq] at hg
      rw [← hg]
      exact hall p hp
    · cases hg

/-- the first source that is not checked without error, if any -/
theorem sources_split (fs : String → Node) (isPy : String → Bool) (sources : List String) :
    (SourcesOk fs isPy sources ∧ ∀ p ∈ checkedFiles fs sources, ∃ t, fs p = .file t) ∨
    ∃ good s rest, sources = good ++ s :: rest ∧ SourcesOk fs isPy good ∧
      (∀ p ∈ checkedFiles fs good, ∃ t, fs p = .file t) ∧
      ((¬ ((∃ l, fs s = .dir l) ∨ isPy s = true)) ∨
        (((∃ l, fs s = .dir l) ∨ isPy s = true) ∧ ¬ ∀ p ∈ pathsOf fs s, ∃ t, fs p = .file t)) := by
  induction sources with
  | nil => exact Or.inl ⟨by simp [SourcesOk], by simp [checkedFiles]⟩
  | cons s ss ih =>
    by_cases h1 : (∃ l, fs s = .dir l) ∨ isPy s = true
    · by_cases h2 : ∀ p ∈ pathsOf fs s, ∃ t, fs p = .file t
      · rcases ih with ⟨ha, hb⟩ | ⟨good, x, rest, rfl, ha, hb, hc⟩
        · left
          refine ⟨fun y hy => ?_, fun p hp => ?_⟩
          · rcases List.mem_cons.1 hy with rfl | hy
            · exact h1
            · exact ha y hy
          · rw [checkedFiles_cons] at hp
            rcases List.mem_append.1 hp with hp | hp
            · exact h2 p hp
            · exact hb p hp
        · right
          refine ⟨s :: good, x, rest, rfl, fun y hy => ?_, fun p hp => ?_, hc⟩
          · rcases List.mem_cons.1 hy with rfl | hy
            · exact h1
            · exact ha y hy
          · rw [checkedFiles_cons] at hp
            rcases List.mem_append.1 hp with hp | hp
            · exact h2 p hp
            · exact hb p hp
      · exact Or.inr ⟨[], s, ss, rfl, by simp [SourcesOk], by simp [checkedFiles], Or.inr ⟨h1, h2⟩⟩
    · exact Or.inr ⟨[], s, ss, rfl, by simp [SourcesOk], by simp [checkedFiles], Or.inl h1⟩

/-- C60: the exit code is 0 iff the template and all the files can be read, every source is a
directory or a Python file, and every checked file has the right header. -/
theorem C60_exit_zero (fs : String → Node) (isPy : String → Bool) (template : String)
    (sources : List String) :
    check fs isPy template sources = .ok 0 ↔ ∃ T, fs template = .file T ∧
      SourcesOk fs isPy sources ∧
      ∀ p ∈ checkedFiles fs sources, ∃ t, fs p = .file t ∧ verdict T t = true := by
  unfold check checkBody
  by_cases hT : ∃ T, fs template = .file T
  · obtain ⟨T, hT⟩ := hT
    have hr : readFile fs template = .ok T := by simp [readFile, hT]
    rw [hr]
    simp only [Py.ok_bind]
    rcases sources_split fs isPy sources with ⟨ha, hb⟩ | ⟨good, s, rest, rfl, ha, hb, hc⟩
    · obtain ⟨r, h1, h2⟩ := checkSources_ok fs isPy (linesRstrip (translate T)) sources [] [] (holds_nil _ _) ha hb
      rw [h1]
      rw [List.nil_append] at h2
      have key : (∀ p ∈ checkedFiles fs sources, pathOk fs (linesRstrip (translate T)) p = true) ↔
          ∀ p ∈ checkedFiles fs sources, ∃ t, fs p = .file t ∧ verdict T t = true := by
        refine forall₂_congr fun p hp => ?_
        obtain ⟨t, ht⟩ := hb p hp
        simp [pathOk, ht, verdict]
      constructor
      · intro h
        refine ⟨T, hT, ha, key.1 (h2.all_iff.1 ?_)⟩
        by_contra hn
        simp [hn] at h
      · rintro ⟨T', hT', -, hall⟩
        rw [hT] at hT'
        obtain rfl : T = T' := by injection hT'
        have := h2.all_iff.2 (key.2 hall)
        simp [this]
    · have hno : ¬ (SourcesOk fs isPy (good ++ s :: rest) ∧
          ∀ p ∈ checkedFiles fs (good ++ s :: rest), ∃ t, fs p = .file t) := by
        rintro ⟨h1, h2⟩
        have hs := h1 s (by simp)
        rcases hc with hc | ⟨-, hc⟩
        · exact hc hs
        · refine hc fun p hp => h2 p ?_
          exact List.mem_flatMap.2 ⟨s, by simp, hp⟩
      have hE := checkSources_error fs isPy (linesRstrip (translate T)) good s rest [] [] (holds_nil _ _) ha hb
      constructor
      · intro h
        exfalso
        rcases hc with hc | ⟨hc1, hc2⟩
        · rw [hE.1 hc] at h; cases h
        · rw [hE.2 hc1 hc2] at h; simp at h
      · rintro ⟨T', -, h1, h2⟩
        exact absurd ⟨h1, fun p hp => (h2 p hp).imp fun _ h => h.1⟩ hno
  · have hr : readFile fs template = .error .osError := by
      unfold readFile
      cases h : fs template with
      | file T => exact absurd ⟨T, h⟩ hT
      | dir l => rfl
      | missing => rfl
    rw [hr]
    constructor
    · intro h
      change Except.ok 1 = Except.ok 0 at h
      simp at h
    · rintro ⟨T, h, -⟩
      exact absurd ⟨T, h⟩ hT

/-- C60: for text files and a template that does not end with a blank line, the exit code is 0 iff
every checked file starts with the template up to trailing whitespace of lines. -/
theorem C60_check {fs : String → Node} {isPy : String → Bool} {template : String}
    {sources : List String} {T : List Char} (hT : fs template = .file T) (hp : Plain T)
    (hb : NoBlankEnd T) (hs : SourcesOk fs isPy sources)
    (hf : ∀ p ∈ checkedFiles fs sources, ∃ t, fs p = .file t ∧ Plain t) :
    check fs isPy template sources = .ok 0 ↔
      ∀ p ∈ checkedFiles fs sources, ∀ t, fs p = .file t → StartsWith T t := by
  rw [C60_exit_zero]
  constructor
  · rintro ⟨T', hT', -, h⟩ p hm t ht
    rw [hT] at hT'
    obtain rfl : T = T' := by injection hT'
    obtain ⟨t', ht', hv⟩ := h p hm
    obtain ⟨t'', ht'', hpl⟩ := hf p hm
    rw [ht] at ht' ht''
    obtain rfl : t = t' := by injection ht'
    obtain rfl : t = t'' := by injection ht''
    exact (C60_file hp hpl hb).1 hv
  · intro h
    refine ⟨T, hT, hs, fun p hm => ?_⟩
    obtain ⟨t, ht, hpl⟩ := hf p hm
    exact ⟨t, ht, (C60_file hp hpl hb).2 (h p hm t ht)⟩

/-- C60: otherwise the exit code is 1 or, when a source is not a Python file, a `ValueError`
escapes; the first bad source decides. -/
theorem C60_outcomes (fs : String → Node) (isPy : String → Bool) (template : String)
    (sources : List String) :
    check fs isPy template sources = .ok 0 ∨ check fs isPy template sources = .ok 1 ∨
      (check fs isPy template sources = .error .valueError ∧ ¬ SourcesOk fs isPy sources) := by
  by_cases hT : ∃ T, fs template = .file T
  · obtain ⟨T, hT⟩ := hT
    have hr : readFile fs template = .ok T := by simp [readFile, hT]
    unfold check checkBody
    rw [hr]
    simp only [Py.ok_bind]
    rcases sources_split fs isPy sources with ⟨ha, hb⟩ | ⟨good, s, rest, rfl, ha, hb, hc⟩
    · obtain ⟨r, h1, -⟩ := checkSources_ok fs isPy (linesRstrip (translate T)) sources [] [] (holds_nil _ _) ha hb
      rw [h1]
      by_cases h : r.all (·.2) = true
      · left; simp [h]
      · right; left; simp [h]
    · have hE := checkSources_error fs isPy (linesRstrip (translate T)) good s rest [] [] (holds_nil _ _) ha hb
      rcases hc with hc | ⟨hc1, hc2⟩
      · rw [hE.1 hc]
        exact Or.inr (Or.inr ⟨rfl, fun h => hc (h s (by simp))⟩)
      · rw [hE.2 hc1 hc2]
        exact Or.inr (Or.inl rfl)
  · have hr : readFile fs template = .error .osError := by
      unfold readFile
      cases h : fs template with
      | file T => exact absurd ⟨T, h⟩ hT
      | dir l => rfl
      | missing => rfl
    unfold check checkBody
    rw [hr]
    exact Or.inr (Or.inl rfl)

/-! ## Examples -/

/-- a template of two lines -/
def exTpl : List Char := "# a\n# b\n".toList
/-- a file with the header and trailing spaces, with Windows line ends -/
def exGood : List Char := "# a  \r\n# b\t\r\nimport os\r\n".toList
/-- a file without it -/
def exBad : List Char := "# a\nimport os\n".toList
/-- a tree with the good file, the bad file and the template -/
def exFs : String → Node := fun p =>
  if p = "good.py" then .file exGood
  else if p = "bad.py" then .file exBad
  else if p = "tpl.txt" then .file exTpl
  else if p = "src" then .dir ["good.py"]
  else if p = "all" then .dir ["good.py", "bad.py"]
  else .missing
/-- the suffix test on the example paths -/
def exIsPy : String → Bool := fun p => p ∈ ["good.py", "bad.py", "gone.py"]

theorem plain_of_all {t : List Char}
    (h : (t.all fun c => !isLineEnd c || c == '\n' || c == '\r') = true) : Plain t := by
  intro c hc he
  have := List.all_eq_true.1 h c hc
  simpa [he] using this

example : Plain exTpl ∧ Plain exGood ∧ Plain exBad :=
  ⟨plain_of_all (by decide +kernel), plain_of_all (by decide +kernel), plain_of_all (by decide +kernel)⟩
example : NoBlankEnd exTpl := by unfold NoBlankEnd; decide +kernel
example : verdict exTpl exGood = true ∧ verdict exTpl exBad = false := by decide +kernel
example : check exFs exIsPy "tpl.txt" ["src", "good.py"] = .ok 0 := by
  rw [C60_exit_zero]
  refine ⟨exTpl, rfl, fun s hs => ?_, fun p hp => ?_⟩
  · simp only [List.mem_cons, List.not_mem_nil, or_false] at hs
    rcases hs with rfl | rfl
    · exact Or.inl ⟨_, rfl⟩
    · exact Or.inr (by decide +kernel)
  · have : p = "good.py" := by
      have h : checkedFiles exFs ["src", "good.py"] = ["good.py", "good.py"] := by
        simp [checkedFiles, exFs]
      rw [h] at hp
      simpa using hp
    subst this
    exact ⟨exGood, rfl, by decide +kernel⟩
example : check exFs exIsPy "tpl.txt" ["all"] = .ok 1 := by rfl
example : check exFs exIsPy "tpl.txt" ["gone.py"] = .ok 1 := by rfl
example : check exFs exIsPy "tpl.txt" ["tpl.txt"] = .error .valueError := by rfl

/-- C60 (limits): a template that ends with an empty line rejects a file equal to it. -/
theorem C60_counterexample_blank_end :
    StartsWith "# a\n\n".toList "# a\n\n".toList ∧ verdict "# a\n\n".toList "# a\n\n".toList = false := by
  unfold StartsWith; decide +kernel

/-- C60 (limits): a blank template line accepts a file that starts otherwise. -/
theorem C60_counterexample_blank :
    ¬ StartsWith " \n".toList "x\n".toList ∧ verdict " \n".toList "x\n".toList = true := by
  unfold StartsWith; decide +kernel

/-- C60 (limits): with a form feed in the file, trailing whitespace changes the verdict. -/
theorem C60_counterexample_form_feed :
    (fileLines "# a\n".toList).map rstrip = (fileLines "# a \x0c\n".toList).map rstrip ∧
      verdict "# a\n".toList "# a\n".toList = true ∧
      verdict "# a\n".toList "# a \x0c\n".toList = false := by
  decide +kernel

end GChop.Header
