import Mathlib.Data.List.Dedup
import Verif.HeaderOutput
import Verif.Props.Header
import Verif.Lemmas.Frame

/-!
# C105: what `checkheader.py check` prints
-/

namespace GChop.Header
open GChop

theorem allHeadersOk_eq (d : Dict String Bool) : allHeadersOk d = d.all (·.2) := by
  have : ∀ acc, d.foldl (fun acc entry => if entry.2 then acc else false) acc = (acc && d.all (·.2)) := by
    induction d with
    | nil => simp
    | cons e d ih =>
      intro acc
      rw [List.foldl_cons, ih, List.all_cons]
      cases e.2 <;> cases acc <;> simp
  rw [allHeadersOk, this, Bool.true_and]

theorem firsts_snoc (l : List String) (p : String) :
    (l ++ [p]).reverse.dedup.reverse
      = if p ∈ l then l.reverse.dedup.reverse else l.reverse.dedup.reverse ++ [p] := by
  rw [List.reverse_append, List.reverse_singleton, List.singleton_append]
  split
  · next h => rw [List.dedup_cons_of_mem (by simpa using h)]
  · next h => rw [List.dedup_cons_of_notMem (by simpa using h), List.reverse_cons]

/-- the results are the files in the order in which they are first seen -/
theorem checkPaths_eq (fs : String → Node) (tpl : List Char) (paths seen : List String)
    (hf : ∀ p ∈ paths, ∃ t, fs p = .file t) :
    paths.foldlM (checkOne fs tpl) (seen.reverse.dedup.reverse.map fun p => (p, pathOk fs tpl p))
      = .ok ((seen ++ paths).reverse.dedup.reverse.map fun p => (p, pathOk fs tpl p)) := by
  induction paths generalizing seen with
  | nil => rw [List.append_nil]; rfl
  | cons p ps ih =>
    obtain ⟨t, ht⟩ := hf p (List.mem_cons_self ..)
    rw [List.foldlM_cons, checkOne_file ht]
    simp only [Py.ok_bind]
    have := ih (seen ++ [p]) fun q hq => hf q (List.mem_cons_of_mem _ hq)
    rw [List.append_assoc, List.singleton_append, firsts_snoc] at this
    rw [← this]
    congr 1
    split
    · next h => rw [Dict.set_map_mem _ _ _ (by simpa using h)]
    · next h => rw [Dict.set_map_not_mem _ _ _ (by simpa using h)]

theorem checkSources_eq (fs : String → Node) (isPy : String → Bool) (tpl : List Char)
    (sources seen : List String) (hs : SourcesOk fs isPy sources)
    (hf : ∀ p ∈ checkedFiles fs sources, ∃ t, fs p = .file t) :
    checkSources fs isPy tpl sources (seen.reverse.dedup.reverse.map fun p => (p, pathOk fs tpl p))
      = .ok ((seen ++ checkedFiles fs sources).reverse.dedup.reverse.map
          fun p => (p, pathOk fs tpl p)) := by
  induction sources generalizing seen with
  | nil => simp [checkSources, checkedFiles]
  | cons s ss ih =>
    rw [checkedFiles_cons] at hf ⊢
    rw [checkSources, expand_ok (hs s (List.mem_cons_self ..))]
    simp only [Py.ok_bind]
    rw [checkPaths_eq fs tpl _ seen fun p hp => hf p (List.mem_append_left _ hp)]
    simp only [Py.ok_bind]
    rw [ih _ (fun x hx => hs x (List.mem_cons_of_mem _ hx))
      fun p hp => hf p (List.mem_append_right _ hp), List.append_assoc]

theorem resultLines_map (verbose : Bool) (l : List String) (f : String → Bool) :
    resultLines verbose (l.map fun p => (p, f p))
      = (l.filter fun p => verbose || !f p).map fun p => resultLine p (f p) := by
  induction l with
  | nil => rfl
  | cons p l ih =>
    simp only [List.map_cons, resultLines, ih, List.filter_cons]
    split <;> rfl

/-- C105: if the template and all files can be read and every source is a directory or a Python file,
one line is printed for each file with a wrong header (with `verbose` for each file), once and in the
order in which the files are first met, then a rule and a verdict. -/
theorem C105_printed (fs : String → Node) (isPy : String → Bool) (message template : String)
    (sources : List String) (verbose : Bool) (T : List Char) (hT : fs template = .file T)
    (hs : SourcesOk fs isPy sources) (good : String → Bool)
    (hg : ∀ p ∈ checkedFiles fs sources, ∃ t, fs p = .file t ∧ good p = verdict T t) :
    checkOutput fs isPy message template sources verbose
      = ((((checkedFiles fs sources).reverse.dedup.reverse.filter fun p => verbose || !good p).map
            fun p => if good p then p ++ " -> HEADER MATCH" else p ++ " -> HEADER DOES NOT MATCH") ++
          ["-------------------------------------",
            if ∀ p ∈ checkedFiles fs sources, good p = true then "All files has the correct header"
            else "Not all headers match!"],
        .ok (if ∀ p ∈ checkedFiles fs sources, good p = true then 0 else 1)) := by
  have hr : readFile fs template = .ok T := by simp [readFile, hT]
  have hok : ∀ p ∈ checkedFiles fs sources, pathOk fs (linesRstrip (translate T)) p = good p := by
    intro p hp
    obtain ⟨t, ht, hv⟩ := hg p hp
    simp [pathOk, ht, hv, verdict]
  have hb : checkBody fs isPy template sources
      = .ok ((checkedFiles fs sources).reverse.dedup.reverse.map fun p => (p, good p)) := by
    rw [checkBody, hr]
    simp only [Py.ok_bind]
    have := checkSources_eq fs isPy (linesRstrip (translate T)) sources [] hs
      fun p hp => (hg p hp).imp fun _ h => h.1
    rw [List.nil_append] at this
    simp only [List.reverse_nil, List.dedup_nil, List.map_nil] at this
    rw [this]
    congr 1
    refine List.map_congr_left fun p hp => ?_
    rw [hok p (by simpa using hp)]
  have hall : allHeadersOk ((checkedFiles fs sources).reverse.dedup.reverse.map fun p => (p, good p))
      = decide (∀ p ∈ checkedFiles fs sources, good p = true) := by
    rw [allHeadersOk_eq, Bool.eq_iff_iff, List.all_eq_true, decide_eq_true_eq]
    simp
  rw [checkOutput, hb]
  simp only [hall, resultLines_map, closing, decide_eq_true_eq]
  congr 2
  refine List.map_congr_left fun p _ => ?_
  unfold resultLine
  cases good p
  · simp [String.append_assoc]
  · simp [String.append_assoc]

/-- C105: the exit code, or the uncaught error, depends neither on `verbose` nor on the messages. -/
theorem C105_exit (fs : String → Node) (isPy : String → Bool) (message template : String)
    (sources : List String) (verbose : Bool) :
    (checkOutput fs isPy message template sources verbose).2 = check fs isPy template sources := by
  unfold checkOutput check
  cases checkBody fs isPy template sources with
  | error e => cases e <;> rfl
  | ok r => simp only [allHeadersOk_eq]

theorem resultLines_false_nil {d : Dict String Bool} (h : allHeadersOk d = true) :
    resultLines false d = [] := by
  rw [allHeadersOk_eq] at h
  induction d with
  | nil => rfl
  | cons e d ih =>
    rw [List.all_cons, Bool.and_eq_true] at h
    obtain ⟨p, ok⟩ := e
    simp only at h
    rw [resultLines, h.1, ih h.2]
    rfl

/-- C105: without `verbose` the command succeeds exactly when it prints the rule and the good verdict and
nothing else. -/
theorem C105_quiet (fs : String → Node) (isPy : String → Bool) (message template : String)
    (sources : List String) :
    (checkOutput fs isPy message template sources false).2 = .ok 0 ↔
    (checkOutput fs isPy message template sources false).1
      = ["-------------------------------------", "All files has the correct header"] := by
  unfold checkOutput
  cases checkBody fs isPy template sources with
  | error e => cases e <;> simp
  | ok r =>
    cases h : allHeadersOk r with
    | true => simp [resultLines_false_nil h, closing]
    | false =>
      simp only [closing]
      constructor
      · intro h'
        simp [h] at h'
      · intro h'
        have := congrArg List.getLast? h'
        simp [h] at this

theorem resultLines_sublist (d : Dict String Bool) :
    (resultLines false d).Sublist (resultLines true d) := by
  induction d with
  | nil => exact List.Sublist.refl _
  | cons e d ih =>
    obtain ⟨p, ok⟩ := e
    cases ok
    · exact List.Sublist.cons_cons _ ih
    · exact List.Sublist.cons _ ih

/-- C105: `verbose` only adds lines. -/
theorem C105_verbose (fs : String → Node) (isPy : String → Bool) (message template : String)
    (sources : List String) :
    (checkOutput fs isPy message template sources false).1.Sublist
      (checkOutput fs isPy message template sources true).1 := by
  unfold checkOutput
  cases checkBody fs isPy template sources with
  | error e => cases e <;> exact List.Sublist.refl _
  | ok r => exact (resultLines_sublist r).append (List.Sublist.refl _)

/-- C105: when a file cannot be read, only the message of the error is printed: wrong headers of the
sources before it are not reported. -/
theorem C105_unreadable (fs : String → Node) (isPy : String → Bool) (message template : String)
    (before after : List String) (s : String) (verbose : Bool) (T : List Char)
    (hT : fs template = .file T) (hs : SourcesOk fs isPy before)
    (hf : ∀ p ∈ checkedFiles fs before, ∃ t, fs p = .file t) (hpy : isPy s = true)
    (hm : fs s = .missing) :
    checkOutput fs isPy message template (before ++ s :: after) verbose = ([message], .ok 1) := by
  have hr : readFile fs template = .ok T := by simp [readFile, hT]
  have := (checkSources_error fs isPy (linesRstrip (translate T)) before s after [] []
    (holds_nil _ _) hs hf).2 (Or.inr hpy) (by simp [pathsOf, hm])
  rw [checkOutput, checkBody, hr]
  simp only [Py.ok_bind, this]

/-- C105: a source that is neither a directory nor a Python file is an uncaught error, and nothing is
printed about the sources before it. -/
theorem C105_invalid (fs : String → Node) (isPy : String → Bool) (message template : String)
    (before after : List String) (s : String) (verbose : Bool) (T : List Char)
    (hT : fs template = .file T) (hs : SourcesOk fs isPy before)
    (hf : ∀ p ∈ checkedFiles fs before, ∃ t, fs p = .file t) (hpy : isPy s = false)
    (hm : ∀ l, fs s ≠ .dir l) :
    checkOutput fs isPy message template (before ++ s :: after) verbose = ([], .error .valueError) := by
  have hr : readFile fs template = .ok T := by simp [readFile, hT]
  have := (checkSources_error fs isPy (linesRstrip (translate T)) before s after [] []
    (holds_nil _ _) hs hf).1 (by simp [hm, hpy])
  rw [checkOutput, checkBody, hr]
  simp only [Py.ok_bind, this]

/-- C105: the order of the sources does not decide whether the command succeeds. -/
theorem C105_order (fs : String → Node) (isPy : String → Bool) (message template : String)
    (sources sources' : List String) (verbose : Bool) (h : sources.Perm sources') :
    (checkOutput fs isPy message template sources verbose).2 = .ok 0 ↔
      (checkOutput fs isPy message template sources' verbose).2 = .ok 0 := by
  rw [C105_exit, C105_exit, C60_exit_zero, C60_exit_zero]
  have h1 : SourcesOk fs isPy sources ↔ SourcesOk fs isPy sources' :=
    forall_congr' fun s => by rw [h.mem_iff]
  have h2 : ∀ p, p ∈ checkedFiles fs sources ↔ p ∈ checkedFiles fs sources' := fun p => by
    unfold checkedFiles
    simp only [List.mem_flatMap, h.mem_iff]
  simp only [h1, h2]

/-- a tree with a template, a right file, a wrong file and a text file -/
def exTree : String → Node := fun p =>
  if p = "tpl" then .file "# a\n".toList else if p = "a.py" then .file "# a \nx\n".toList
  else if p = "b.py" then .file "x\n".toList else if p = "c.txt" then .file [] else
  if p = "src" then .dir ["b.py", "a.py"] else .missing

/-- the suffix test on these paths -/
def exIsPyTree : String → Bool := fun p => p = "a.py" || p = "b.py" || p = "gone.py"

/-- C105 (negation): the order of the sources decides between exit code 1 and an uncaught error. -/
theorem C105_order_error :
    (checkOutput exTree exIsPyTree "m" "tpl" ["gone.py", "c.txt"] false).2 = .ok 1 ∧
    (checkOutput exTree exIsPyTree "m" "tpl" ["c.txt", "gone.py"] false).2 = .error .valueError := by
  decide +kernel

/-- C105 (negation): a wrong header is reported, and is not when a missing file follows. -/
theorem C105_hidden :
    checkOutput exTree exIsPyTree "m" "tpl" ["b.py"] false
      = (["b.py -> HEADER DOES NOT MATCH", "-------------------------------------",
          "Not all headers match!"], .ok 1) ∧
    checkOutput exTree exIsPyTree "m" "tpl" ["b.py", "gone.py"] false = (["m"], .ok 1) := by
  decide +kernel

/-- a run in which a file is met twice and `verbose` adds a line -/
example : checkOutput exTree exIsPyTree "m" "tpl" ["a.py", "src"] true
    = (["a.py -> HEADER MATCH", "b.py -> HEADER DOES NOT MATCH",
        "-------------------------------------", "Not all headers match!"], .ok 1) := by
  decide +kernel

/-- the hypotheses of `C105_printed` hold there -/
example : SourcesOk exTree exIsPyTree ["a.py", "src"] ∧
    ∀ p ∈ checkedFiles exTree ["a.py", "src"], ∃ t, exTree p = .file t ∧
      decide (p = "a.py") = verdict "# a\n".toList t := by
  constructor
  · intro s hs
    simp only [List.mem_cons, List.not_mem_nil, or_false] at hs
    rcases hs with rfl | rfl
    · exact Or.inr (by decide +kernel)
    · exact Or.inl ⟨["b.py", "a.py"], by simp [exTree]⟩
  · have : checkedFiles exTree ["a.py", "src"] = ["a.py", "b.py", "a.py"] := by decide +kernel
    rw [this]
    intro p hp
    simp only [List.mem_cons, List.not_mem_nil, or_false] at hp
    rcases hp with rfl | rfl | rfl
    · exact ⟨"# a \nx\n".toList, by simp [exTree], by decide +kernel⟩
    · exact ⟨"x\n".toList, by simp [exTree], by decide +kernel⟩
    · exact ⟨"# a \nx\n".toList, by simp [exTree], by decide +kernel⟩

end GChop.Header
