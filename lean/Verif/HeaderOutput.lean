import Verif.Header

/-!
# What `tools/checkheader.py check` prints

The lines printed to a stream that is not a terminal, where `typer.echo` drops the colours.  The text of
an `OSError` is a parameter, a function of the file system and the path.  A path is written as its text.
-/

namespace GChop.Header
open GChop

/-- the line of one file, checkheader.py:125-136 -/
def resultLine (path : String) (ok : Bool) : String :=
  path ++ " -> " ++ if ok then "HEADER MATCH" else "HEADER DOES NOT MATCH"

/-- the lines of the files, checkheader.py:124-136 -/
def resultLines (verbose : Bool) : Dict String Bool → List String
  | [] => []
  | (path, ok) :: d =>
    if verbose || !ok then resultLine path ok :: resultLines verbose d else resultLines verbose d

/-- `all_headers_ok` after the loop, checkheader.py:123-129 -/
def allHeadersOk (d : Dict String Bool) : Bool :=
  d.foldl (fun acc entry => if entry.2 then acc else false) true

/-- the lines after the loop, checkheader.py:138-148 -/
def closing (ok : Bool) : List String :=
  ["-------------------------------------",
    if ok then "All files has the correct header" else "Not all headers match!"]

/-- `check` with the lines it prints and its exit code, checkheader.py:91-150.  `message` is the text of
the `OSError`; an invalid file type is an uncaught `ValueError` and nothing is printed by `check`. -/
def checkOutput (fs : String → Node) (isPy : String → Bool) (message : String) (template : String)
    (sources : List String) (verbose : Bool) : List String × Py Nat :=
  match checkBody fs isPy template sources with
  | .error .osError => ([message], .ok 1)
  | .error e => ([], .error e)
  | .ok results =>
    (resultLines verbose results ++ closing (allHeadersOk results),
      .ok (if allHeadersOk results then 0 else 1))

end GChop.Header
