import Mathlib.Data.List.DropRight
import Verif.Py

/-!
# Model of `tools/checkheader.py`

Texts are lists of characters.  The messages are in `Verif/HeaderOutput.lean`.  Not modelled: the
command line parser, undecodable files.  The file system is a function from paths to nodes; a directory lists the paths that
`glob("**/*.py")` finds in it.
-/

namespace GChop.Header
open GChop

/-- `str.isspace` of one character -/
def isSpace (c : Char) : Bool :=
  let n := c.toNat
  (9 ≤ n && n ≤ 13) || (28 ≤ n && n ≤ 32) || n == 0x85 || n == 0xA0 || n == 0x1680 ||
  (0x2000 ≤ n && n ≤ 0x200A) || n == 0x2028 || n == 0x2029 || n == 0x202F || n == 0x205F || n == 0x3000

/-- the characters at which `str.splitlines` ends a line -/
def isLineEnd (c : Char) : Bool :=
  let n := c.toNat
  (10 ≤ n && n ≤ 13) || (28 ≤ n && n ≤ 30) || n == 0x85 || n == 0x2028 || n == 0x2029

/-- the newline translation of files opened in text mode -/
def translate : List Char → List Char
  | [] => []
  | '\r' :: '\n' :: t => '\n' :: translate t
  | '\r' :: t => '\n' :: translate t
  | c :: t => c :: translate t

/-- put a character in front of the first line -/
def consFirst (c : Char) : List (List Char) → List (List Char)
  | [] => [[c]]
  | l :: ls => (c :: l) :: ls

/-- the lines of a text with the given line ends, without the ends -/
def splitAt (p : Char → Bool) : List Char → List (List Char)
  | [] => []
  | c :: t => if p c then [] :: splitAt p t else consFirst c (splitAt p t)

/-- `text.splitlines()` for a text without `\r\n` (files are translated before) -/
def splitlines (text : List Char) : List (List Char) := splitAt isLineEnd text

/-- `line.rstrip()` -/
def rstrip (l : List Char) : List Char := l.rdropWhile isSpace

/-- `"\n".join(lines)` -/
def joinNL : List (List Char) → List Char
  | [] => []
  | [l] => l
  | l :: l' :: ls => l ++ '\n' :: joinNL (l' :: ls)

/-- `lines_rstrip(text)`, checkheader.py:37-38 -/
def linesRstrip (text : List Char) : List Char := joinNL ((splitlines text).map rstrip)

/-- `"".join(fp.readlines()[:k])`, checkheader.py:47; `readlines` splits at newlines only -/
def takeLines : Nat → List Char → List Char
  | 0, _ => []
  | _ + 1, [] => []
  | k + 1, c :: t => if c = '\n' then c :: takeLines k t else c :: takeLines (k + 1) t

/-- `check_file_header(fpath, header_tpl)`, checkheader.py:41-52 -/
def checkFileHeader (text tpl : List Char) : Bool :=
  linesRstrip (takeLines (splitlines tpl).length (translate text)) == tpl

/-- what is under a path -/
inductive Node where
  | file (text : List Char)
  | dir (pyFiles : List String)
  | missing

/-- `open(path)`: `OSError` for a directory or a missing file -/
def readFile (fs : String → Node) (path : String) : Py (List Char) :=
  match fs path with
  | .file text => .ok text
  | _ => .error .osError

/-- one entry of `results` -/
def checkOne (fs : String → Node) (tpl : List Char) (results : Dict String Bool) (path : String) :
    Py (Dict String Bool) := do
  let text ← readFile fs path
  return Dict.set results path (checkFileHeader text tpl)

/-- the paths checked for one source, checkheader.py:112-118; `isPy` is `src.suffix in (".py",)` -/
def expand (fs : String → Node) (isPy : String → Bool) (src : String) : Py (List String) :=
  match fs src with
  | .dir l => .ok l
  | _ => if isPy src then .ok [src] else .error .valueError

/-- the loop over the sources, checkheader.py:111-118 -/
def checkSources (fs : String → Node) (isPy : String → Bool) (tpl : List Char) :
    List String → Dict String Bool → Py (Dict String Bool)
  | [], results => .ok results
  | src :: srcs, results => do
    let paths ← expand fs isPy src
    let results ← paths.foldlM (checkOne fs tpl) results
    checkSources fs isPy tpl srcs results

/-- the body of the `try` block, checkheader.py:109-118 -/
def checkBody (fs : String → Node) (isPy : String → Bool) (template : String)
    (sources : List String) : Py (Dict String Bool) := do
  let text ← readFile fs template
  checkSources fs isPy (linesRstrip (translate text)) sources []

/-- the exit code of `check`, checkheader.py:91-151; an invalid file type is an uncaught
`ValueError` -/
def check (fs : String → Node) (isPy : String → Bool) (template : String) (sources : List String) :
    Py Nat :=
  match checkBody fs isPy template sources with
  | .error .osError => .ok 1
  | .error e => .error e
  | .ok results => .ok (if results.all (·.2) then 0 else 1)

end GChop.Header
