import Verif.Model.Libxc
import Verif.Text.PostProcess
/-!
# `gen_repo/libxc/wrap.py`

`wrap_file` reads a C file of libxc with regular expressions and writes a C++ file that registers the parameter structs, the init functions
and the formula found in it.  Here the regular expressions are functions on lists of characters.

Simplifications: `\w`, `\d` and `\s` are the ASCII classes; the set of struct names is a list without duplicates (Python's order of a set is
unspecified); the output is the list of registrations instead of the text of the C++ file (`gen_repo/libxc/wrap.cc.jinja`).
-/
namespace Verif.Model
open Verif.Py

/-- `\d`. -/
def isDigitC (c : Char) : Bool := '0' ≤ c && c ≤ '9'
/-- `\w`. -/
def isWordC (c : Char) : Bool := isDigitC c || ('a' ≤ c && c ≤ 'z') || ('A' ≤ c && c ≤ 'Z') || c == '_'
/-- `\s`, and what `str.strip` removes. -/
def isSpaceC (c : Char) : Bool := c == ' ' || c == '\n' || c == '\t' || c == '\r' || c == '\x0b' || c == '\x0c'

/-! ## The members of a struct (`wrap.py:58-74`) -/

/-- Number of characters up to and including the first `*/`. -/
def closeComment : List Char → Option ℕ
  | [] => none
  | c :: cs => if c = '*' ∧ cs.head? = some '/' then some 2 else (closeComment cs).map (· + 1)

/-- `re.sub(r"/\*(.|[\r\n])*?\*/", "", text)` (`wrap.py:59`); `skip` characters are still to be dropped. -/
def rmCommentsGo : ℕ → List Char → List Char
  | _, [] => []
  | k + 1, _ :: cs => rmCommentsGo k cs
  | 0, c :: cs =>
    if c = '/' ∧ cs.head? = some '*' then
      match closeComment cs.tail with
      | some k => rmCommentsGo (k + 1) cs
      | none => c :: rmCommentsGo 0 cs
    else c :: rmCommentsGo 0 cs

def rmComments (t : List Char) : List Char := rmCommentsGo 0 t

/-- `re.sub(r"\[\d*\]", "", text)` (`wrap.py:61`).  `some ds`: an opening bracket and the digits `ds` (reversed) are pending. -/
def rmDims : Option (List Char) → List Char → List Char
  | none, [] => []
  | some ds, [] => '[' :: ds.reverse
  | none, c :: cs => if c = '[' then rmDims (some []) cs else c :: rmDims none cs
  | some ds, c :: cs =>
    if isDigitC c then rmDims (some (c :: ds)) cs
    else if c = ']' then rmDims none cs
    else if c = '[' then '[' :: (ds.reverse ++ rmDims (some []) cs)
    else '[' :: (ds.reverse ++ c :: rmDims none cs)

/-- `text.split(sep)` for separators given by a predicate (`str.split(";")`, `re.split(",| ", …)`). -/
def splitOnP (sep : Char → Bool) : List Char → List (List Char)
  | [] => [[]]
  | c :: cs =>
    if sep c then [] :: splitOnP sep cs
    else match splitOnP sep cs with
      | [] => [[c]]
      | l :: ls => (c :: l) :: ls

/-- `text.strip()`. -/
def strip (t : List Char) : List Char := ((t.dropWhile isSpaceC).reverse.dropWhile isSpaceC).reverse

/-- The non-empty parts of `re.split(",| ", g)` (`wrap.py:66`). -/
def words (g : List Char) : List (List Char) := (splitOnP (fun c => c == ',' || c == ' ') g).filter fun w => w.length ≠ 0

/-- The members of one declaration (`wrap.py:66-72`). -/
def groupFields (g : List Char) : List (List Char) :=
  match words g with
  | [] => []
  | w :: ws => if w = "const".toList then ws.drop 1 else ws

/-- The members of a struct, given the text between its braces (`wrap.py:58-73`). -/
def structFields (body : List Char) : List (List Char) :=
  ((splitOnP (· == ';') (rmDims none (rmComments body))).map strip).flatMap groupFields

/-! ## Which init function allocates which struct (`wrap.py:23-28`) -/

/-- `(\w*?_init)\(xc_func_type \*p\)` at the head of the text: the group, and the rest. -/
def lazyInit : List Char → Option (List Char × List Char)
  | [] => none
  | c :: cs =>
    if "_init(xc_func_type *p)".toList.isPrefixOf (c :: cs) then some ("_init".toList, (c :: cs).drop "_init(xc_func_type *p)".length)
    else if isWordC c then (lazyInit cs).map fun x => (c :: x.1, x.2) else none

/-- The rest of the text after the first occurrence of a word. -/
def afterFirst (w : List Char) : List Char → Option (List Char)
  | [] => if w = [] then some [] else none
  | c :: cs => if w.isPrefixOf (c :: cs) then some ((c :: cs).drop w.length) else afterFirst w cs

/-- The match of `wrap.py:25` at the head of the text: init function, struct, rest. -/
def matchInit (t : List Char) : Option (List Char × List Char × List Char) := do
  let (init, r) ← lazyInit t
  let r ← afterFirst "libxc_malloc(sizeof(".toList r
  some (init, r.takeWhile isWordC, r.dropWhile isWordC)

/-- `re.findall` of `wrap.py:24-28`; `skip` characters belong to the last match. -/
def findInitsGo : ℕ → List Char → List (List Char × List Char)
  | _, [] => []
  | k + 1, _ :: cs => findInitsGo k cs
  | 0, c :: cs =>
    match matchInit (c :: cs) with
    | some (init, struct, rest) => (init, struct) :: findInitsGo ((c :: cs).length - rest.length - 1) cs
    | none => findInitsGo 0 cs

def findInits (t : List Char) : List (List Char × List Char) := findInitsGo 0 t

/-! ## The definition of a struct (`wrap.py:45-57`) -/

/-- `((?:\n|.)*?)\}\s*?s` at the head of the text: the group, and the rest. -/
def lazyBody (s : List Char) : List Char → Option (List Char × List Char)
  | [] => none
  | c :: cs =>
    if c = '}' ∧ s.isPrefixOf (cs.dropWhile isSpaceC) then some ([], (cs.dropWhile isSpaceC).drop s.length)
    else (lazyBody s cs).map fun x => (c :: x.1, x.2)

/-- The match of `wrap.py:46` at the head of the text. -/
def matchStruct (s t : List Char) : Option (List Char × List Char) :=
  if "typedef struct".toList.isPrefixOf t then
    match (t.drop "typedef struct".length).dropWhile isSpaceC with
    | '{' :: r => lazyBody s r
    | _ => none
  else none

/-- `re.findall` of `wrap.py:45-49`. -/
def findStructsGo (s : List Char) : ℕ → List Char → List (List Char)
  | _, [] => []
  | k + 1, _ :: cs => findStructsGo s k cs
  | 0, c :: cs =>
    match matchStruct s (c :: cs) with
    | some (body, rest) => body :: findStructsGo s ((c :: cs).length - rest.length - 1) cs
    | none => findStructsGo s 0 cs

def findStructs (s t : List Char) : List (List Char) := findStructsGo s 0 t

/-! ## The formula (`wrap.py:30,31`) -/

/-- `(.*).c"` in a line: the group, which ends before the last match of `.c"` (the dot is not escaped and matches any character). -/
def lastAnyC : List Char → Option (List Char)
  | [] => none
  | c :: cs => match lastAnyC cs with
    | some g => some (c :: g)
    | none => if ['c', '"'].isPrefixOf cs then some [] else none

/-- `.*\/(.*).c"` in a line: the group, which starts after the last `/` for which there is a match. -/
def lastSlashC : List Char → Option (List Char)
  | [] => none
  | c :: cs => match lastSlashC cs with
    | some g => some g
    | none => if c = '/' then lastAnyC cs else none

/-- `#include "maple2c\/.*\/(.*).c"` in a line (`wrap.py:30`).  A second match in the same line is impossible, because the group is greedy. -/
def mapleLine (l : List Char) : Option (List Char) := (afterFirst "#include \"maple2c/".toList l).bind lastSlashC

/-- `.*\.c"` in a line: the text before the last match of `.c"`. -/
def lastDotC : List Char → Option (List Char)
  | [] => none
  | c :: cs => match lastDotC cs with
    | some g => some (c :: g)
    | none => if ['.', 'c', '"'].isPrefixOf (c :: cs) then some [] else none

/-- `#include "(work_.*)\.c"` in a line (`wrap.py:31`). -/
def workLine (l : List Char) : Option (List Char) :=
  ((afterFirst "#include \"work_".toList l).bind lastDotC).map fun g => "work_".toList ++ g

/-! ## `wrap_file` -/

/-- What `wrap.cc.jinja` registers. -/
structure Registrations where
  /-- struct, members, init functions -/
  structs : List (List Char × List (List Char) × List (List Char))
  /-- work table, formula -/
  maple : Option (List Char × List Char)
  deriving DecidableEq

/-- `register_maple` (`wrap.py:30-36`), given what the two regular expressions found. -/
def registerMapleOf (maple2c work : List (List Char)) : Except PyErr (Option (List Char × List Char)) :=
  if maple2c.length > 1 then .error .valueError
  else if work.length > 1 then .error .valueError
  else match work with
    | [] => .ok none
    | w :: _ => match maple2c with
      | [] => .error .indexError
      | m :: _ => .ok (some (w, m))

/-- The registration of one struct (`wrap.py:43-74`). -/
def registerStruct (content : List Char) (results : List (List Char × List Char)) (s : List Char) :
    Except PyErr (List Char × List (List Char) × List (List Char)) :=
  match findStructs s content with
  | [body] => .ok (s, structFields body, (results.filter fun x => x.2 = s).map (·.1))
  | _ => .error .runtimeError

/-- `wrap_file` (`wrap.py:20-83`). -/
def wrapFile (content : List Char) : Except PyErr Registrations := do
  let results := findInits content
  let maple2c := (Text.splitLines content).filterMap mapleLine
  let work := (Text.splitLines content).filterMap workLine
  let maple ← registerMapleOf maple2c work
  let structs ← (results.map (·.2)).dedup.mapM (registerStruct content results)
  .ok ⟨structs, maple⟩

end Verif.Model
