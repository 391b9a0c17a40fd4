import Mathlib.Data.List.Basic

/-!
# Model of `format_error_message`, `/repo/src/jax_act/core/utils.py:13-25`

Strings are lists of characters.  The two functions of Python's `textwrap` that it calls are modelled
from CPython's `Lib/textwrap.py` (3.13 and earlier), with the regular expressions expanded.
-/

namespace JaxAct.Text

/-- A string. -/
abbrev Str := List Char

/-- The pieces of a string between its newlines (`text.split("\n")`); the regular expressions of
`dedent` use `^` and `$` in multi-line mode, which only know `"\n"`. -/
def lines : Str → List Str
  | [] => [[]]
  | c :: cs =>
    if c = '\n' then [] :: lines cs
    else
      match lines cs with
      | [] => [[c]]
      | l :: ls => (c :: l) :: ls

/-- `"\n".join(ls)`. -/
def unlines : List Str → Str
  | [] => []
  | [l] => l
  | l :: l' :: ls => l ++ '\n' :: unlines (l' :: ls)

/-- The character class `[ \t]`. -/
def isBlank (c : Char) : Bool := c = ' ' || c = '\t'

/-- `_whitespace_only_re.sub('', text)` on one line: a line of blanks becomes empty. -/
def normalize (l : Str) : Str := if l.all isBlank then [] else l

/-- The loop `for i, (x, y) in enumerate(zip(margin, indent)): if x != y: margin = margin[:i]; break`;
without a mismatch the margin is kept. -/
def firstMismatch : Str → Str → Str
  | x :: m, y :: i => if x ≠ y then [] else x :: firstMismatch m i
  | m, _ => m

/-- One round of the margin loop of `dedent`. -/
def marginStep (margin : Option Str) (indent : Str) : Option Str :=
  match margin with
  | none => some indent
  | some m =>
    if m.isPrefixOf indent then some m
    else if indent.isPrefixOf m then some indent
    else some (firstMismatch m indent)

/-- `_leading_whitespace_re.findall(text)`: the leading blanks of each line that has another
character. -/
def indents (ls : List Str) : List Str :=
  ls.filterMap fun l => if l.all isBlank then none else some (l.takeWhile isBlank)

/-- The margin found by `dedent`; `None` if there is no line. -/
def margin (ls : List Str) : Option Str := (indents ls).foldl marginStep none

/-- `re.sub(r'(?m)^' + margin, '', text)` on one line. -/
def stripMargin (m l : Str) : Str := if m.isPrefixOf l then l.drop m.length else l

/-- `textwrap.dedent`. -/
def dedent (text : Str) : Str :=
  let ls := (lines text).map normalize
  match margin ls with
  | none => unlines ls
  | some [] => unlines ls
  | some m => unlines (ls.map (stripMargin m))

/-- The line boundaries of `str.splitlines` other than `"\r\n"`. -/
def isBreak (c : Char) : Bool :=
  c ∈ ['\n', '\r', '\x0b', '\x0c', '\x1c', '\x1d', '\x1e', '\u0085', '\u2028', '\u2029']

/-- The characters `str.strip` removes. -/
def isSpace (c : Char) : Bool :=
  c ∈ ['\t', '\n', '\x0b', '\x0c', '\r', '\x1c', '\x1d', '\x1e', '\x1f', ' ', '\u0085', '\u00a0',
    '\u1680', '\u2000', '\u2001', '\u2002', '\u2003', '\u2004', '\u2005', '\u2006',
    '\u2007', '\u2008', '\u2009', '\u200a', '\u2028', '\u2029', '\u202f', '\u205f',
    '\u3000']

/-- `text.splitlines(True)`; `cur` is the line read so far, reversed. -/
def splitlinesFrom (cur : Str) : Str → List Str
  | [] => if cur = [] then [] else [cur.reverse]
  | '\r' :: '\n' :: cs => (cur.reverse ++ ['\r', '\n']) :: splitlinesFrom [] cs
  | c :: cs =>
    if isBreak c then (cur.reverse ++ [c]) :: splitlinesFrom [] cs
    else splitlinesFrom (c :: cur) cs

/-- `text.splitlines(True)`. -/
def splitlines (text : Str) : List Str := splitlinesFrom [] text

/-- `textwrap.indent(text, prefix)`: the prefix goes before each line with `line.strip()` not empty. -/
def indent (text pre : Str) : Str :=
  ((splitlines text).map fun l => if l.all isSpace then l else pre ++ l).flatten

/-- `format_error_message`, `utils.py:13-25`. -/
def formatErrorMessage (message context : Str) : Str :=
  let context := dedent context
  let message := dedent message
  let message := indent message "    ".toList
  context ++ "\n".toList ++ message

end JaxAct.Text
