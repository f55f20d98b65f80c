/-
scripts/query_mutant_info.py.  `none` stands for an uncaught exception (missing
key, index out of range, failed assertion).
-/
import Verif.Model.Json

namespace Dredd

/-- `d[k]` on a JSON object (query_mutant_info.py 38-48 and others). -/
def Json.get (j : Json) (k : Text) : Option Json :=
  match j with
  | .obj fs => fs.lookup k
  | _ => none

/-- A JSON value that is iterated over (query_mutant_info.py 38-44). -/
def Json.list : Json → Option (List Json)
  | .arr vs => some vs
  | _ => none

/-- A JSON value that is used as a number (query_mutant_info.py 45, 66-69). -/
def Json.int : Json → Option Int
  | .num n => some n
  | _ => none

/-- A JSON value that is used as a string (query_mutant_info.py 94, 267). -/
def Json.text : Json → Option Text
  | .str s => some s
  | _ => none

namespace Query

/-- `MutantInfo` (query_mutant_info.py 28-33). -/
structure MutantInfo where
  kind : Text
  fileInfo : Json
  group : Json
  inst : Option Json
deriving Repr

/-- A Python dictionary; keys in order of first insertion
(query_mutant_info.py 37). -/
abbrev Dict := List (Int × MutantInfo)

/-- `result[k] = v` (query_mutant_info.py 45, 48). -/
def Dict.set (d : Dict) (k : Int) (v : MutantInfo) : Dict :=
  if d.any (·.1 == k) then d.map fun p => if p.1 == k then (k, v) else p else d ++ [(k, v)]

/-- `mapping[k]` and `k in mapping` (query_mutant_info.py 263, 266). -/
def Dict.get (d : Dict) (k : Int) : Option MutantInfo := d.lookup k

/-- The loop over instances (query_mutant_info.py 44-45). -/
def mapInstances (kind : Text) (file group : Json) : List Json → Dict → Option Dict
  | [], d => some d
  | i :: is, d =>
    ((i.get t!"mutationId").bind Json.int).bind fun id =>
      mapInstances kind file group is (d.set id ⟨kind, file, group, some i⟩)

/-- The body of the loop over groups (query_mutant_info.py 41-48). -/
def mapGroup (file group : Json) (d : Dict) : Option Dict :=
  match group with
  | .obj [(key, val)] =>
    if key = t!"replaceExpr" ∨ key = t!"replaceUnaryOperator" ∨ key = t!"replaceBinaryOperator" then
      ((val.get t!"instances").bind Json.list).bind fun is => mapInstances key file group is d
    else if key = t!"removeStmt" then
      ((val.get t!"mutationId").bind Json.int).bind fun id =>
        some (d.set id ⟨key, file, group, none⟩)
    else none
  | _ => none

/-- The loop over groups (query_mutant_info.py 40-48). -/
def mapGroups (file : Json) : List Json → Dict → Option Dict
  | [], d => some d
  | g :: gs, d => (mapGroup file g d).bind (mapGroups file gs)

/-- The loop over tree nodes (query_mutant_info.py 39-48). -/
def mapNodes (file : Json) : List Json → Dict → Option Dict
  | [], d => some d
  | n :: ns, d =>
    ((n.get t!"mutationGroups").bind Json.list).bind fun gs =>
      (mapGroups file gs d).bind (mapNodes file ns)

/-- The loop over files (query_mutant_info.py 38-48). -/
def mapFiles : List Json → Dict → Option Dict
  | [], d => some d
  | f :: fs, d =>
    ((f.get t!"mutationTree").bind Json.list).bind fun ns =>
      (mapNodes f ns d).bind (mapFiles fs)

/-- `build_mutant_to_node_mapping` (query_mutant_info.py 36-49). -/
def mapping (j : Json) : Option Dict :=
  ((j.get t!"infoForFiles").bind Json.list).bind fun fs => mapFiles fs []

/-- `max` of a list of integers, -1 if it is empty (query_mutant_info.py
323). -/
def maxOr : List Int → Int
  | [] => -1
  | k :: ks => ks.foldl max k

/-- What `--largest-mutant-id` prints (query_mutant_info.py 321-324). -/
def largest (j : Json) : Option Int := (mapping j).map fun d => maxOr (d.map (·.1))

/-- Reading a file in text mode translates all line ends to `\n`
(query_mutant_info.py 72; the translation is Python's).  Every byte is taken to
be a character. -/
def universal : Text → Text
  | '\r' :: '\n' :: cs => '\n' :: universal cs
  | '\r' :: cs => '\n' :: universal cs
  | c :: cs => c :: universal cs
  | [] => []

/-- Splitting after each `\n`. (query_mutant_info.py 72.) -/
def splitLines : Text → List Text
  | [] => []
  | c :: cs =>
    if c = '\n' then ['\n'] :: splitLines cs
    else match splitLines cs with
      | [] => [[c]]
      | l :: ls => (c :: l) :: ls

/-- `open(..).readlines()` (query_mutant_info.py 72; the function is
Python's). -/
def readlines (src : Text) : List Text := splitLines (universal src)

/-- `t[a:b]` for non-negative `a`, `b`. (query_mutant_info.py 74, 76, 79.) -/
def slice (t : Text) (a b : Nat) : Text := (t.take b).drop a

/-- The lines with (zero-based) index from `i` to `i + n - 1`, concatenated
(query_mutant_info.py 77-78). -/
def linesFrom (lines : List Text) (i : Nat) : Nat → Option Text
  | 0 => some []
  | n + 1 => do
    let l ← lines[i]?
    let rest ← linesFrom lines (i + 1) n
    return l ++ rest

/-- What `get_text_for_source_range` returns, without the description.
(query_mutant_info.py 60-80.) -/
structure Shown where
  singleLine : Bool
  blank : Text
  text : Text
deriving DecidableEq, Repr

/-- `get_text_for_source_range` (query_mutant_info.py 62-80), on the contents of
the file.  Lines and columns count from 1, so the indices are not negative. -/
def textForRange (src : Text) (start fin : Loc) : Option Shown :=
  let lines := readlines src
  if start.line = fin.line then do
    let l ← lines[start.line - 1]?
    return ⟨true, [], slice l (start.column - 1) (fin.column - 1)⟩
  else do
    let l ← lines[start.line - 1]?
    let mid ← linesFrom lines start.line (fin.line - 1 - start.line)
    let l' ← lines[fin.line - 1]?
    return ⟨false, List.replicate (start.column - 1) ' ',
      l.drop (start.column - 1) ++ mid ++ l'.take (fin.column - 1)⟩

/-- A location of the mutation information (query_mutant_info.py 66-69, 87-88). -/
def locOf (j : Json) : Option Loc :=
  match (j.get t!"line").bind Json.int, (j.get t!"column").bind Json.int with
  | some (.ofNat l), some (.ofNat c) => some ⟨l, c⟩
  | _, _ => none

/-- `get_text_for_source_range` for the range between two named locations of a
group (for instance query_mutant_info.py 86-90). -/
def shown (src : Text) (val : Json) (startKey endKey : Text) : Option Shown :=
  ((val.get startKey).bind locOf).bind fun b =>
  ((val.get endKey).bind locOf).bind fun e => textForRange src b e

/-- `[a-zA-Z0-9_\\.\s]` (query_mutant_info.py 55), for characters below 128. -/
def plainChar (c : Char) : Bool :=
  c.isAlpha || c.isDigit || c == '_' || c == '\\' || c == '.' || c == ' ' || c == '\t' ||
  c == '\n' || c == '\r' || c.toNat == 11 || c.toNat == 12 || (28 ≤ c.toNat && c.toNat ≤ 31)

/-- `parenthesise_if_needed` (query_mutant_info.py 52-57). -/
def parenthesise (t : Text) : Text :=
  if !t.isEmpty && t.all plainChar then t else t!"(" ++ t ++ t!")"

/-- `replacements` (query_mutant_info.py 96-105). -/
def replacements : List (Text × Text) :=
  [(t!"ReplaceWithZeroFloat", t!"0.0"), (t!"ReplaceWithOneFloat", t!"1.0"),
   (t!"ReplaceWithMinusOneFloat", t!"-1.0"), (t!"ReplaceWithZeroInt", t!"0"),
   (t!"ReplaceWithOneInt", t!"1"), (t!"ReplaceWithMinusOneInt", t!"-1"),
   (t!"ReplaceWithTrue", t!"true"), (t!"ReplaceWithFalse", t!"false")]

/-- `insertions` (query_mutant_info.py 106-112). -/
def insertions : List (Text × Text) :=
  [(t!"InsertPreInc", t!"++"), (t!"InsertPreDec", t!"--"), (t!"InsertLNot", t!"!"),
   (t!"InsertNot", t!"~"), (t!"InsertMinus", t!"-")]

/-- `pre_replacements` (query_mutant_info.py 141-147). -/
def preReplacements : List (Text × Text) :=
  [(t!"ReplaceWithMinus", t!"-"), (t!"ReplaceWithNot", t!"~"), (t!"ReplaceWithPreDec", t!"--"),
   (t!"ReplaceWithPreInc", t!"++"), (t!"ReplaceWithLNot", t!"!")]

/-- `post_replacements` (query_mutant_info.py 148-151). -/
def postReplacements : List (Text × Text) :=
  [(t!"ReplaceWithPostDec", t!"--"), (t!"ReplaceWithPostInc", t!"++")]

/-- `action_to_operator` (query_mutant_info.py 194-224). -/
def actionToOperator : List (Text × Text) :=
  [(t!"ReplaceWithAdd", t!"+"), (t!"ReplaceWithDiv", t!"/"), (t!"ReplaceWithMul", t!"*"),
   (t!"ReplaceWithRem", t!"%"), (t!"ReplaceWithSub", t!"-"), (t!"ReplaceWithAddAssign", t!"+="),
   (t!"ReplaceWithAndAssign", t!"&="), (t!"ReplaceWithAssign", t!"="),
   (t!"ReplaceWithDivAssign", t!"/="), (t!"ReplaceWithMulAssign", t!"*="),
   (t!"ReplaceWithOrAssign", t!"|="), (t!"ReplaceWithRemAssign", t!"%="),
   (t!"ReplaceWithShlAssign", t!"<<="), (t!"ReplaceWithShrAssign", t!">>="),
   (t!"ReplaceWithSubAssign", t!"-="), (t!"ReplaceWithXorAssign", t!"^="),
   (t!"ReplaceWithAnd", t!"&"), (t!"ReplaceWithOr", t!"|"), (t!"ReplaceWithXor", t!"^"),
   (t!"ReplaceWithLAnd", t!"&&"), (t!"ReplaceWithLOr", t!"||"), (t!"ReplaceWithEQ", t!"=="),
   (t!"ReplaceWithGE", t!">="), (t!"ReplaceWithGT", t!">"), (t!"ReplaceWithLE", t!"<="),
   (t!"ReplaceWithLT", t!"<"), (t!"ReplaceWithNE", t!"!="), (t!"ReplaceWithShl", t!"<<"),
   (t!"ReplaceWithShr", t!">>")]

/-- What the script prints about a mutant, without headings and range descriptions:
the original text and the replacement (none for a removed statement).
(query_mutant_info.py 91-120, 236-253.) -/
structure Report where
  original : Text
  replacement : Option Text
deriving DecidableEq, Repr

/-- `mutant_info.instance['action']` (query_mutant_info.py 94, 140, 188). -/
def actionOf (m : MutantInfo) : Option Text :=
  m.inst.bind fun i => (i.get t!"action").bind Json.text

/-- The replacement text of `show_info_for_replace_expr` (query_mutant_info.py
113-117). -/
def exprReplacement (e : Shown) (action : Text) : Option Text :=
  match replacements.lookup action with
  | some r => some r
  | none => (insertions.lookup action).map fun op => e.blank ++ op ++ t!" " ++ parenthesise e.text

/-- The replacement text of `show_info_for_replace_unary_operator`
(query_mutant_info.py 152-160). -/
def unaryReplacement (x : Shown) (action : Text) : Option Text :=
  if action = t!"ReplaceWithOperand" then some (x.blank ++ x.text)
  else match preReplacements.lookup action with
    | some op => some (x.blank ++ op ++ t!" " ++ parenthesise x.text)
    | none => (postReplacements.lookup action).map fun op =>
        x.blank ++ parenthesise x.text ++ t!" " ++ op

/-- The replacement text of `show_info_for_replace_binary_operator`
(query_mutant_info.py 189-235). -/
def binaryReplacement (e x y : Shown) (action : Text) : Option Text :=
  let sep := if e.singleLine then t!" " else t!"\n"
  if action = t!"ReplaceWithLHS" then some (x.blank ++ x.text)
  else if action = t!"ReplaceWithRHS" then some (y.blank ++ y.text)
  else (actionToOperator.lookup action).map fun op =>
    x.blank ++ parenthesise x.text ++ sep ++ op ++ sep ++ y.blank ++ parenthesise y.text

/-- `show_info_for_replace_expr` (query_mutant_info.py 83-120). -/
def showExpr (src : Text) (m : MutantInfo) : Option Report :=
  (m.group.get t!"replaceExpr").bind fun val =>
  (shown src val t!"start" t!"end").bind fun e =>
  (actionOf m).bind fun action =>
  (exprReplacement e action).map fun repl => ⟨e.blank ++ e.text, some repl⟩

/-- `show_info_for_replace_unary_operator` (query_mutant_info.py 123-163). -/
def showUnary (src : Text) (m : MutantInfo) : Option Report :=
  (m.group.get t!"replaceUnaryOperator").bind fun val =>
  (shown src val t!"exprStart" t!"exprEnd").bind fun e =>
  (shown src val t!"operandStart" t!"operandEnd").bind fun x =>
  (actionOf m).bind fun action =>
  (unaryReplacement x action).map fun repl => ⟨e.blank ++ e.text, some repl⟩

/-- `show_info_for_replace_binary_operator` (query_mutant_info.py 166-238). -/
def showBinary (src : Text) (m : MutantInfo) : Option Report :=
  (m.group.get t!"replaceBinaryOperator").bind fun val =>
  (shown src val t!"exprStart" t!"exprEnd").bind fun e =>
  (shown src val t!"lhsStart" t!"lhsEnd").bind fun x =>
  (shown src val t!"rhsStart" t!"rhsEnd").bind fun y =>
  (actionOf m).bind fun action =>
  (binaryReplacement e x y action).map fun repl => ⟨e.blank ++ e.text, some repl⟩

/-- `show_info_for_remove_stmt` (query_mutant_info.py 241-253). -/
def showRemove (src : Text) (m : MutantInfo) : Option Report :=
  (m.group.get t!"removeStmt").bind fun val =>
  (shown src val t!"start" t!"end").map fun e => ⟨e.blank ++ e.text, none⟩

/-- The choice between the four functions (query_mutant_info.py 272-288). -/
def report (src : Text) (m : MutantInfo) : Option Report :=
  if m.kind = t!"replaceExpr" then showExpr src m
  else if m.kind = t!"replaceUnaryOperator" then showUnary src m
  else if m.kind = t!"replaceBinaryOperator" then showBinary src m
  else if m.kind = t!"removeStmt" then showRemove src m
  else none

/-- The parts of a path between slashes. (`Path`, query_mutant_info.py 306.) -/
def splitSlash : Text → List Text
  | [] => [[]]
  | c :: cs =>
    if c = '/' then [] :: splitSlash cs
    else match splitSlash cs with
      | [] => [[c]]
      | p :: ps => (c :: p) :: ps

/-- The parts of a path, with slashes between them. (`Path`, query_mutant_info.py
306.) -/
def joinSlash : List Text → Text
  | [] => []
  | [p] => p
  | p :: ps => p ++ '/' :: joinSlash ps

/-- The root of a path: two slashes are kept, three or more become one. (`Path`,
query_mutant_info.py 306.) -/
def pathRoot : Text → Text
  | '/' :: '/' :: '/' :: _ => t!"/"
  | '/' :: '/' :: _ => t!"//"
  | '/' :: _ => t!"/"
  | _ => []

/-- `str(Path(p))` (the arguments are declared with `type=Path`,
query_mutant_info.py 304-306; used in 268 and 271): empty parts and parts `.` are
removed.  The function is that of Python's `pathlib` for POSIX. -/
def pathStr (p : Text) : Text :=
  let q := pathRoot p ++ joinSlash ((splitSlash p).filter fun x => x ≠ [] ∧ x ≠ t!".")
  if q = [] then t!"." else q

/-- The name of the file that is opened (query_mutant_info.py 267-271): `pre` and
`post` are the two prefixes as given by the user, `os.sep` is `/`. -/
def originalFile (pre post filename : Text) : Text :=
  let rest := filename.drop (pathStr pre).length
  let rest := if rest.head? = some '/' then rest.drop 1 else rest
  pathStr post ++ t!"/" ++ rest

/-- `show_info_for_mutant` (query_mutant_info.py 256-288) with both prefixes
given; `read` gives the contents of the files.  The outer `none` is an
exception, the inner one the message that the id is unknown. -/
def showInfo (j : Json) (id : Int) (pre post : Text) (read : Text → Option Text) :
    Option (Option Report) :=
  (mapping j).bind fun d =>
    match d.get id with
    | none => some none
    | some m =>
      ((m.fileInfo.get t!"filename").bind Json.text).bind fun filename =>
      (read (originalFile pre post filename)).bind fun src => (report src m).map some

end Query

end Dredd
