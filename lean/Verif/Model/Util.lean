/-
Source locations and ranges: util.cc 34-88, 99-166, 192-214.
-/
import Verif.Model.Sites

namespace Dredd

/-- `clang::SourceLocation`, with what the tool can ask about it.
* `invalid` – the default constructed location.
* `file f o` – offset `o` of the file with `FileID` `f`.
* `exp scratch first last b e` – a token that comes from a macro expansion.
  `scratch`: its spelling is in clang's scratch space (a token made with `##`;
  `isWrittenInScratchSpace`, util.cc 56).  `first`, `last`: it is the first, last
  token of the innermost expansion it belongs to
  (`isAtStart`/`EndOfImmediateMacroExpansion`).  `b`, `e`: where that expansion
  begins and ends; these are locations in a file or, for nested macros, again in
  an expansion. -/
inductive SLoc
  | invalid
  | file (f o : Nat)
  | exp (scratch first last : Bool) (b e : SLoc)
deriving DecidableEq, Repr

/-- `SourceManager::getFileID` (util.cc 38, 81) compared with the id of a file: a
location inside an expansion has a file id of its own, which is that of no
file. -/
def SLoc.inFile (main : Nat) : SLoc → Bool
  | .file f _ => f == main
  | _ => false

/-- `isMacroID` (util.cc 46). -/
def SLoc.isMacro : SLoc → Bool
  | .exp .. => true
  | _ => false

/-- `isWrittenInScratchSpace(getSpellingLoc(..))` (util.cc 56-57). -/
def SLoc.inScratch : SLoc → Bool
  | .exp s _ _ _ _ => s
  | _ => false

/-- `Preprocessor::isAtStartOfMacroExpansion` (called in util.cc 65; the function
is clang's): the token is the first one of its expansion, and so is that
expansion in the one around it, and so on; the result is where the outermost
expansion begins. -/
def SLoc.startOfExpansion : SLoc → Option SLoc
  | .exp _ first _ b _ =>
    if first then if b.isMacro then b.startOfExpansion else some b else none
  | _ => none

/-- `Preprocessor::isAtEndOfMacroExpansion` (called in util.cc 72; the function
is clang's). -/
def SLoc.endOfExpansion : SLoc → Option SLoc
  | .exp _ _ last _ e =>
    if last then if e.isMacro then e.endOfExpansion else some e else none
  | _ => none

/-- `getSourceLocationInMainFileForExtremeOfRange` (util.cc 34-88); `main` is
`getMainFileID()`. -/
def extremeInMainFile (main : Nat) (l : SLoc) (isStart : Bool) : SLoc :=
  if l.inFile main then l
  else if !l.isMacro then .invalid
  else if l.inScratch then .invalid
  else
    match if isStart then l.startOfExpansion else l.endOfExpansion with
    | none => .invalid
    | some m => if m.inFile main then m else .invalid

/-- `GetSourceRangeInMainFile` (util.cc 192-214).  `none` is the invalid
range. -/
def rangeInMainFile (main : Nat) (b e : SLoc) : Option (SLoc × SLoc) :=
  match extremeInMainFile main b true with
  | .invalid => none
  | b' =>
    match extremeInMainFile main e false with
    | .invalid => none
    | e' => some (b', e')

/-- `SourceRangeConsistencyCheck` (util.cc 99-119), on the position of the first
token, the position of the last token and the length of the last token.  The
sum of 114-116 is on `unsigned int` and assumed not to overflow. -/
def consistent (start last : Loc) (len : Nat) : Bool :=
  decide (start.line < last.line) || decide (start.column < last.column + len)

/-- `SourceManager::getSpellingLineNumber` (called in util.cc 109, 113, 136, 139;
the function is clang's), for a file with line ends `\n`. -/
def lineOf (src : Text) (o : Nat) : Nat := (src.take o).count '\n' + 1

/-- `SourceManager::getSpellingColumnNumber` (called in util.cc 111, 115, 138,
140; the function is clang's), for a file with line ends `\n`. -/
def columnOf (src : Text) (o : Nat) : Nat :=
  ((src.take o).reverse.takeWhile (· != '\n')).length + 1

/-- `StringRef::substr` (called in util.cc 154-164; the function is LLVM's). -/
def substr (t : Text) (start n : Nat) : Text := (t.drop start).take n

/-- `kSnipText` (util.cc 149). -/
def snipText : Text := t!" ... [snip] ... "

/-- `length` (util.cc 146-147): `unsigned int` arithmetic. -/
def rangeLength (b last len : Nat) : Nat :=
  (BitVec.ofNat 32 last - BitVec.ofNat 32 b + BitVec.ofNat 32 len).toNat

/-- `snippet_` (util.cc 149-165).  The range begins at offset `b`; its last token
is at offset `last` and has length `len`. -/
def snippet (src : Text) (b last len : Nat) : Text :=
  let length := rangeLength b last len
  let side := 10
  if length ≤ snipText.length + 2 * side then substr src b length
  else substr src b side ++ snipText ++ substr src (b + length - side) side

/-- The constructor of `InfoForSourceRange` (util.cc 121-166). -/
def infoForRange (src : Text) (b last len : Nat) : RangeInfo where
  start := ⟨lineOf src b, columnOf src b⟩
  fin := ⟨lineOf src last, columnOf src last + len⟩
  snippet := snippet src b last len

end Dredd
