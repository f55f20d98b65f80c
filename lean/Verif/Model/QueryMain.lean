/-
The query script as a whole: what it prints and its exit status (scripts/query_mutant_info.py).
-/
import Verif.Model.Query

namespace Dredd
namespace Query

/-- The arguments, as `argparse` delivers them (query_mutant_info.py 291-316): the two prefixes, whether
the largest id is asked for, and the id that is asked for. -/
structure Args where
  prefixes : Option (Text × Text)
  largest : Bool
  shown : Option Int

/-- `filename_without_prefix` (query_mutant_info.py 267-270). -/
def withoutPrefix (pre filename : Text) : Text :=
  let rest := filename.drop (pathStr pre).length
  if rest.head? = some '/' then rest.drop 1 else rest

/-- `range_description` (query_mutant_info.py 70). -/
def rangeDescription (name : Text) (start fin : Loc) : Text :=
  name ++ t!", " ++ natDec start.line ++ t!":" ++ natDec start.column ++ t!"--" ++ natDec fin.line ++ t!":" ++
    natDec fin.column

/-- The locations that are passed for the range which is described: the names of the alternative and of
its fields (query_mutant_info.py 86-90, 127-131, 170-174, 245-249). -/
def describedRange (m : MutantInfo) (key startKey endKey : Text) : Option (Loc × Loc) :=
  (m.group.get key).bind fun val =>
  ((val.get startKey).bind locOf).bind fun b =>
  ((val.get endKey).bind locOf).map fun e => (b, e)

/-- What `print(f"… at {range_description}\n")`, `print("…:\n")` and `print(f"{blank}{text}\n")` write, up to
the first of the two line ends of the last call (query_mutant_info.py 91-93, 137-139, 185-187, 250-252). -/
def printOriginal (title label description original : Text) : Text :=
  title ++ t!" at " ++ description ++ t!"\n\n" ++ label ++ t!":\n\n" ++ original ++ t!"\n"

/-- The other line end and the replacement (query_mutant_info.py 118-119, 161-162, 236-237). -/
def printReplacement (replacement : Text) : Text :=
  t!"\nReplacement expression:\n\n" ++ replacement ++ t!"\n\n"

/-- What the four functions print that show a mutant (query_mutant_info.py 83-120, 123-163, 166-238,
241-253), where `r` is `report`. -/
def printReport (name : Text) (m : MutantInfo) (r : Report) : Option Text :=
  if m.kind = t!"replaceExpr" then
    (describedRange m t!"replaceExpr" t!"start" t!"end").bind fun p => r.replacement.map fun t =>
      printOriginal t!"Replace expression" t!"Original expression" (rangeDescription name p.1 p.2) r.original ++
        printReplacement t
  else if m.kind = t!"replaceUnaryOperator" then
    (describedRange m t!"replaceUnaryOperator" t!"exprStart" t!"exprEnd").bind fun p => r.replacement.map fun t =>
      printOriginal t!"Replace unary operator expression" t!"Original unary operator expression"
        (rangeDescription name p.1 p.2) r.original ++ printReplacement t
  else if m.kind = t!"replaceBinaryOperator" then
    (describedRange m t!"replaceBinaryOperator" t!"exprStart" t!"exprEnd").bind fun p => r.replacement.map fun t =>
      printOriginal t!"Replace binary operator expression" t!"Original binary operator expression"
        (rangeDescription name p.1 p.2) r.original ++ printReplacement t
  else
    (describedRange m t!"removeStmt" t!"start" t!"end").map fun p =>
      printOriginal t!"Remove statement" t!"This is the removed statement" (rangeDescription name p.1 p.2) r.original

/-- The message if the prefixes are missing (query_mutant_info.py 258-259). -/
def missingPrefixes : Text :=
  t!"Missing: path to the root of the mutated code, and path to the root of the non-mutated code. From " ++
  t!"these prefixes onwards, the source trees should have the same content.\n"

/-- `show_info_for_mutant` (query_mutant_info.py 256-288): what is printed and the value returned.  `none` is
an exception; what has been printed before it is not modelled. -/
def showInfoForMutant (a : Args) (id : Int) (d : Dict) (read : Text → Option Text) : Option (Text × Nat) :=
  match a.prefixes with
  | none => some (missingPrefixes, 1)
  | some (pre, post) =>
    match d.get id with
    | none => some (t!"Unknown mutant id: " ++ intDec id ++ t!"\n", 1)
    | some m =>
      ((m.fileInfo.get t!"filename").bind Json.text).bind fun filename =>
      (read (originalFile pre post filename)).bind fun src =>
      (report src m).bind fun r =>
      (printReport (withoutPrefix pre filename) m r).map fun t => (t, 0)

/-- `main` (query_mutant_info.py 291-330), on the contents of the mutation information file: what is
printed and the exit status. -/
def script (j : Json) (a : Args) (read : Text → Option Text) : Option (Text × Nat) :=
  (mapping j).bind fun d =>
    if a.largest then some (intDec (maxOr (d.map (·.1))) ++ t!"\n", 0)
    else match a.shown with
      | some id => showInfoForMutant a id d read
      | none => some (t!"No action specified.\n", 1)

end Query
end Dredd
