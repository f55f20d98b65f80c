/-
Specification of how a mutated file relates to the original (C31, C46): the two
texts are compared character by character.
-/
import Verif.Model.TransUnit

namespace Dredd

/-- A step of the comparison of the original text with the new text: a character
that is in both, new text, or a character of the original that is gone. -/
inductive Item
  | keep (c : Char)
  | ins (t : Text)
  | del (c : Char)
deriving DecidableEq, Repr

/-- The original text. -/
def Item.oldText : List Item → Text
  | [] => []
  | .keep c :: r | .del c :: r => c :: Item.oldText r
  | .ins _ :: r => Item.oldText r

/-- The new text. -/
def Item.newText : List Item → Text
  | [] => []
  | .keep c :: r => c :: Item.newText r
  | .ins t :: r => t ++ Item.newText r
  | .del _ :: r => Item.newText r

/-- The characters that are gone, with their offsets in the original text; `o` is
the offset of the first step. -/
def Item.gone (o : Nat) : List Item → List (Nat × Char)
  | [] => []
  | .keep _ :: r => Item.gone (o + 1) r
  | .del c :: r => (o, c) :: Item.gone (o + 1) r
  | .ins _ :: r => Item.gone o r

/-- The mutation replaces the operator symbol, which is at `[b, e)`.  (The logical
operators of C keep their symbols, and so do operators that come from a macro.) -/
def Mutation.symbol (l : Lang) : Mutation → Option Span
  | .bin s =>
    if !l.cpp && s.op.isLogical then none else s.opOff.map fun b => ⟨b, b + s.op.str.length⟩
  | .un s => s.opOff.map fun b => ⟨b, b + s.op.str.length⟩
  | .expr _ => none
  | .stmt _ => none

/-- The offset is in the span. -/
def Span.has (sp : Span) (p : Nat) : Prop := sp.b ≤ p ∧ p < sp.e

end Dredd
