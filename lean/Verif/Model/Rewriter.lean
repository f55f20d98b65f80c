/-
The rewriter.  `clang::Rewriter` is not part of the repository; this file
states its documented behaviour in terms of offsets in the original text.  How
the concrete data structure of clang (a buffer with a table of offsets) relates
to this is the subject of `Model/RewriteBuffer.lean` and C57.
-/
import Verif.Model.Sites

namespace Dredd

/-- What an edit inserts with `InsertTextBefore` at offset `o` (for instance
mutation_replace_expr.cc 632-634). -/
def Edit.beforeAt (o : Nat) : Edit → Text
  | .before p t => if p = o then renderPieces t else []
  | _ => []

/-- What an edit inserts with `InsertTextAfterToken` at offset `o` (for instance
mutation_replace_expr.cc 635-638). -/
def Edit.afterAt (o : Nat) : Edit → Text
  | .after p t => if p = o then renderPieces t else []
  | _ => []

/-- The replacement text that an edit puts at `o` with `ReplaceText` (for instance
mutation_replace_binary_operator.cc 656-660). -/
def Edit.replaceAt (o : Nat) : Edit → Text
  | .replace p _ t => if p = o then t else []
  | _ => []

/-- An edit removes the original character at `o` (`ReplaceText`). (for instance
mutation_replace_binary_operator.cc 657.) -/
def Edit.removesAt (o : Nat) : Edit → Bool
  | .replace p n _ => decide (p ≤ o) && decide (o < p + n)
  | _ => false

/-- `InsertTextBefore` puts new text in front of what was inserted at the offset
before. (for instance mutation_replace_binary_operator.cc 699, 705.) -/
def befores (es : List Edit) (o : Nat) : Text := es.reverse.flatMap (Edit.beforeAt o)

/-- `InsertTextAfterToken` puts new text behind what was inserted at the offset
before. (for instance mutation_replace_binary_operator.cc 702, 708.) -/
def afters (es : List Edit) (o : Nat) : Text := es.flatMap (Edit.afterAt o)

/-- Replacement text that `ReplaceText` puts at `o`. (for instance
mutation_replace_binary_operator.cc 657.) -/
def replacements (es : List Edit) (o : Nat) : Text := es.flatMap (Edit.replaceAt o)

/-- The original character at `o` is removed by some `ReplaceText`. (for instance
mutation_replace_binary_operator.cc 657.) -/
def removed (es : List Edit) (o : Nat) : Bool := es.any (Edit.removesAt o)

/-- Everything that is put in front of the original character at `o`.
(mutate_ast_consumer.cc 172.) -/
def slot (es : List Edit) (o : Nat) : Text :=
  befores es o ++ afters es o ++ replacements es o

/-- The rewritten text from offset `o` on. (mutate_ast_consumer.cc 172.) -/
def rewriteFrom (es : List Edit) (o : Nat) : Text → Text
  | [] => slot es o
  | c :: cs => slot es o ++ (if removed es o then [] else [c]) ++ rewriteFrom es (o + 1) cs

/-- The contents written by `overwriteChangedFiles` (mutate_ast_consumer.cc
172). -/
def rewrite (src : Text) (es : List Edit) : Text := rewriteFrom es 0 src

/-- Comparison of `std::string` (mutate_ast_consumer.cc 152): lexicographic by
character. -/
def textLt : Text → Text → Bool
  | _, [] => false
  | [], _ :: _ => true
  | a :: as, b :: bs => decide (a.toNat < b.toNat) || (a == b && textLt as bs)

end Dredd
