/-
The data structure behind `clang::Rewriter`: the text of the file as rewritten so far,
and a table of how much the text has grown at which offset of the original.  It belongs
to clang and not to the repository; it is modelled so that `rewrite`
(Model/Rewriter.lean), which says what is written in terms of the original text, can be
compared with what the calls do one after the other.
-/
import Verif.Model.TransUnit

namespace Dredd

/-- `clang::RewriteBuffer`: the text, and the table of deltas.  In the table, text
inserted at offset `o` counts at `2 * o`, and text replaced there at `2 * o + 1`.
(Created by the calls on `rewriter_`, mutate_ast_consumer.cc 97, 157, 168, 247.) -/
structure RewBuf where
  text : Text
  deltas : List (Nat × Int)
deriving Repr

/-- A fresh buffer (`setSourceMgr`, mutate_ast_consumer.cc 97, and the first call for the
file). -/
def RewBuf.start (src : Text) : RewBuf := ⟨src, []⟩

/-- `DeltaTree::getDeltaAt`: the sum of the deltas in front of `k`. (Used by the calls in
mutate_ast_consumer.cc 157, 168, 247.) -/
def RewBuf.deltaAt (b : RewBuf) (k : Nat) : Int :=
  ((b.deltas.filter fun d => decide (d.1 < k)).map (·.2)).sum

/-- `RewriteBuffer::getMappedOffset`: where offset `o` of the original is in the text, in
front of or behind what has been inserted there. (Used by the calls in
mutate_ast_consumer.cc 157, 168, 247.) -/
def RewBuf.mapped (b : RewBuf) (o : Nat) (addInserts : Bool) : Nat :=
  ((o : Int) + b.deltaAt (2 * o + if addInserts then 1 else 0)).toNat

/-- `RewriteBuffer::InsertText`. (mutate_ast_consumer.cc 157, 168;
mutation_replace_expr.cc 632-637.) -/
def RewBuf.insertText (b : RewBuf) (o : Nat) (t : Text) (insertAfter : Bool) : RewBuf :=
  if t.isEmpty then b
  else
    let k := b.mapped o insertAfter
    ⟨b.text.take k ++ t ++ b.text.drop k, (2 * o, (t.length : Int)) :: b.deltas⟩

/-- `RewriteBuffer::ReplaceText`. (mutate_ast_consumer.cc 247;
mutation_replace_binary_operator.cc 657-662.) -/
def RewBuf.replaceText (b : RewBuf) (o n : Nat) (t : Text) : RewBuf :=
  let k := b.mapped o true
  ⟨b.text.take k ++ t ++ b.text.drop (k + n),
    if n ≠ t.length then (2 * o + 1, (t.length : Int) - n) :: b.deltas else b.deltas⟩

/-- `Rewriter::getRangeSize`: the size, in the text as rewritten so far, of the range whose
last token starts at `last` and has `len` characters.  With `insertsAtBegin`, what has
been inserted at its begin counts. (mutate_ast_consumer.cc 247;
mutation_replace_expr.cc 635.) -/
def RewBuf.rangeSize (b : RewBuf) (begin_ last len : Nat) (insertsAtBegin : Bool) : Nat :=
  (b.mapped last true + len) - b.mapped begin_ (!insertsAtBegin)

/-- The calls of the rewriter.
* `insertBefore o t` – `InsertTextBefore`.
* `insertAfterToken o len t` – `InsertTextAfterToken`, for a token of `len` characters.
* `replace o n t` – `ReplaceText` with a location and a length.
* `replaceRange b last len t` – `ReplaceText` with a range of tokens, of which the last has
  `len` characters.
(mutate_ast_consumer.cc 157, 168, 247; mutation_replace_binary_operator.cc 657, 699-710;
mutation_replace_unary_operator.cc 412, 451-456; mutation_replace_expr.cc 632-637;
mutation_remove_stmt.cc 112-115, 119-122, 150-151.) -/
inductive RwCall
  | insertBefore (o : Nat) (t : Text)
  | insertAfterToken (o len : Nat) (t : Text)
  | replace (o n : Nat) (t : Text)
  | replaceRange (b last len : Nat) (t : Text)
deriving Repr

/-- One call. (mutate_ast_consumer.cc 157, 168, 247; mutation_replace_expr.cc
632-637.) -/
def RewBuf.call (b : RewBuf) : RwCall → RewBuf
  | .insertBefore o t => b.insertText o t false
  | .insertAfterToken o len t => b.insertText (o + b.rangeSize o o len false) t true
  | .replace o n t => b.replaceText o n t
  | .replaceRange o last len t => b.replaceText o (b.rangeSize o last len true) t

/-- What `overwriteChangedFiles` writes after the calls (mutate_ast_consumer.cc
172). -/
def bufferText (src : Text) (cs : List RwCall) : Text :=
  (cs.foldl RewBuf.call (.start src)).text

/-- The call behind an edit; `tok p` is the length of the token that ends at offset `p`.
(mutation_replace_binary_operator.cc 657, 699-710; mutation_replace_unary_operator.cc 412,
451-456; mutation_replace_expr.cc 632-637; mutation_remove_stmt.cc 112-115, 119-122,
150-151.) -/
def Edit.toCall (tok : Nat → Nat) : Edit → RwCall
  | .before p t => .insertBefore p (renderPieces t)
  | .after p t => .insertAfterToken (p - tok p) (tok p) (renderPieces t)
  | .replace p n t => .replace p n t

/-- The call that rewrites a constant (mutate_ast_consumer.cc 247). -/
def ConstRewrite.toCall (tok : Nat → Nat) (c : ConstRewrite) : RwCall :=
  .replaceRange c.span.b (c.span.e - tok c.span.e) (tok c.span.e) (natDec c.value)

/-- The calls of the rewriter for a file, in the order in which they are made: those of
`ApplyMutations` (mutate_ast_consumer.cc 119), the constants (128), the declarations
(155-160), the prelude (162-170). -/
def rewriterCalls (tok : Nat → Nat) (f : SourceFile) (o : Options) (first : Nat) (st : TUState) :
    List RwCall :=
  let loc := f.preludeOff.getD 0
  st.edits.map (Edit.toCall tok)
  ++ f.consts.map (ConstRewrite.toCall tok)
  ++ (sortedDecls (st.decls.map MutFn.render)).map (fun d => .insertBefore loc d)
  ++ [.insertBefore loc (preludeText f.lang o first (st.nextId - first))]

/-- The text that `HandleTranslationUnit` writes, by way of the buffer
(mutate_ast_consumer.cc 76-175). -/
def handleTUBuffer (tok : Nat → Nat) (o : Options) (infoRequested : Bool) (id : Nat) (f : SourceFile) :
    Option Text :=
  if f.hasErrors then none
  else
    let st := applyMutations f.lang o id infoRequested f.tree.tidyUp 0
      { nextId := id, nodes := [{}] }
    if st.nextId = id then none else some (bufferText f.src (rewriterCalls tok f o id st))

end Dredd
