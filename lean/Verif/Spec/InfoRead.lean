/-
What is recorded about the ranges of a syntax tree, as far as it comes from the text, and what a reader
of the mutation information should be shown.
-/
import Verif.Model.Util
import Verif.Model.Query
import Verif.Model.Analyse
import Verif.Spec.Eligible

namespace Dredd

/-- The text of a range. -/
def Span.text (sp : Span) (src : Text) : Text := (src.take sp.e).drop sp.b

/-- What is recorded for a statement or expression with a place in the file are the line and column of its
first and behind its last character, as util.cc 121-166 computes them from its last token; `lastTok e`
is where the token begins that ends at `e`. -/
def InfoRead (f : ParsedFile) (lastTok : Nat → Nat) : Prop :=
  ∀ p above s ks sp, Place f.ast p above (.stmt s ks) → s.range = some sp →
    sp.b ≤ lastTok sp.e ∧ lastTok sp.e < sp.e ∧ sp.e ≤ f.src.length ∧
      s.info = infoForRange f.src sp.b (lastTok sp.e) (sp.e - lastTok sp.e)

/-- No statement or expression ends with a token that goes over several lines. -/
def LastTokensOneLine (f : ParsedFile) (lastTok : Nat → Nat) : Prop :=
  ∀ p above s ks sp, Place f.ast p above (.stmt s ks) → s.range = some sp →
    '\n' ∉ (⟨lastTok sp.e, sp.e⟩ : Span).text f.src

/-- What is shown is the text of the range, possibly after spaces, and it is known whether it is on one
line. -/
structure ShownFor (src : Text) (sp : Span) (x : Query.Shown) : Prop where
  text : x.text = sp.text src
  blank : ∀ c ∈ x.blank, c = ' '
  single : x.singleLine = true ↔ '\n' ∉ sp.text src

end Dredd
