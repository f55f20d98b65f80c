/-
The preludes after preprocessing, their tokens and declarations.
-/
import Verif.Spec.Headers
import Verif.Proofs.PreludeReads

namespace Dredd.PreludeRead

open MiniC

/-- The tokens of a prelude. -/
def preludeToks (cpp track : Bool) (first n : Nat) : List (List Tok) :=
  if track then if cpp then recordCppToks first n else recordCToks first n
  else if cpp then enabledCppToks first n else enabledCToks first n

/-- The prelude after preprocessing, and its tokens. -/
theorem prelude_front (l : Lang) (o : Options) (first n : Nat) (d : Text → Bool) : ∃ k,
    preprocess d (preludeText l o first n) =
      some ⟨frontHeaders l.cpp o.track (d t!"_MSC_VER") (d t!"__APPLE__"),
        frontMacros o.track (d t!"_MSC_VER") (d t!"__APPLE__"), [], k⟩ ∧
    toks k = some (preludeToks l.cpp o.track first n).flatten := by
  rw [C53_text]
  have key : ∀ (f : Fun) (ts : List (List Tok)), ReadAll f.lines ts →
      preprocess d (beforeFunctions l o ++ f.lines.flatten) =
        some ⟨frontHeaders l.cpp o.track (d t!"_MSC_VER") (d t!"__APPLE__"),
          frontMacros o.track (d t!"_MSC_VER") (d t!"__APPLE__"), [],
          frontKept l.cpp o.track ++ f.lines.flatten⟩ ∧
      toks (frontKept l.cpp o.track ++ f.lines.flatten) = some ts.flatten := fun f ts hr =>
    ⟨preprocess_append (beforeFunctions_last l o) hr d _ rfl (front_lines l o d),
      toks_front (frontKept_toks l.cpp o.track) hr.toks⟩
  have hr : ReadAll (preludeFun l o first n).lines (preludeToks l.cpp o.track first n) := by
    unfold preludeFun recordFun enabledFun preludeToks
    cases o.track <;> cases l.cpp
    · exact enabledC_toks first n
    · exact enabledCpp_toks first n
    · exact recordC_toks first n
    · exact recordCpp_toks first n
  exact ⟨_, key _ _ hr⟩

/-- The declarations in a list of tokens. -/
def partsOf (cpp : Bool) (hs : List Text) (ms : List (Text × List Text)) (ts : List Tok) : Option PFun :=
  readFun (threadLocal cpp ⟨hs, ms, [], []⟩) (4 * ts.length + 4) [] ts

theorem prelude_parts (l : Lang) (o : Options) (first n : Nat) (d : Text → Bool) : ∃ k,
    readParts l.cpp d (preludeText l o first n) =
      let hs := frontHeaders l.cpp o.track (d t!"_MSC_VER") (d t!"__APPLE__")
      let ms := frontMacros o.track (d t!"_MSC_VER") (d t!"__APPLE__")
      let ts := (preludeToks l.cpp o.track first n).flatten
      (partsOf l.cpp hs ms ts).map fun f => (⟨hs, ms, [], k⟩, ts, f) := by
  obtain ⟨k, h1, h2⟩ := prelude_front l o first n d
  refine ⟨k, ?_⟩
  simp only [readParts, h1, h2, Option.bind_some]
  rfl

end Dredd.PreludeRead
