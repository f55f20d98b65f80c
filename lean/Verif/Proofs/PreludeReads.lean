/-
The tokens of the preludes are read as their programs.
-/
import Verif.Proofs.PreludeToks
import Verif.Props.C53

namespace Dredd.PreludeRead

open MiniC

/-- What `thread_local` may stand for. -/
def threadWords : List (List Text) :=
  [[t!"thread_local"], [t!"_Thread_local"], [t!"__thread"], [t!"__declspec", t!"(", t!"thread", t!")"]]

/-- The program that the tokens are read as. -/
def readToks (tl : Option (List Text)) (ts : List Tok) : Option Fun :=
  (readFun tl (4 * ts.length + 4) [] ts).bind PFun.resolve

theorem enabledCpp_read (first n : Nat) (tl : List Text) (h : tl ∈ threadWords) :
    readToks (some tl) (enabledCppToks first n).flatten = some (enabledCpp first n).bare := by
  simp only [threadWords, List.mem_cons, List.not_mem_nil, or_false] at h
  rcases h with rfl | rfl | rfl | rfl <;> with_unfolding_all rfl

theorem enabledC_read (first n : Nat) (tl : List Text) (h : tl ∈ threadWords) :
    readToks (some tl) (enabledCToks first n).flatten = some (enabledC first n).bare := by
  simp only [threadWords, List.mem_cons, List.not_mem_nil, or_false] at h
  rcases h with rfl | rfl | rfl | rfl <;> with_unfolding_all rfl

theorem recordCpp_read (first n : Nat) (tl : Option (List Text)) :
    readToks tl (recordCppToks first n).flatten = some (recordCpp first n).bare := by
  with_unfolding_all rfl

theorem recordC_read (first n : Nat) (tl : Option (List Text)) :
    readToks tl (recordCToks first n).flatten = some (recordC first n).bare := by
  with_unfolding_all rfl

/-! ### The directives in front -/

theorem defined_eq (d : Text → Bool) :
    d = fun x => if x = t!"_MSC_VER" then d t!"_MSC_VER"
      else if x = t!"__APPLE__" then d t!"__APPLE__" else d x := by
  funext x
  split
  · rename_i h; rw [h]
  · split
    · rename_i h; rw [h]
    · rfl

/-- The headers that are included. -/
def frontHeaders (cpp track a b : Bool) : List Text :=
  if cpp then [t!"atomic", t!"cinttypes", t!"cstddef", t!"fstream", t!"functional", t!"sstream", t!"string"]
  else [t!"inttypes.h", t!"stdatomic.h", t!"stdbool.h", t!"stdio.h", t!"stdlib.h", t!"string.h"] ++
    if track || a || b then [] else [t!"threads.h"]

/-- The macros that are defined. -/
def frontMacros (track a b : Bool) : List (Text × List Text) :=
  if track then [] else if a then [(t!"thread_local", [t!"__declspec", t!"(", t!"thread", t!")"])]
  else if b then [(t!"thread_local", [t!"__thread"])] else []

/-- The lines that are left. -/
def frontKept (cpp track : Bool) : Text :=
  preludeStart ++ (if cpp then t!"\n" else []) ++ t!"\n" ++ (if track then [] else t!"\n")

set_option maxRecDepth 20000 in
theorem front_lines (l : Lang) (o : Options) (d : Text → Bool) :
    (linesOf (beforeFunctions l o)).foldlM (PP.line d) ⟨[], [], [], []⟩ =
      some ⟨frontHeaders l.cpp o.track (d t!"_MSC_VER") (d t!"__APPLE__"),
        frontMacros o.track (d t!"_MSC_VER") (d t!"__APPLE__"), [], frontKept l.cpp o.track⟩ := by
  rw [defined_eq d]
  generalize d t!"_MSC_VER" = a
  generalize d t!"__APPLE__" = b
  obtain ⟨cpp, l2, l3, l4⟩ := l
  simp only [beforeFunctions]
  generalize o.track = track
  cases cpp <;> cases track <;> cases a <;> cases b <;> with_unfolding_all rfl

theorem frontKept_toks (cpp track : Bool) :
    endSt (frontKept cpp track) = some .white ∧ toks (frontKept cpp track) = some [] := by
  cases cpp <;> cases track <;> decide +kernel

theorem frontMacros_all (track a b : Bool) :
    (frontMacros track a b).all (·.1 = t!"thread_local") = true := by
  cases track <;> cases a <;> cases b <;> decide +kernel

theorem front_thread (cpp a b : Bool) (k : Text) : ∃ tl ∈ threadWords,
    threadLocal cpp ⟨frontHeaders cpp false a b, frontMacros false a b, [], k⟩ = some tl := by
  have key : ∀ cpp a b : Bool, ∃ tl ∈ threadWords,
      threadLocal cpp ⟨frontHeaders cpp false a b, frontMacros false a b, [], []⟩ = some tl := by
    decide +kernel
  exact key cpp a b

theorem toks_front {k t : Text} {ts : List Tok} (hk : endSt k = some .white ∧ toks k = some [])
    (h : toks t = some ts) : toks (k ++ t) = some ts := by
  cases t with
  | nil =>
    cases h
    simpa using hk.2
  | cons c cs =>
    have := toks_ok k cs c (sealed_white hk.1 c) hk.2 h
    simpa using this

theorem beforeFunctions_last (l : Lang) (o : Options) :
    (beforeFunctions l o).getLast? = some '\n' := by
  simp only [beforeFunctions]
  generalize l.cpp = cpp
  generalize o.track = track
  revert cpp track
  decide +kernel

/-- The text of the prelude is read as its program. -/
theorem prelude_read (l : Lang) (o : Options) (first n : Nat) (d : Text → Bool) :
    readPrelude l.cpp d (preludeText l o first n) = some (preludeFun l o first n).bare := by
  rw [C53_text]
  have key : ∀ (f : Fun) (ts : List (List Tok)), ReadAll f.lines ts →
      readToks (threadLocal l.cpp ⟨frontHeaders l.cpp o.track (d t!"_MSC_VER") (d t!"__APPLE__"),
        frontMacros o.track (d t!"_MSC_VER") (d t!"__APPLE__"), [],
        frontKept l.cpp o.track ++ f.lines.flatten⟩) ts.flatten = some f.bare →
      readPrelude l.cpp d (beforeFunctions l o ++ f.lines.flatten) = some f.bare := by
    intro f ts hr h
    rw [readPrelude, preprocess_append (beforeFunctions_last l o) hr d _ rfl (front_lines l o d)]
    simp only [Option.bind_some, frontMacros_all, if_true,
      toks_front (frontKept_toks l.cpp o.track) hr.toks]
    exact h
  unfold preludeFun recordFun enabledFun
  cases ho : o.track with
  | true =>
    simp only [if_true]
    cases hl : l.cpp
    · simp only [Bool.false_eq_true, if_false]
      rw [← hl]
      exact key _ _ (recordC_toks first n) (recordC_read first n _)
    · simp only [if_true]
      rw [← hl]
      exact key _ _ (recordCpp_toks first n) (recordCpp_read first n _)
  | false =>
    simp only [Bool.false_eq_true, if_false]
    cases hl : l.cpp
    · simp only [Bool.false_eq_true, if_false]
      rw [← hl]
      refine key _ _ (enabledC_toks first n) ?_
      rw [ho]
      obtain ⟨tl, h1, h2⟩ := front_thread l.cpp (d t!"_MSC_VER") (d t!"__APPLE__") _
      rw [h2]
      exact enabledC_read first n tl h1
    · simp only [if_true]
      rw [← hl]
      refine key _ _ (enabledCpp_toks first n) ?_
      rw [ho]
      obtain ⟨tl, h1, h2⟩ := front_thread l.cpp (d t!"_MSC_VER") (d t!"__APPLE__") _
      rw [h2]
      exact enabledCpp_read first n tl h1

end Dredd.PreludeRead
