/-
C65: the prelude uses only names that it or the headers it includes declare, and leaves the rest of
the file alone.
-/
import Verif.Proofs.PreludeParts
import Verif.Props.C59
import Verif.Proofs.CSemFile

namespace Dredd

open MiniC PreludeRead

/-- C65, C: every name that is used is a keyword, declared by the prelude itself, or declared by a
header that is included, whichever macros the compiler defines. -/
theorem C65_c (l : Lang) (hl : l.cpp = false) (o : Options) (first n : Nat) (defined : Text → Bool) :
    undeclared l.cpp defined (preludeText l o first n) = some [] := by
  obtain ⟨k, h⟩ := prelude_parts l o first n defined
  rw [undeclared, h, hl]
  generalize defined t!"_MSC_VER" = a
  generalize defined t!"__APPLE__" = b
  generalize o.track = track
  cases track <;> cases a <;> cases b <;> with_unfolding_all rfl

/-- The names that the C++ prelude uses without including a header that has to declare them. -/
def cppUndeclared (track : Bool) : List (List Text) :=
  if track then [[t!"std", t!"getenv"]]
  else [[t!"uint64_t"], [t!"std", t!"getenv"], [t!"size_t"], [t!"uint64_t"], [t!"uint64_t"]]

theorem cpp_undeclared (l : Lang) (hl : l.cpp = true) (o : Options) (first n : Nat) (defined : Text → Bool) :
    undeclared l.cpp defined (preludeText l o first n) = some (cppUndeclared o.track) := by
  obtain ⟨k, h⟩ := prelude_parts l o first n defined
  rw [undeclared, h, hl]
  generalize defined t!"_MSC_VER" = a
  generalize defined t!"__APPLE__" = b
  generalize o.track = track
  cases track <;> cases a <;> cases b <;> with_unfolding_all rfl

/-- C65, C++ (partial): every name is declared, apart from `std::getenv`, and `uint64_t` and `size_t`
without `std::`.  What is missing: these three. -/
theorem C65_cpp_partial (l : Lang) (hl : l.cpp = true) (o : Options) (first n : Nat) (defined : Text → Bool) :
    ∃ xs, undeclared l.cpp defined (preludeText l o first n) = some xs ∧
      ∀ x ∈ xs, x = [t!"std", t!"getenv"] ∨ x = [t!"uint64_t"] ∨ x = [t!"size_t"] := by
  refine ⟨_, cpp_undeclared l hl o first n defined, ?_⟩
  cases o.track <;> decide +kernel

/-- C65 is false for C++: no header that is included has to declare `std::getenv` (`cstdlib` does),
whatever the options and the number of mutants. -/
theorem C65_false_getenv (l : Lang) (hl : l.cpp = true) (o : Options) (first n : Nat) (defined : Text → Bool) :
    ∃ xs, undeclared l.cpp defined (preludeText l o first n) = some xs ∧ [t!"std", t!"getenv"] ∈ xs := by
  refine ⟨_, cpp_undeclared l hl o first n defined, ?_⟩
  cases o.track <;> decide +kernel

/-- C65: at file scope the prelude declares only names that begin with `__dredd_`. -/
theorem C65_names (l : Lang) (o : Options) (first n : Nat) (defined : Text → Bool) :
    ∃ p ts f, readParts l.cpp defined (preludeText l o first n) = some (p, ts, f) ∧
      ∀ x ∈ f.fileNames, t!"__dredd_" <+: x := by
  obtain ⟨k, h⟩ := prelude_parts l o first n defined
  rw [h]
  have key : ∃ f, partsOf l.cpp (frontHeaders l.cpp o.track (defined t!"_MSC_VER") (defined t!"__APPLE__"))
      (frontMacros o.track (defined t!"_MSC_VER") (defined t!"__APPLE__"))
      (preludeToks l.cpp o.track first n).flatten = some f ∧
      f.fileNames = if o.track then [t!"__dredd_record_covered_mutants"]
        else [t!"__dredd_some_mutation_enabled", t!"__dredd_enabled_mutation"] := by
    generalize defined t!"_MSC_VER" = a
    generalize defined t!"__APPLE__" = b
    generalize o.track = track
    generalize l.cpp = cpp
    cases cpp <;> cases track <;> cases a <;> cases b <;>
      exact ⟨_, by with_unfolding_all rfl, by with_unfolding_all rfl⟩
  obtain ⟨f, h1, h2⟩ := key
  refine ⟨_, _, f, by dsimp only; rw [h1]; rfl, ?_⟩
  rw [h2]
  split
  · simp only [List.mem_cons, List.not_mem_nil, or_false]
    rintro x rfl
    exact ⟨_, rfl⟩
  · simp only [List.mem_cons, List.not_mem_nil, or_false]
    rintro x (rfl | rfl) <;> exact ⟨_, rfl⟩

/-- C65: so do the generated functions. -/
theorem C65_functions (o : Options) (req : Bool) (first : Nat) (f : SourceFile) (out : Text)
    (hr : ∀ m ∈ f.tree.post, m.Readable f.lang)
    (h : (handleTU o req first f).output = some out)
    (hloc : f.preludeOff.getD 0 ≤ f.src.length) :
    ∃ (front defs back : Text) (fs : List CFn),
      out = front ++ (preludeText f.lang o first ((handleTU o req first f).nextId - first) ++ defs)
        ++ back ∧
      readFns defs = some fs ∧ ∀ g ∈ fs, t!"__dredd_replace_" <+: g.name := by
  obtain ⟨front, defs, back, fs, h1, h2, -, h3, -⟩ := C59 o req first f out hr h hloc
  refine ⟨front, defs, back, fs, h1, h2, fun g hg => ?_⟩
  obtain ⟨m, -, id, fn, hfn, he⟩ := h3 g hg
  rw [he]
  exact decls_replace m f.lang o first id fn hfn

theorem macros_after (l : Lang) (o : Options) (first n : Nat) (defined : Text → Bool) :
    macrosAfter l.cpp defined (preludeText l o first n) =
      some (frontMacros o.track (defined t!"_MSC_VER") (defined t!"__APPLE__") ++
        if l.cpp then [] else (frontHeaders l.cpp o.track (defined t!"_MSC_VER") (defined t!"__APPLE__")).flatMap
          fun h => (headerMacros.lookup h).getD []) := by
  obtain ⟨k, h, -⟩ := prelude_front l o first n defined
  rw [macrosAfter, h]
  rfl

theorem expand_same {ms : List (Text × List Text)} {ts : List Text}
    (h : ∀ t ∈ ts, ms.lookup t = none) : expand ms ts = ts := by
  induction ts with
  | nil => rfl
  | cons t ts ih =>
    simp only [expand, List.flatMap_cons]
    rw [h t (by simp)]
    have := ih fun u hu => h u (by simp [hu])
    rw [expand] at this
    simp [this]

theorem lookup_none {ms : List (Text × List Text)} {t : Text} (h : ∀ m ∈ ms, m.1 ≠ t) :
    ms.lookup t = none := by
  induction ms with
  | nil => rfl
  | cons m ms ih =>
    obtain ⟨a, b⟩ := m
    rw [List.lookup_cons, show (t == a) = false from by simpa using (h (a, b) (by simp)).symm]
    exact ih fun m hm => h m (by simp [hm])

/-- C65 (partial): the tokens of the program behind the prelude stay as they are, in C++ if they are
not `thread_local` or the compiler defines neither `_MSC_VER` nor `__APPLE__` or in a tracking run,
in C if they are not `thread_local`, `bool`, `true` or `false`.  What is missing: these words. -/
theorem C65_rest_partial (l : Lang) (o : Options) (first n : Nat) (defined : Text → Bool) (ts : List Text)
    (hcpp : l.cpp = true → t!"thread_local" ∉ ts ∨ o.track = true ∨
      (defined t!"_MSC_VER" = false ∧ defined t!"__APPLE__" = false))
    (hc : l.cpp = false → t!"thread_local" ∉ ts ∧ t!"bool" ∉ ts ∧ t!"true" ∉ ts ∧ t!"false" ∉ ts) :
    ∃ ms, macrosAfter l.cpp defined (preludeText l o first n) = some ms ∧ expand ms ts = ts := by
  refine ⟨_, macros_after l o first n defined, expand_same fun t ht => lookup_none ?_⟩
  generalize defined t!"_MSC_VER" = a at hcpp ⊢
  generalize defined t!"__APPLE__" = b at hcpp ⊢
  generalize o.track = track at hcpp ⊢
  cases hl : l.cpp with
  | true =>
    rw [if_pos rfl, List.append_nil]
    intro m hm
    rcases hcpp hl with h | rfl | ⟨rfl, rfl⟩
    · have : ∀ track a b : Bool, ∀ m ∈ frontMacros track a b, m.1 = t!"thread_local" := by decide +kernel
      rw [this track a b m hm]
      rintro rfl
      exact h ht
    · cases hm
    · cases track <;> cases hm
  | false =>
    obtain ⟨h1, h2, h3, h4⟩ := hc hl
    intro m hm
    have : ∀ track a b : Bool, ∀ m ∈ frontMacros track a b ++ (if false = true then [] else
        (frontHeaders false track a b).flatMap fun h => (headerMacros.lookup h).getD []),
        m.1 = t!"thread_local" ∨ m.1 = t!"bool" ∨ m.1 = t!"true" ∨ m.1 = t!"false" := by decide +kernel
    rcases this track a b m hm with h | h | h | h <;> (rw [h]; rintro rfl; contradiction)

/-- C65 is false for the rest of the file: on Apple's systems the word `thread_local` of a C++
program, which may stand in front of objects with constructors, becomes `__thread`, which may not. -/
theorem C65_false_thread_local (l : Lang) (hl : l.cpp = true) (o : Options) (ho : o.track = false)
    (first n : Nat) (defined : Text → Bool) (h1 : defined t!"_MSC_VER" = false)
    (h2 : defined t!"__APPLE__" = true) :
    ∃ ms, macrosAfter l.cpp defined (preludeText l o first n) = some ms ∧
      expand ms (tokens t!"thread_local std::string s;") = tokens t!"__thread std::string s;" ∧
      tokens t!"thread_local std::string s;" ≠ tokens t!"__thread std::string s;" := by
  refine ⟨_, macros_after l o first n defined, ?_, by decide +kernel⟩
  rw [hl, ho, h1, h2]
  decide +kernel

/-- C65 is false for the rest of the file: a C program that has its own type `bool` is changed. -/
theorem C65_false_bool (l : Lang) (hl : l.cpp = false) (o : Options) (first n : Nat) (defined : Text → Bool) :
    ∃ ms, macrosAfter l.cpp defined (preludeText l o first n) = some ms ∧
      expand ms (tokens t!"typedef int bool;") = tokens t!"typedef int _Bool;" ∧
      tokens t!"typedef int bool;" ≠ tokens t!"typedef int _Bool;" := by
  refine ⟨_, macros_after l o first n defined, ?_, by decide +kernel⟩
  rw [hl]
  generalize defined t!"_MSC_VER" = a
  generalize defined t!"__APPLE__" = b
  generalize o.track = track
  revert track a b
  decide +kernel

/-- Names are looked up: `std::getenv` is declared where `cstdlib` is included, and is missing where it is
not. -/
example : undeclared true (fun _ => false)
      t!"#include <cstdlib>\nstatic bool f(int i) { return std::getenv(\"A\") != nullptr; }\n" = some [] ∧
    undeclared true (fun _ => false)
      t!"#include <string>\nstatic bool f(int i) { return std::getenv(\"A\") != nullptr; }\n" =
        some [[t!"std", t!"getenv"]] := by
  decide +kernel

/-- The tokens of a program in C++ on other systems. -/
example : ∃ ms, macrosAfter true (fun _ => false) (preludeText ⟨true, true, true, true⟩ Sample.opts 5 26) = some ms ∧
    expand ms (tokens t!"thread_local std::string s;") = tokens t!"thread_local std::string s;" :=
  C65_rest_partial ⟨true, true, true, true⟩ Sample.opts 5 26 _ _ (fun _ => .inr (.inr ⟨rfl, rfl⟩)) (fun h => by cases h)

end Dredd
