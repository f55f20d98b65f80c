/-
C32: a range is handed to the editing code only if both its ends are in the main
file, directly or as the matching extreme of a macro expansion there.
-/
import Verif.Model.Util

namespace Dredd

/-- Which end of a range. -/
inductive End
  | start | fin
deriving DecidableEq

/-- `Extreme x l m`: the token `l` of a macro expansion is at the very start
(or end) of that expansion, and of all expansions around it, and the outermost one
starts (ends) at `m`. -/
inductive Extreme : End → SLoc → SLoc → Prop
  | start {s la b e} : b.isMacro = false → Extreme .start (.exp s true la b e) b
  | startUp {s la b e m} : Extreme .start b m → Extreme .start (.exp s true la b e) m
  | fin {s fi b e} : e.isMacro = false → Extreme .fin (.exp s fi true b e) e
  | finUp {s fi b e m} : Extreme .fin e m → Extreme .fin (.exp s fi true b e) m

/-- Where an end of a range is in the main file: at the location itself, or where
the macro expansion that it is the matching extreme of begins (ends).  Tokens
made by pasting have no such place. -/
inductive InMain (main : Nat) (x : End) : SLoc → Nat → Prop
  | direct {o} : InMain main x (.file main o) o
  | expansion {l o} : l.inScratch = false → Extreme x l (.file main o) → InMain main x l o

theorem Extreme.isMacro {x l m} (h : Extreme x l m) : l.isMacro = true := by cases h <;> rfl

theorem startOfExpansion_iff (l m : SLoc) :
    l.startOfExpansion = some m ↔ Extreme .start l m := by
  induction l generalizing m with
  | invalid => exact ⟨nofun, nofun⟩
  | file f o => exact ⟨nofun, nofun⟩
  | exp s fi la b e ihb _ =>
    rw [SLoc.startOfExpansion]
    constructor
    · intro h
      split at h
      · rename_i hf
        subst hf
        split at h
        · exact .startUp ((ihb m).1 h)
        · rename_i hm
          cases h
          exact .start (by simpa using hm)
      · cases h
    · intro h
      cases h with
      | start hm => simp [hm]
      | startUp hu => simp [hu.isMacro, (ihb m).2 hu]

theorem endOfExpansion_iff (l m : SLoc) :
    l.endOfExpansion = some m ↔ Extreme .fin l m := by
  induction l generalizing m with
  | invalid => exact ⟨nofun, nofun⟩
  | file f o => exact ⟨nofun, nofun⟩
  | exp s fi la b e _ ihe =>
    rw [SLoc.endOfExpansion]
    constructor
    · intro h
      split at h
      · rename_i hf
        subst hf
        split at h
        · exact .finUp ((ihe m).1 h)
        · rename_i hm
          cases h
          exact .fin (by simpa using hm)
      · cases h
    · intro h
      cases h with
      | fin hm => simp [hm]
      | finUp hu => simp [hu.isMacro, (ihe m).2 hu]

theorem inFile_iff (main : Nat) (l : SLoc) : l.inFile main = true ↔ ∃ o, l = .file main o := by
  cases l <;> simp [SLoc.inFile]

theorem InMain.of_file {main x l o} (h : InMain main x l o) (hf : l.isMacro = false) :
    l = .file main o := by
  cases h with
  | direct => rfl
  | expansion _ he => rw [he.isMacro] at hf; cases hf

/-- One end: the result is the place in the main file, and invalid if there is
none. -/
theorem extremeInMainFile_spec (main : Nat) (l : SLoc) (x : End) :
    (∃ o, extremeInMainFile main l (x == .start) = .file main o ∧ InMain main x l o) ∨
    (extremeInMainFile main l (x == .start) = .invalid ∧ ∀ o, ¬ InMain main x l o) := by
  unfold extremeInMainFile
  split
  · rename_i h
    obtain ⟨o, rfl⟩ := (inFile_iff _ _).1 h
    exact .inl ⟨o, rfl, .direct⟩
  · rename_i h
    split
    · rename_i hm
      refine .inr ⟨rfl, fun o ho => ?_⟩
      cases ho.of_file (by simpa using hm)
      simp [SLoc.inFile] at h
    · rename_i hm
      split
      · rename_i hs
        refine .inr ⟨rfl, fun o ho => ?_⟩
        cases ho with
        | direct => simp [SLoc.isMacro] at hm
        | expansion h1 _ => rw [hs] at h1; cases h1
      · rename_i hs
        have key : ∀ m, (if (x == .start) = true then l.startOfExpansion else l.endOfExpansion)
            = some m ↔ Extreme x l m := by
          intro m
          cases x
          · exact startOfExpansion_iff l m
          · exact endOfExpansion_iff l m
        split
        · rename_i hn
          refine .inr ⟨rfl, fun o ho => ?_⟩
          cases ho with
          | direct => simp [SLoc.isMacro] at hm
          | expansion _ he => rw [(key _).2 he] at hn; cases hn
        · rename_i m hsome
          have he := (key m).1 hsome
          split
          · rename_i hin
            obtain ⟨o, rfl⟩ := (inFile_iff _ _).1 hin
            exact .inl ⟨o, rfl, .expansion (by simpa using hs) he⟩
          · rename_i hin
            refine .inr ⟨rfl, fun o ho => ?_⟩
            cases ho with
            | direct => simp [SLoc.isMacro] at hm
            | expansion _ he' =>
              have := (key _).2 he'
              rw [hsome] at this
              cases this
              simp [SLoc.inFile] at hin

/-- C32: a range is produced exactly if both ends have a place in the main file,
and it consists of these places. -/
theorem C32_range (main : Nat) (b e : SLoc) (r : SLoc × SLoc) :
    rangeInMainFile main b e = some r ↔
      ∃ o o', r = (.file main o, .file main o') ∧ InMain main .start b o ∧
        InMain main .fin e o' := by
  have hb := extremeInMainFile_spec main b .start
  have he := extremeInMainFile_spec main e .fin
  simp only [show ((End.start == End.start) = true) from rfl,
    show ((End.fin == End.start) = false) from rfl] at hb he
  unfold rangeInMainFile
  rcases hb with ⟨o, hb1, hb2⟩ | ⟨hb1, hb2⟩
  · rcases he with ⟨o', he1, he2⟩ | ⟨he1, he2⟩
    · simp only [hb1, he1, Option.some.injEq]
      constructor
      · rintro rfl
        exact ⟨o, o', rfl, hb2, he2⟩
      · rintro ⟨p, p', rfl, h1, h2⟩
        have u1 : ∀ {x : End} {l : SLoc} {o p : Nat}, InMain main x l o → InMain main x l p →
            o = p := by
          intro x l o p h1 h2
          cases h1 with
          | direct => cases h2.of_file rfl; rfl
          | expansion _ e1 =>
            cases h2 with
            | direct => cases e1
            | expansion _ e2 =>
              cases x
              · have := (startOfExpansion_iff _ _).2 e1
                rw [(startOfExpansion_iff _ _).2 e2] at this
                cases this; rfl
              · have := (endOfExpansion_iff _ _).2 e1
                rw [(endOfExpansion_iff _ _).2 e2] at this
                cases this; rfl
        rw [u1 hb2 h1, u1 he2 h2]
    · simp only [hb1, he1]
      constructor
      · nofun
      · rintro ⟨p, p', _, _, h2⟩
        exact absurd h2 (he2 p')
  · simp only [hb1]
    constructor
    · nofun
    · rintro ⟨p, p', _, h1, _⟩
      exact absurd h1 (hb2 p)

/-- A range whose first token is the first token of an argument-free macro that
is expanded inside another macro at offset 40 of the main file, and whose last
token is at offset 57 of the main file. -/
example : rangeInMainFile 1
    (.exp false true false (.exp false true true (.file 1 40) (.file 1 44)) (.file 3 9))
    (.file 1 57) = some (.file 1 40, .file 1 57) := by decide

/-- In the middle of an expansion, in another file, and pasted. -/
example : rangeInMainFile 1 (.exp false false true (.file 1 40) (.file 1 44)) (.file 1 57) = none ∧
    rangeInMainFile 1 (.file 1 4) (.file 2 57) = none ∧
    rangeInMainFile 1 (.exp true true true (.file 1 40) (.file 1 44)) (.file 1 57) = none := by
  decide

end Dredd
