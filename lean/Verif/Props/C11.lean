/-
C11: malformed values of DREDD_ENABLED_MUTATION.

Full statement: if some entry is not an integer in `int` range, the program
stops with an error.  It is false for both preludes (`C11_full_false_cpp`,
`C11_full_false_c`).  The theorems below describe what happens for every text.
-/
import Verif.Proofs.PreludeText

namespace Dredd

/-- C++: an entry that does not begin with an integer in `int` range makes the
first query throw, whatever the other entries are (as long as none of them
overflows the subtraction).  Missing for the full statement: entries such as
`12abc` are accepted as 12. -/
theorem C11_throws_partial (first n : Nat) (s : Text) (i : Nat)
    (hbad : ∃ t ∈ splitComma s, t ≠ [] ∧
      ¬ ∃ v, Leading t v ∧ -2147483648 ≤ v ∧ v ≤ 2147483647)
    (ho : ∀ t ∈ splitComma s, ∀ v, Leading t v → -2147483648 ≤ v - (first : Int)) :
    ∃ th, enabledMutation true first n (some s) (Thread.start n) i = .threw th ∧
      th.initialized = false := by
  obtain ⟨t, ht, hne, hb⟩ := hbad
  obtain ⟨q, hq⟩ := tokFold_cpp_throws first n (splitComma s) ⟨(Thread.start n).bits, false⟩
    (by simp [Thread.start])
    (fun t ht v hv => ho t ht v ((stoi_iff t v).mp hv).1)
    ⟨t, ht, hne, by
      cases hs : stoi t with
      | none => rfl
      | some v => exact absurd ⟨v, (stoi_iff t v).mp hs⟩ hb⟩
  have hp : parseEnv true first n ⟨(Thread.start n).bits, false⟩ (some s) = .threw q := by
    rw [parseEnv]
    simp only [if_true]
    rw [parseCpp_split, hq]
  have hi : initThread true first n (some s) (Thread.start n)
      = .threw { Thread.start n with bits := q.bits } := by
    rw [initThread, hp]
  refine ⟨{ Thread.start n with bits := q.bits }, ?_, rfl⟩
  unfold enabledMutation
  rw [hi]
  rfl

/-- C++: for every text, if a query gets an answer at all then every non-empty
entry begins with an integer in range, and the mutant is enabled iff some entry
begins with its id. -/
theorem C11_cpp_any_text_partial (first n : Nat) (s : Text) (i : Nat) (hi : i < n) (th : Thread)
    (b : Bool)
    (h : enabledMutation true first n (some s) (Thread.start n) i = .ok (th, b)) :
    (∀ t ∈ splitComma s, t ≠ [] → ∃ v, Leading t v ∧ -2147483648 ≤ v ∧ v ≤ 2147483647) ∧
    (b = true ↔ ∃ t ∈ splitComma s, Leading t (first + i)) := by
  obtain ⟨p, hp, hq⟩ := query_after_init true first n (some s) i _ h
  rw [parseEnv] at hp
  simp only [if_true] at hp
  rw [parseCpp_split] at hp
  obtain ⟨h1, h2⟩ := tokFold_cpp_ok _ _ _ _ _ hp
  have hd := enableAll_decided first n _ p (by
    intro v hv
    simp only [List.mem_filterMap] at hv
    obtain ⟨t, _, ht⟩ := hv
    exact ((stoi_iff t v).mp ht).2.2) h2
  have := query_decided true first n (some s) _ _ hd i hi
  rw [hq] at this
  simp only [Out.ok.injEq, Prod.mk.injEq] at this
  refine ⟨fun t ht hne => ?_, ?_⟩
  · obtain ⟨v, hv⟩ := h1 t ht hne
    exact ⟨v, (stoi_iff t v).mp hv⟩
  · rw [this.2, decide_eq_true_eq, List.mem_filterMap]
    constructor
    · rintro ⟨t, ht, hs⟩
      exact ⟨t, ht, ((stoi_iff t _).mp hs).1⟩
    · rintro ⟨t, ht, hl⟩
      refine ⟨t, ht, ?_⟩
      have hne : t ≠ [] := by
        rintro rfl
        have := scanInt_leading _ _ hl
        simp [scanInt] at this
      obtain ⟨v, hv⟩ := h1 t ht hne
      have := (scanInt_iff t v).mpr ((stoi_iff t v).mp hv).1
      rw [scanInt_leading _ _ hl] at this
      simp only [Option.some.injEq] at this
      rw [this]; exact hv

theorem atoi_iff (t : Text) (v : Int) :
    atoi t = some v ↔
      (Leading t v ∧ -2147483648 ≤ v ∧ v ≤ 2147483647) ∨ (v = 0 ∧ ¬ ∃ w, Leading t w) := by
  have hs := stoi_iff t v
  simp only [stoi, ← scanInt_iff] at hs
  simp only [atoi, ← scanInt_iff]
  cases h : scanInt t with
  | none => simp [eq_comm]
  | some w =>
    rw [h] at hs
    simp only at hs ⊢
    rw [hs]
    simp

/-- C: for every text, if a query gets an answer then the mutant is enabled iff
some entry begins with its id, or its id is 0 and some non-empty entry does not
begin with an integer.  Missing for the full statement: the program does not
stop. -/
theorem C11_c_any_text_partial (first n : Nat) (s : Text) (i : Nat) (hi : i < n) (th : Thread)
    (b : Bool)
    (h : enabledMutation false first n (some s) (Thread.start n) i = .ok (th, b)) :
    (∀ t ∈ splitComma s, ∀ v, Leading t v → -2147483648 ≤ v ∧ v ≤ 2147483647) ∧
    (b = true ↔ (∃ t ∈ splitComma s, Leading t (first + i)) ∨
      (first + i = 0 ∧ ∃ t ∈ splitComma s, t ≠ [] ∧ ¬ ∃ v, Leading t v)) := by
  obtain ⟨p, hp, hq⟩ := query_after_init false first n (some s) i _ h
  rw [parseEnv] at hp
  simp only [Bool.false_eq_true, if_false] at hp
  rw [parseC_split] at hp
  obtain ⟨h1, h2⟩ := tokFold_c_ok _ _ _ _ _ hp
  have hd := enableAll_decided first n _ p (by
    intro v hv
    simp only [List.mem_filterMap, cVal] at hv
    obtain ⟨t, _, ht⟩ := hv
    split at ht
    · simp at ht
    · rcases (atoi_iff t v).mp ht with h | h
      · exact h.2.2
      · rw [h.1]; decide) h2
  have := query_decided false first n (some s) _ _ hd i hi
  rw [hq] at this
  simp only [Out.ok.injEq, Prod.mk.injEq] at this
  have hnil : ∀ t v, Leading t v → t ≠ [] := by
    rintro t v hl rfl
    have := scanInt_leading _ _ hl
    simp [scanInt] at this
  have huniq : ∀ t v w, Leading t v → Leading t w → v = w := by
    intro t v w hv hw
    have := (scanInt_iff t v).mpr hv
    rw [(scanInt_iff t w).mpr hw] at this
    simpa using this.symm
  have hrange : ∀ t ∈ splitComma s, ∀ v, Leading t v → -2147483648 ≤ v ∧ v ≤ 2147483647 := by
    intro t ht v hl
    obtain ⟨w, hw⟩ := h1 t ht (hnil t v hl)
    rcases (atoi_iff t w).mp hw with h | h
    · rw [huniq t v w hl h.1]; exact h.2
    · exact absurd ⟨v, hl⟩ h.2
  refine ⟨hrange, ?_⟩
  rw [this.2, decide_eq_true_eq, List.mem_filterMap]
  constructor
  · rintro ⟨t, ht, hs⟩
    unfold cVal at hs
    split at hs
    · simp at hs
    · rename_i hne
      rcases (atoi_iff t _).mp hs with h | h
      · exact Or.inl ⟨t, ht, h.1⟩
      · refine Or.inr ⟨by have := h.1; omega, t, ht, ?_, h.2⟩
        rintro rfl; simp at hne
  · rintro (⟨t, ht, hl⟩ | ⟨h0, t, ht, hne, hl⟩)
    · refine ⟨t, ht, ?_⟩
      have hemp : t.isEmpty = false := by
        have := hnil t _ hl
        cases t <;> simp_all
      simp only [cVal, hemp, Bool.false_eq_true, if_false]
      exact (atoi_iff t _).mpr (Or.inl ⟨hl, hrange t ht _ hl⟩)
    · refine ⟨t, ht, ?_⟩
      have hemp : t.isEmpty = false := by cases t <;> simp_all
      simp only [cVal, hemp, Bool.false_eq_true, if_false]
      exact (atoi_iff t _).mpr (Or.inr ⟨by omega, hl⟩)

/-- In a C file other than the first, entries that are not numbers enable
nothing: what is enabled is named by the user. -/
theorem C11_c_later_files_partial (first n : Nat) (hf : 0 < first) (s : Text) (i : Nat)
    (hi : i < n) (th : Thread)
    (h : enabledMutation false first n (some s) (Thread.start n) i = .ok (th, true)) :
    ∃ t ∈ splitComma s, Leading t (first + i) := by
  have := (C11_c_any_text_partial first n s i hi th true h).2.mp rfl
  rcases this with h | h
  · exact h
  · omega

/-- The full statement is false for C: `x` enables mutant 0. -/
theorem C11_full_false_c :
    ∃ th, enabledMutation false 0 1 (some t!"x") (Thread.start 1) 0 = .ok (th, true) ∧
      ¬ ∃ v, Numeral t!"x" v := by
  refine ⟨⟨true, [1#64], true⟩, by decide +kernel, ?_⟩
  rintro ⟨v, h⟩
  have := scanInt_numeral _ _ h
  simp [scanInt, isSpaceC, isDigitC] at this

/-- The full statement is false for C++: `1x` enables mutant 1. -/
theorem C11_full_false_cpp :
    ∃ th, enabledMutation true 0 2 (some t!"1x") (Thread.start 2) 1 = .ok (th, true) ∧
      ¬ ∃ v, Numeral t!"1x" v := by
  refine ⟨⟨true, [2#64], true⟩, by decide +kernel, ?_⟩
  rintro ⟨v, ws, ds, hws, hne, hds, h⟩
  have hx : 'x' ∈ ds ∨ 'x' ∈ ws := by
    rcases h with ⟨h, _⟩ | ⟨h, _⟩ | ⟨h, _⟩
    · have : 'x' ∈ ws ++ ds := by rw [← h]; simp
      simpa [or_comm] using this
    · have : 'x' ∈ ws ++ '+' :: ds := by rw [← h]; simp
      simpa [or_comm] using this
    · have : 'x' ∈ ws ++ '-' :: ds := by rw [← h]; simp
      simpa [or_comm] using this
  rcases hx with h | h
  · exact absurd (hds _ h) (by decide)
  · exact absurd (hws _ h) (by decide)

example : ∃ th, enabledMutation true 0 4 (some t!"3,x") (Thread.start 4) 3 = .threw th ∧
    th.initialized = false := by
  refine C11_throws_partial 0 4 t!"3,x" 3 ⟨t!"x", by decide, by simp, ?_⟩ ?_
  · rintro ⟨v, h, _⟩
    have := scanInt_leading _ _ h
    simp [scanInt, isSpaceC, isDigitC] at this
  · intro t ht v hv
    have hs := scanInt_leading _ _ hv
    have ht' : t = t!"3" ∨ t = t!"x" := by
      have : splitComma t!"3,x" = [t!"3", t!"x"] := by decide
      rw [this] at ht
      simpa using ht
    rcases ht' with rfl | rfl
    · have h3 : scanInt t!"3" = some 3 := by decide
      rw [h3] at hs
      simp only [Option.some.injEq] at hs
      subst hs; decide
    · have hx : scanInt t!"x" = none := by decide
      rw [hx] at hs
      simp at hs

end Dredd
