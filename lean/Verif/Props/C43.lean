/-
C43: the closing brace of a removable statement.
-/
import Verif.Proofs.StmtEnd
import Verif.Proofs.Layout
import Verif.Spec.Samples

namespace Dredd

/-- What is put between a statement and the closing brace. -/
def StmtEnd.tail (e : StmtEnd) (t : Text) : Text :=
  t.take e.len ++ ((if e.comment && !e.semi then t!"\n" else [])
    ++ (if !e.semi && e.hash then t!"; " else []) ++ t!" ")

theorem codeOf_eq {t : Text} (h : Mode.code.read t ≠ .slash) :
    codeOf t = (Mode.code.emits t).filter fun c => !isWhite c := by
  simp [codeOf, Mode.visible, h]

theorem Ready.newline {m : Mode} {t : Text} (h : Ready m t) (hne : t ≠ []) :
    m.read t!"\n" = .code ∧ m.Quiet t!"\n" := by
  rcases h with rfl | ⟨e, rfl, h⟩
  · exact ⟨rfl, rfl⟩
  · rcases h with h | ⟨rfl, -⟩
    · exact absurd h hne
    · exact ⟨rfl, rfl⟩

theorem Ready.not_slash {m : Mode} {t : Text} (h : Ready m t) : m ≠ .slash := by
  rcases h with rfl | ⟨e, rfl, h⟩ <;> simp

/-- The text in front of the closing brace: where it ends, and what it is. -/
theorem StmtEnd.tail_spec (t : Text) (hv : codeOf t ≠ []) :
    Mode.code.read ((stmtEnd t).tail t) = .code ∧
      codeOf ((stmtEnd t).tail t) = if (stmtEnd t).semi || (stmtEnd t).hash then t!";" else [] := by
  obtain ⟨h1, h2⟩ := stmtEnd_spec t
  generalize stmtEnd t = e at h1 h2
  unfold StmtEnd.tail
  cases hs : e.semi
  · obtain ⟨hr, hq, hc⟩ := h2 hs
    have hne : t.drop e.len ≠ [] := by
      intro h0
      apply hv
      have : t.take e.len = t := by
        have := List.take_append_drop e.len t
        rwa [h0, List.append_nil] at this
      rw [this] at hr hq
      rw [codeOf_eq hr.not_slash]
      exact hq
    obtain ⟨n1, n2⟩ := hr.newline hne
    have main : ∀ x, (x = t!" " ∨ x = t!";  ") → (e.comment = false → e.len = 0) →
        Mode.code.read (t.take e.len ++ ((if e.comment then t!"\n" else []) ++ x)) = .code ∧
        codeOf (t.take e.len ++ ((if e.comment then t!"\n" else []) ++ x))
          = x.filter fun c => !isWhite c := by
      intro x hx hc
      have hx1 : Mode.code.read x = .code := by rcases hx with rfl | rfl <;> rfl
      have hx2 : Mode.code.emits x = x := by rcases hx with rfl | rfl <;> rfl
      cases hcm : e.comment
      · have := hc hcm
        rw [this]
        simp only [List.take_zero, List.nil_append, Bool.false_eq_true, if_false]
        refine ⟨hx1, ?_⟩
        rw [codeOf_eq (by simp [hx1]), hx2]
      · simp only [if_true]
        have hread : Mode.code.read (t.take e.len ++ (t!"\n" ++ x)) = .code := by
          rw [Mode.read_append, Mode.read_append, n1, hx1]
        refine ⟨hread, ?_⟩
        rw [codeOf_eq (by rw [hread]; simp), Mode.emits_append, Mode.emits_append, n1, hx2,
          List.filter_append, List.filter_append, hq, n2]
        rfl
    cases hh : e.hash
    · have := main t!" " (.inl rfl) hc
      rw [show t!" ".filter (fun c => !isWhite c) = [] from rfl] at this
      simpa using this
    · have := main t!";  " (.inr rfl) hc
      rw [show t!";  ".filter (fun c => !isWhite c) = t!";" from rfl] at this
      simpa using this
  · obtain ⟨w, e1, e2, e3⟩ := h1 hs
    rw [e1]
    have hx1 : Mode.code.read (w ++ t!";" ++ t!" ") = .code := by
      rw [Mode.read_append, Mode.read_append, e2]; rfl
    have : ((if e.comment && !true then t!"\n" else []) ++
        (if !true && e.hash then t!"; " else []) ++ t!" ") = t!" " := by simp
    rw [this]
    refine ⟨hx1, ?_⟩
    rw [codeOf_eq (by rw [hx1]; simp), Mode.emits_append, Mode.emits_append, e2]
    rw [List.filter_append, List.filter_append, e3, Mode.read_append, e2]
    rfl

/-- The text that opens the conditional. -/
def removeOpening (o : Options) (node : Text) (id : Nat) : Text :=
  t!"if (!__dredd_enabled_mutation" ++ nodeComment o node ++ t!"(" ++ natDec id ++ t!")) { "

/-- C43.  A file consists of `pre`, a statement and `after`; the statement is
instrumented for removal.  The result is the file with an `if` in front of the
statement and with some `tail` and a closing brace behind it.
* `tail` consists of the beginning of `after` and of inserted text, and the rest of
  `after` follows the brace.
* The brace is not in a comment.
* Apart from white space and comments, `tail` is at most a semicolon.
* If the statement is terminated by a semicolon, with any sequence of white space,
  comments and preprocessor directives in front of it, then `tail` is a semicolon.
`codeOf after ≠ []` says that the file does not end behind the statement, the
brace of the surrounding function at least being left. -/
theorem C43 (o : Options) (first id : Nat) (pre stmt after : Text) (info : RangeInfo)
    (node : Text) (ht : o.track = false) (hs : stmt ≠ []) (hv : codeOf after ≠ []) :
    ∃ tail kept inserted rest,
      rewrite (pre ++ stmt ++ after)
          (((StmtSite.read (pre ++ stmt ++ after) ⟨pre.length, pre.length + stmt.length⟩ info
            node).apply o first id).edits)
        = pre ++ removeOpening o node (id - first) ++ stmt ++ tail ++ t!"}" ++ rest ∧
      tail = kept ++ inserted ∧ after = kept ++ rest ∧
      Mode.code.read tail = .code ∧
      (codeOf tail = [] ∨ codeOf tail = t!";") ∧
      (∀ (js : List Between) (more : Text), after = js.flatMap Between.text ++ t!";" ++ more → (∀ j ∈ js, j.ok) →
        codeOf tail = t!";") := by
  have hdrop : (pre ++ stmt ++ after).drop (pre.length + stmt.length) = after := by
    rw [← List.length_append, List.drop_left]
  have ⟨t1, t2⟩ := StmtEnd.tail_spec after hv
  refine ⟨(stmtEnd after).tail after, after.take (stmtEnd after).len,
    (stmtEnd after).tail [], after.drop (stmtEnd after).len, ?_, ?_, ?_, t1, ?_, ?_⟩
  · let s := StmtSite.read (pre ++ stmt ++ after) ⟨pre.length, pre.length + stmt.length⟩ info node
    have hlen : (stmtEnd after).len = (after.take (stmtEnd after).len).length := by
      rw [List.length_take]
      have := stmtEnd_le after
      omega
    have h0 : Turns [] pre.length (stmt ++ after.take (stmtEnd after).len)
        (stmt ++ after.take (stmtEnd after).len) := Turns.nil _ _
    have hT := s.turns o (id - first) h0 (by simp [hs]) rfl (by
      simp only [s, StmtSite.read, hdrop, List.length_append]
      omega)
    have hA := (Turns.nil 0 pre).append (by simpa using hT) (.inl rfl)
    have hB := hA.append (Turns.nil _ (after.drop (stmtEnd after).len)) (.inr rfl)
    have := hB.eq
    simp only [List.nil_append, List.append_nil] at this
    have hsrc : pre ++ (stmt ++ after.take (stmtEnd after).len)
        ++ after.drop (stmtEnd after).len = pre ++ stmt ++ after := by
      rw [List.append_assoc, List.append_assoc, List.append_assoc, List.take_append_drop]
    rw [hsrc] at this
    simp only [StmtSite.apply]
    rw [rewrite]
    refine this.trans ?_
    simp only [StmtSite.wrapText, ht, removeOpening, StmtEnd.tail, StmtSite.read, hdrop, s]
    simp
  · simp [StmtEnd.tail]
  · simp
  · rw [t2]
    split
    · exact .inr rfl
    · exact .inl rfl
  · intro js more hj hok
    rw [t2]
    have h := stmtEnd_between js hok more
    rw [show js.flatMap Between.text ++ ';' :: more = after by rw [hj]; simp] at h
    rw [if_pos]
    simpa using h

/-- The same for a statement whose parts are instrumented too: the text of the
statement in the result (`Lay.out`, see `C30_partial`) is the opening of the
conditional, the instrumented statement, some `tail` as above, and the brace. -/
theorem C43_nested (l : Lang) (o : Options) (k : Nat) (src after : Text) (span : Span)
    (info : RangeInfo) (node : Text) (body : List Lay) (ht : o.track = false)
    (hsrc : src.drop span.e = after) (hv : codeOf after ≠ []) :
    ∃ tail,
      (Lay.stmt (StmtSite.read src span info node) body (after.take (stmtEnd after).len)).out l o k
        = removeOpening o node (k + countAll l o.optimise (Lay.mutsL body))
          ++ Lay.outL l o k body ++ tail ++ t!"}" ∧
      Mode.code.read tail = .code ∧
      (codeOf tail = [] ∨ codeOf tail = t!";") ∧
      (∀ (js : List Between) (more : Text), after = js.flatMap Between.text ++ t!";" ++ more →
        (∀ j ∈ js, j.ok) → codeOf tail = t!";") := by
  have ⟨t1, t2⟩ := StmtEnd.tail_spec after hv
  refine ⟨(stmtEnd after).tail after, ?_, t1, ?_, ?_⟩
  · simp only [Lay.out, StmtSite.wrapText, ht, removeOpening, StmtEnd.tail, StmtSite.read, hsrc]
    simp
  · rw [t2]
    split
    · exact .inr rfl
    · exact .inl rfl
  · intro js more hj hok
    rw [t2]
    have h := stmtEnd_between js hok more
    rw [show js.flatMap Between.text ++ ';' :: more = after by rw [hj]; simp] at h
    rw [if_pos]
    simpa using h

/-! ### Concrete cases -/

namespace Sample

/-- The result of instrumenting the statement `stmt` behind `pre`. -/
def removal (pre stmt after : Text) : Text :=
  rewrite (pre ++ stmt ++ after)
    (((StmtSite.read (pre ++ stmt ++ after) ⟨pre.length, pre.length + stmt.length⟩ info
      []).apply ⟨false, false, false, false⟩ 0 0).edits)

/-- A mixture of everything. -/
def mixture : List Between :=
  [.space ' ', .block t!" a * / b *", .space '\t', .line t!" c \\ \n ; d", .space ' ',
   .line t!"e ; */", .directive t!"endif", .space ' ']

end Sample

example : codeOf (Sample.mixture.flatMap Between.text ++ t!";" ++ t!" }") ≠ [] := by decide +kernel

theorem Between.line_ok_iff (t : Text) :
    (Between.line t).ok ↔ (∀ n ≤ t.length, (Mode.line false).read (t.take n) ≠ .code) ∧
      (Mode.line false).read t = .line false := by
  unfold Between.ok
  refine and_congr_left fun _ => ⟨fun h n _ => h _ (List.take_prefix _ _), fun h a ha => ?_⟩
  rw [List.prefix_iff_eq_take.1 ha]
  exact h _ ha.length_le

theorem Between.block_ok_iff (t : Text) :
    (Between.block t).ok ↔ ∀ n ≤ t.length, Mode.block.read (t.take n) ≠ .code := by
  unfold Between.ok
  refine ⟨fun h n _ => h _ (List.take_prefix _ _), fun h a ha => ?_⟩
  rw [List.prefix_iff_eq_take.1 ha]
  exact h _ ha.length_le

example : ∀ j ∈ Sample.mixture, j.ok := by
  simp only [Sample.mixture, List.forall_mem_cons]
  refine ⟨rfl, ?_, rfl, ?_, rfl, ?_, ?_, rfl, by simp⟩
  · rw [Between.block_ok_iff]; decide +kernel
  · rw [Between.line_ok_iff]; decide +kernel
  · rw [Between.line_ok_iff]; decide +kernel
  · simp [Between.ok]

-- The cases of test/single_file/comment.cc.
example : Sample.removal t!"{ " t!"g()" t!" /* something */ ;\n}"
    = t!"{ if (!__dredd_enabled_mutation(0)) { g() /* something */ ; }\n}" := by decide +kernel
example : Sample.removal t!"{ " t!"g()" t!" // something\n;\n}"
    = t!"{ if (!__dredd_enabled_mutation(0)) { g() // something\n; }\n}" := by decide +kernel
example : Sample.removal t!"{ " t!"if(true) {}" t!"\n  // something\n  if"
    = t!"{ if (!__dredd_enabled_mutation(0)) { if(true) {}\n  // something\n }\n  if" := by
  decide +kernel
-- The case described in mutation_remove_stmt.cc 128-133.
example : Sample.removal t!"{ " t!"x = 1" t!"\n#endif\n;\n}"
    = t!"{ if (!__dredd_enabled_mutation(0)) { x = 1;  }\n#endif\n;\n}" := by decide +kernel

/-- Macros are not among the things that may precede the semicolon in C43, with
reason: in `x = 1 EMPTY;` the semicolon is not found and none is inserted. -/
theorem C43_macro :
    Sample.removal t!"{ " t!"x = 1" t!" EMPTY; }"
      = t!"{ if (!__dredd_enabled_mutation(0)) { x = 1 } EMPTY; }" := by decide +kernel

/-- A directive that is preceded by a comment on its line ends up behind the brace,
where it is no directive any more. -/
theorem C43_comment_directive :
    Sample.removal t!"{ " t!"x = 1" t!"\n/* c */ #endif\n;\n}"
      = t!"{ if (!__dredd_enabled_mutation(0)) { x = 1\n/* c */\n;  } #endif\n;\n}" := by
  decide +kernel

end Dredd
