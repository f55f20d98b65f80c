/-
C43 for the statements of parsed source text.
-/
import Verif.Props.C43
import Verif.Props.C83

namespace Dredd

/-- What the visitor records about a statement is what is in the text behind it. -/
theorem TextRead.removal {opt : Bool} {f : ParsedFile} (h : TextRead f) {p : List Nat} {x : StmtSite}
    (hm : MutationAt f.lang opt f.ast p (.stmt x)) : x = StmtSite.read f.src x.span x.info x.node := by
  obtain ⟨above, s, ks, hp, ⟨e, sp, t, hok, h'⟩ | ⟨sp, hcn, hr, h'⟩⟩ := C56 _ _ _ _ _ hm
  · rcases h' with ⟨-, y, hy, -⟩ | ⟨op, e', t', hu, y, hy, -⟩ | ⟨op, sl, el, tl, sr, er, tr, hb, y, hy, -⟩ <;>
      cases hy
  · obtain ⟨y, hy, e1, e2, e3, e4, e5, -, -⟩ := h'
    cases hy
    obtain ⟨g1, g2, g3, g4⟩ := h.behind _ _ _ _ _ hp hr.item hr.range
    obtain ⟨span, extEnd, extComment, extSemi, nextHash, info, node⟩ := x
    simp only at e1 e2 e3 e4 e5
    simp only [StmtSite.read, StmtSite.mk.injEq, e1, e2, e3, e4, e5, g1, g2, g3, g4, and_self]

/-- C43, for parsed source text: the file with the edits of one statement to be removed. -/
theorem C43_source (opt : Bool) (f : ParsedFile) (hr : TextRead f) (p : List Nat) (x : StmtSite)
    (hm : MutationAt f.lang opt f.ast p (.stmt x)) (hb : x.span.b < x.span.e) (he : x.span.e ≤ f.src.length)
    (o : Options) (first id : Nat) (ht : o.track = false) (hv : codeOf (f.src.drop x.span.e) ≠ []) :
    ∃ tail kept inserted rest,
      rewrite f.src (x.apply o first id).edits
        = f.src.take x.span.b ++ removeOpening o x.node (id - first) ++
          (f.src.take x.span.e).drop x.span.b ++ tail ++ t!"}" ++ rest ∧
      tail = kept ++ inserted ∧ f.src.drop x.span.e = kept ++ rest ∧
      Mode.code.read tail = .code ∧
      (codeOf tail = [] ∨ codeOf tail = t!";") ∧
      (∀ (js : List Between) (more : Text),
        f.src.drop x.span.e = js.flatMap Between.text ++ t!";" ++ more → (∀ j ∈ js, j.ok) →
        codeOf tail = t!";") := by
  have hx := hr.removal hm
  have hsplit : f.src.take x.span.b ++ (f.src.take x.span.e).drop x.span.b ++ f.src.drop x.span.e = f.src := by
    have e1 : f.src.take x.span.b = (f.src.take x.span.e).take x.span.b := by
      rw [List.take_take, Nat.min_eq_left (by omega)]
    rw [e1, List.take_append_drop, List.take_append_drop]
  have hl1 : (f.src.take x.span.b).length = x.span.b := by
    rw [List.length_take]; omega
  have hl2 : ((f.src.take x.span.e).drop x.span.b).length = x.span.e - x.span.b := by
    rw [List.length_drop, List.length_take]; omega
  have hspan : (⟨x.span.b, x.span.b + (x.span.e - x.span.b)⟩ : Span) = x.span := by
    rw [show x.span.b + (x.span.e - x.span.b) = x.span.e by omega]
  have := C43 o first id (f.src.take x.span.b) ((f.src.take x.span.e).drop x.span.b) (f.src.drop x.span.e)
    x.info x.node ht (by
      intro h
      rw [h] at hl2
      simp at hl2
      omega) hv
  rw [hsplit, hl1, hl2, hspan, ← hx] at this
  exact this

/-- The hypotheses hold for the statement `return-b;` of a file. -/
example : ∃ x : StmtSite, MutationAt SampleSrc.returnParsed.lang Sample.opts.optimise SampleSrc.returnParsed.ast
    [0, 0, 0] (.stmt x) ∧ x.span = ⟨8, 16⟩ ∧ codeOf (SampleSrc.returnParsed.src.drop 16) = t!";}" := by
  have h : ((visitTU SampleSrc.returnParsed.lang Sample.opts.optimise SampleSrc.returnParsed.ast).cur.post.any
      fun q => q.1 == [0, 0, 0] && match q.2 with
        | .stmt y => y.span == ⟨8, 16⟩
        | _ => false) = true := by decide +kernel
  obtain ⟨⟨q, m⟩, hq, h⟩ := List.any_eq_true.1 h
  cases m <;> simp at h
  rename_i y
  obtain ⟨rfl, h⟩ := h
  exact ⟨y, hq, h, by decide⟩

end Dredd
