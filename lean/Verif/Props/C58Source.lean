/-
C58 for parsed source text: the tokens are kept if the syntax tree lies over the tokens.
-/
import Verif.Props.C58
import Verif.Props.C55
import Verif.Props.C78
import Verif.Props.Source
import Verif.Spec.LexSource

namespace Dredd

/-! ### Constants and mutations in a layout -/

mutual
theorem Lay.consts_bounds (l : Lang) : (x : Lay) → (off : Nat) → x.Fits off → x.Apart →
    ∀ k ∈ x.consts off, ∀ m ∈ x.muts, ∀ q ∈ m.bounds, q ≤ k.span.b ∨ k.span.e ≤ q
  | .text _, _, _, _ => by simp [Lay.consts]
  | .const t v, off, _, _ => by simp [Lay.muts]
  | .expr s body, off, h, ha => by
    intro k hk m hm
    obtain ⟨-, h2, h3, -⟩ := Lay.constsL_clear l body off h.2 ha.2.2 k hk
    rcases List.mem_append.1 hm with hm | hm
    · exact Lay.constsL_bounds l body off h.2 ha.2.2 k hk m hm
    · rw [List.mem_singleton.1 hm]
      simp only [Mutation.bounds, h.1, List.mem_cons, List.not_mem_nil, or_false]
      omega
  | .stmt s body ext, off, h, ha => by
    intro k hk m hm
    obtain ⟨-, h2, h3, -⟩ := Lay.constsL_clear l body off h.2.2 ha.2.2 k hk
    rcases List.mem_append.1 hm with hm | hm
    · exact Lay.constsL_bounds l body off h.2.2 ha.2.2 k hk m hm
    · rw [List.mem_singleton.1 hm]
      simp only [Mutation.bounds, h.1, h.2.1, List.mem_cons, List.not_mem_nil, or_false]
      omega
  | .pre s body, off, h, ha => by
    intro k hk m hm
    obtain ⟨-, h2, h3, -⟩ := Lay.constsL_clear l body _ h.2.2 ha.2 k hk
    rcases List.mem_append.1 hm with hm | hm
    · exact Lay.constsL_bounds l body _ h.2.2 ha.2 k hk m hm
    · rw [List.mem_singleton.1 hm]
      simp only [Mutation.bounds, h.2.1, List.mem_cons, List.not_mem_nil, or_false]
      omega
  | .post s body, off, h, ha => by
    intro k hk m hm
    obtain ⟨-, h2, h3, -⟩ := Lay.constsL_clear l body _ h.2.2 ha.2 k hk
    rcases List.mem_append.1 hm with hm | hm
    · exact Lay.constsL_bounds l body _ h.2.2 ha.2 k hk m hm
    · rw [List.mem_singleton.1 hm]
      simp only [Mutation.bounds, h.2.1, List.mem_cons, List.not_mem_nil, or_false]
      omega
  | .bin s lhs g1 g2 rhs, off, h, ha => by
    intro k hk m hm
    obtain ⟨e1, e2, e3, e4, hl, hr⟩ := h
    have tl := Lay.tidyL l lhs off hl
    have tr := Lay.tidyL l rhs _ hr
    rcases List.mem_append.1 hm with hm | hm
    · rcases List.mem_append.1 hk with hk | hk <;> rcases List.mem_append.1 hm with hm | hm
      · exact Lay.constsL_bounds l lhs _ hl ha.2.2.2.2.1 k hk m hm
      · obtain ⟨-, h2, h3, -⟩ := Lay.constsL_clear l lhs _ hl ha.2.2.2.2.1 k hk
        intro q hq
        have := (tr.inside m hm).bounds q hq
        omega
      · obtain ⟨-, h2, h3, -⟩ := Lay.constsL_clear l rhs _ hr ha.2.2.2.2.2 k hk
        intro q hq
        have := (tl.inside m hm).bounds q hq
        omega
      · exact Lay.constsL_bounds l rhs _ hr ha.2.2.2.2.2 k hk m hm
    · rw [List.mem_singleton.1 hm]
      simp only [Mutation.bounds, e1, e3, e4, List.mem_cons, List.not_mem_nil, or_false]
      rcases List.mem_append.1 hk with hk | hk
      · obtain ⟨-, h2, h3, -⟩ := Lay.constsL_clear l lhs _ hl ha.2.2.2.2.1 k hk
        omega
      · obtain ⟨-, h2, h3, -⟩ := Lay.constsL_clear l rhs _ hr ha.2.2.2.2.2 k hk
        omega

theorem Lay.constsL_bounds (l : Lang) : (xs : List Lay) → (off : Nat) → Lay.FitsL off xs →
    Lay.ApartL xs →
    ∀ k ∈ Lay.constsL off xs, ∀ m ∈ Lay.mutsL xs, ∀ q ∈ m.bounds, q ≤ k.span.b ∨ k.span.e ≤ q
  | [], _, _, _ => by simp [Lay.constsL]
  | x :: xs, off, h, ha => by
    intro k hk m hm
    have tl := Lay.tidy l x off h.1
    have tr := Lay.tidyL l xs _ h.2
    rcases List.mem_append.1 hk with hk | hk <;> rcases List.mem_append.1 hm with hm | hm
    · exact Lay.consts_bounds l x off h.1 ha.1 k hk m hm
    · obtain ⟨-, h2, h3, -⟩ := Lay.consts_clear l x off h.1 ha.1 k hk
      intro q hq
      have := (tr.inside m hm).bounds q hq
      omega
    · obtain ⟨-, h2, h3, -⟩ := Lay.constsL_clear l xs _ h.2 ha.2 k hk
      intro q hq
      have := (tl.inside m hm).bounds q hq
      omega
    · exact Lay.constsL_bounds l xs _ h.2 ha.2 k hk m hm
end

/-- Two constants are the same or apart. -/
def ConstRewrite.Off (k k' : ConstRewrite) : Prop :=
  k' = k ∨ k'.span.e ≤ k.span.b ∨ k.span.e ≤ k'.span.b

mutual
theorem Lay.consts_off (l : Lang) : (x : Lay) → (off : Nat) → x.Fits off → x.Apart →
    ∀ k ∈ x.consts off, ∀ k' ∈ x.consts off, k.Off k'
  | .text _, _, _, _ => by simp [Lay.consts]
  | .const t v, off, _, _ => by
    intro k hk k' hk'
    rw [List.mem_singleton.1 hk, List.mem_singleton.1 hk']
    exact .inl rfl
  | .expr s body, off, h, ha => Lay.constsL_off l body off h.2 ha.2.2
  | .stmt s body ext, off, h, ha => Lay.constsL_off l body off h.2.2 ha.2.2
  | .pre s body, off, h, ha => Lay.constsL_off l body _ h.2.2 ha.2
  | .post s body, off, h, ha => Lay.constsL_off l body off h.2.2 ha.2
  | .bin s lhs g1 g2 rhs, off, h, ha => by
    intro k hk k' hk'
    obtain ⟨e1, e2, e3, e4, hl, hr⟩ := h
    rcases List.mem_append.1 hk with hk | hk <;> rcases List.mem_append.1 hk' with hk' | hk'
    · exact Lay.constsL_off l lhs _ hl ha.2.2.2.2.1 k hk k' hk'
    · have := (Lay.constsL_clear l lhs _ hl ha.2.2.2.2.1 k hk).2.2.1
      have := (Lay.constsL_clear l rhs _ hr ha.2.2.2.2.2 k' hk').2.1
      exact .inr (by omega)
    · have := (Lay.constsL_clear l lhs _ hl ha.2.2.2.2.1 k' hk').2.2.1
      have := (Lay.constsL_clear l rhs _ hr ha.2.2.2.2.2 k hk).2.1
      exact .inr (by omega)
    · exact Lay.constsL_off l rhs _ hr ha.2.2.2.2.2 k hk k' hk'

theorem Lay.constsL_off (l : Lang) : (xs : List Lay) → (off : Nat) → Lay.FitsL off xs →
    Lay.ApartL xs → ∀ k ∈ Lay.constsL off xs, ∀ k' ∈ Lay.constsL off xs, k.Off k'
  | [], _, _, _ => by simp [Lay.constsL]
  | x :: xs, off, h, ha => by
    intro k hk k' hk'
    rcases List.mem_append.1 hk with hk | hk <;> rcases List.mem_append.1 hk' with hk' | hk'
    · exact Lay.consts_off l x off h.1 ha.1 k hk k' hk'
    · have := (Lay.consts_clear l x _ h.1 ha.1 k hk).2.2.1
      have := (Lay.constsL_clear l xs _ h.2 ha.2 k' hk').2.1
      exact .inr (by omega)
    · have := (Lay.consts_clear l x _ h.1 ha.1 k' hk').2.2.1
      have := (Lay.constsL_clear l xs _ h.2 ha.2 k hk).2.1
      exact .inr (by omega)
    · exact Lay.constsL_off l xs _ h.2 ha.2 k hk k' hk'
end

mutual
/-- The left operand begins where the expression does. -/
theorem Lay.lhs_begin : (x : Lay) → (off : Nat) → x.Fits off →
    ∀ s, Mutation.bin s ∈ x.muts → s.lhsSpan.b = s.span.b
  | .text _, _, _ => by simp [Lay.muts]
  | .const _ _, _, _ => by simp [Lay.muts]
  | .expr _ body, off, h => fun s hs => Lay.lhs_beginL body off h.2 s (by simpa [Lay.muts] using hs)
  | .stmt _ body _, off, h => fun s hs => Lay.lhs_beginL body off h.2.2 s (by simpa [Lay.muts] using hs)
  | .pre _ body, off, h => fun s hs => Lay.lhs_beginL body _ h.2.2 s (by simpa [Lay.muts] using hs)
  | .post _ body, off, h => fun s hs => Lay.lhs_beginL body off h.2.2 s (by simpa [Lay.muts] using hs)
  | .bin s' lhs g1 g2 rhs, off, h => fun s hs => by
    obtain ⟨e1, e2, e3, e4, hl, hr⟩ := h
    simp only [Lay.muts, List.mem_append, List.mem_singleton, Mutation.bin.injEq] at hs
    rcases hs with (hs | hs) | rfl
    · exact Lay.lhs_beginL lhs _ hl s hs
    · exact Lay.lhs_beginL rhs _ hr s hs
    · rw [e1, e4]

theorem Lay.lhs_beginL : (xs : List Lay) → (off : Nat) → Lay.FitsL off xs →
    ∀ s, Mutation.bin s ∈ Lay.mutsL xs → s.lhsSpan.b = s.span.b
  | [], _, _ => by simp [Lay.mutsL]
  | x :: xs, off, h => fun s hs => by
    rcases List.mem_append.1 hs with hs | hs
    · exact Lay.lhs_begin x off h.1 s hs
    · exact Lay.lhs_beginL xs _ h.2 s hs
end

/-! ### From the tree to the mutations -/

theorem HasChild.place {root : Node} {p above s ks r s' e'} (h : Place root p above (.stmt s ks))
    (hc : HasChild ks r s' e') : ∃ q a ks', Place root q a (.stmt s' ks') ∧ s'.kind = .expr e' := by
  obtain ⟨pre, k, post, rfl, hk, -, -⟩ := hc
  cases k with
  | stmt s0 ks0 =>
    simp only [Node.expr?] at hk
    split at hk
    · cases hk
      refine ⟨_, _, ks0, .kid (i := pre.length) h ?_, by assumption⟩
      simp [Node.kids]
    · cases hk
  | decl d ks => cases hk
  | other o ks => cases hk

/-- What is mutated begins where a statement or expression of the tree does. -/
theorem MutationAt.opens {l opt root p m} (h : MutationAt l opt root p m) :
    ∀ q ∈ m.opensAt, ∃ p' above s ks sp, Place root p' above (.stmt s ks) ∧ s.range = some sp ∧ sp.b = q := by
  obtain ⟨above, s, ks, hp, ⟨e, sp, t, hok, h⟩ | ⟨sp, hc, hr, h⟩⟩ := C56 l opt root p m h
  · rcases h with ⟨-, x, rfl, -, hx, -⟩ | ⟨op, e', t', hu, x, rfl, -, -, -, -, hx, -⟩ |
      ⟨op, sl, el, tl, sr, er, tr, hb, x, rfl, -, -, -, -, -, hx, hxl, hxr, -⟩
    · intro q hq
      cases List.mem_singleton.1 hq
      exact ⟨_, _, _, _, sp, hp, hok.range, by rw [hx]⟩
    · intro q hq
      cases List.mem_singleton.1 hq
      exact ⟨_, _, _, _, sp, hp, hok.range, by rw [hx]⟩
    · intro q hq
      simp only [Mutation.opensAt, List.mem_cons, List.not_mem_nil, or_false] at hq
      rcases hq with rfl | rfl | rfl
      · obtain ⟨q, a, ks', h, -⟩ := hb.lhs.place hp
        exact ⟨_, _, _, _, _, h, hxl.symm, rfl⟩
      · obtain ⟨q, a, ks', h, -⟩ := hb.rhs.place hp
        exact ⟨_, _, _, _, _, h, hxr.symm, rfl⟩
      · exact ⟨_, _, _, _, sp, hp, hok.range, by rw [hx]⟩
  · obtain ⟨x, rfl, hx, -⟩ := h
    intro q hq
    cases List.mem_singleton.1 hq
    exact ⟨_, _, _, _, sp, hp, hr.range, by rw [hx]⟩

/-- The same for where it ends. -/
theorem MutationAt.closes {l opt root p m} (h : MutationAt l opt root p m) :
    ∀ q ∈ m.closesAt, ∃ p' above s ks sp, Place root p' above (.stmt s ks) ∧ s.range = some sp ∧ sp.e = q := by
  obtain ⟨above, s, ks, hp, ⟨e, sp, t, hok, h⟩ | ⟨sp, hc, hr, h⟩⟩ := C56 l opt root p m h
  · rcases h with ⟨-, x, rfl, -, hx, -⟩ | ⟨op, e', t', hu, x, rfl, -, -, -, -, hx, -⟩ |
      ⟨op, sl, el, tl, sr, er, tr, hb, x, rfl, -, -, -, -, -, hx, hxl, hxr, -⟩
    · intro q hq
      cases List.mem_singleton.1 hq
      exact ⟨_, _, _, _, sp, hp, hok.range, by rw [hx]⟩
    · intro q hq
      cases List.mem_singleton.1 hq
      exact ⟨_, _, _, _, sp, hp, hok.range, by rw [hx]⟩
    · intro q hq
      simp only [Mutation.closesAt, List.mem_cons, List.not_mem_nil, or_false] at hq
      rcases hq with rfl | rfl | rfl
      · obtain ⟨q, a, ks', h, -⟩ := hb.lhs.place hp
        exact ⟨_, _, _, _, _, h, hxl.symm, rfl⟩
      · obtain ⟨q, a, ks', h, -⟩ := hb.rhs.place hp
        exact ⟨_, _, _, _, _, h, hxr.symm, rfl⟩
      · exact ⟨_, _, _, _, sp, hp, hok.range, by rw [hx]⟩
  · obtain ⟨x, rfl, -⟩ := h
    intro q hq
    cases hq

theorem analyse_post (opt : Bool) (f : ParsedFile) :
    (analyse opt f).tree.post = (visitTU f.lang opt f.ast).cur.post.map (·.2) := dropPos_post _

theorem mem_analyse {opt : Bool} {f : ParsedFile} {m : Mutation} (h : m ∈ (analyse opt f).tree.post) :
    ∃ p, MutationAt f.lang opt f.ast p m := by
  rw [analyse_post] at h
  obtain ⟨⟨p, m'⟩, h1, rfl⟩ := List.mem_map.1 h
  exact ⟨p, h1⟩

theorem prefix_cases {p' p : List Nat} (h : p' <+: p) : p' = p ∨ ∃ i r, p = p' ++ i :: r := by
  obtain ⟨r, rfl⟩ := h
  cases r with
  | nil => exact .inl (by simp)
  | cons i r => exact .inr ⟨i, r, rfl⟩

/-- Of two mutations the one that should come later does. -/
theorem later_mem {l opt root} {xs ys : List (List Nat × Mutation)} {a b : List Nat × Mutation}
    (h : (visitTU l opt root).cur.post = xs ++ a :: ys) (hb : b ∈ xs ++ a :: ys) (hab : a = b ∨ Before a b) :
    b ∈ a :: ys := by
  have hp := (visitTU_good l opt root).2
  rw [h, List.pairwise_append] at hp
  rcases List.mem_append.1 hb with hb | hb
  · have h1 := hp.2.2 b hb a List.mem_cons_self
    rcases hab with rfl | hab
    · exact absurd h1 h1.asymm
    · exact absurd h1 hab.asymm
  · exact hb

/-- If the syntax tree lies over the tokens, what is mutated is made of tokens. -/
theorem LexedTree.tokenised {opt : Bool} {f : ParsedFile} {p : Src} (hast : p.nodes = [f.ast])
    (hsrc : p.str = f.src) (hl : p.Laid 0) (hc : (analyse opt f).consts.Perm (p.consts 0))
    (hw : WellFormed f.ast) (ht : LexedTree f (p.consts 0)) (hwords : WordsKnown opt f) : Tokenised (analyse opt f) := by
  obtain ⟨ls, h1, h2, h3, h4, h5, h6⟩ := source_layout opt f p hast hsrc hl
  have hmark : ∀ off, (analyse opt f).preludeOff = some off → MarkerAt f.ast off := by
    intro off h
    obtain ⟨q, ⟨above, d, ks, c, hp, hk, -⟩, -⟩ := (C78_marker opt f hw off).mp h
    exact ⟨q, above, d, ks, c, hp, hk⟩
  refine ⟨?_, ?_, ?_, ?_, ?_, ?_, ?_, ?_⟩
  · intro m hm q hq
    obtain ⟨pl, hm⟩ := mem_analyse hm
    obtain ⟨p', a, s, ks, sp, hp, hr, rfl⟩ := hm.opens q hq
    exact (ht.ranges _ _ _ _ _ hp hr).1
  · intro m hm q hq
    obtain ⟨pl, hm⟩ := mem_analyse hm
    obtain ⟨p', a, s, ks, sp, hp, hr, rfl⟩ := hm.closes q hq
    exact (ht.ranges _ _ _ _ _ hp hr).2
  · intro s hs
    obtain ⟨pl, hm⟩ := mem_analyse hs
    obtain ⟨above, s', ks, hp, ⟨e, sp, t, hok, h⟩ | ⟨sp, hcn, hr, h⟩⟩ := C56 _ _ _ _ _ hm
    · rcases h with ⟨-, x, h, -⟩ | ⟨op, e', t', hu, x, h, -⟩ | ⟨op, sl, el, tl, sr, er, tr, hb, x, h, -⟩ <;>
        cases h
    · obtain ⟨x, h, -, e1, e2, e3, -⟩ := h
      cases h
      rw [e1, e2, e3]
      exact ht.extents _ _ _ _ _ hp hr.item hr.range
  · intro m hm sp hsp
    obtain ⟨pl, hm⟩ := mem_analyse hm
    obtain ⟨above, s', ks, hp, ⟨e, sp', t, hok, h⟩ | ⟨sp', hcn, hr, h⟩⟩ := C56 _ _ _ _ _ hm
    · rcases h with ⟨-, x, rfl, -⟩ | ⟨op, e', t', hu, x, rfl, e1, -, -, e2, -⟩ |
        ⟨op, sl, el, tl, sr, er, tr, hb, x, rfl, e1, -, -, -, e2, -⟩
      · cases hsp
      · simp only [Mutation.symbol, e2, Option.map_eq_some_iff] at hsp
        obtain ⟨q, hq, rfl⟩ := hsp
        obtain ⟨y, y1, y2, y3⟩ := ht.symbols _ _ _ _ _ _ _ hp hok.kind hq (.inr ⟨op, hu.cls, rfl⟩)
        exact ⟨y, y1, y2, by simp only [e1, y3]⟩
      · simp only [Mutation.symbol] at hsp
        split at hsp
        · cases hsp
        · simp only [e2, Option.map_eq_some_iff] at hsp
          obtain ⟨q, hq, rfl⟩ := hsp
          obtain ⟨y, y1, y2, y3⟩ := ht.symbols _ _ _ _ _ _ _ hp hok.kind hq (.inl ⟨op, hb.cls, rfl⟩)
          exact ⟨y, y1, y2, by simp only [e1, y3]⟩
    · obtain ⟨x, rfl, -⟩ := h
      cases hsp
  · intro s hs q hq
    obtain ⟨pl, hm⟩ := mem_analyse hs
    obtain ⟨above, s', ks, hp, ⟨e, sp, t, hok, h⟩ | ⟨sp, hcn, hr, h⟩⟩ := C56 _ _ _ _ _ hm
    · rcases h with ⟨-, x, h, -⟩ | ⟨op, e', t', hu, x, h, e1, -, -, e2, e3, -⟩ |
        ⟨op, sl, el, tl, sr, er, tr, hb, x, h, -⟩
      · cases h
      · cases h
        rw [e2] at hq
        rcases ht.unary _ _ _ _ _ _ _ _ hp hok.kind hok.range hu.cls hq with h | ⟨u1, u2, u3⟩
        · exact .inl (by rw [e3, h])
        · refine .inr ⟨by rw [e1, e3, u1], fun m hm hmem => ?_, fun h => ?_⟩
          · obtain ⟨pl', hm⟩ := mem_analyse hm
            obtain ⟨p', a, s2, ks2, sp2, hp2, hr2, h⟩ := hm.opens _ hmem
            exact u3 _ _ _ _ _ hp2 hr2 (by rw [h, e3])
          · cases hpre : (analyse opt f).preludeOff with
            | none =>
              rw [hpre] at h
              have hlen : 0 < op.str.length := by cases op <;> decide
              have : s.span.e = sp.e := by rw [e3]
              simp at h
              omega
            | some off =>
              rw [hpre] at h
              have : off = sp.e := by rw [← e3]; exact h
              exact u2 (this ▸ hmark off hpre)
      · cases h
    · obtain ⟨x, h, -⟩ := h
      cases h
  · intro k hk
    have hk' : k ∈ p.consts 0 := hc.mem_iff.1 hk
    have hkl : k ∈ Lay.constsL 0 ls := by rw [h3]; exact hk'
    obtain ⟨ct, c1, c2, c3⟩ := ht.consts k hk'
    obtain ⟨b1, -, -, b4⟩ := Lay.constsL_clear f.lang ls 0 h4 h6 k hkl
    have b5 := Lay.constsL_bounds f.lang ls 0 h4 h6 k hkl
    refine ⟨b1, ct.opens, ct.closes, ct.before, ct.after, ?_, ?_, ?_⟩
    · intro m hm
      have hm' : m ∈ Lay.mutsL ls := by rw [← h1]; exact hm
      obtain ⟨pl, hma⟩ := mem_analyse hm
      refine ⟨fun q hq => ?_, fun q hq => ?_, fun sp hsp => ?_, fun s hs => ?_⟩
      · have h := b5 m hm' q (by cases m <;> simp_all [Mutation.opensAt, Mutation.bounds] <;> grind)
        obtain ⟨p', a, s, ks, sp, hp, hr, rfl⟩ := hma.opens q hq
        have := c1 _ _ _ _ _ hp hr
        omega
      · exact b5 m hm' q (by cases m <;> simp_all [Mutation.closesAt, Mutation.bounds] <;> grind)
      · have hs : ∃ t, m.symbolText f.lang = some (sp.b, t) ∧ sp.e = sp.b + t.length := by
          have hsp : m.symbol f.lang = some sp := hsp
          cases m <;> simp only [Mutation.symbol, Mutation.symbolText] at hsp ⊢
          · split at hsp
            · cases hsp
            · rename_i hn
              rw [if_neg hn]
              obtain ⟨q, hq, rfl⟩ := Option.map_eq_some_iff.1 hsp
              exact ⟨_, by rw [hq]; rfl, rfl⟩
          · obtain ⟨q, hq, rfl⟩ := Option.map_eq_some_iff.1 hsp
            exact ⟨_, by rw [hq]; rfl, rfl⟩
          · cases hsp
          · cases hsp
        obtain ⟨t, ht1, ht2⟩ := hs
        have := b4 m hm' _ _ ht1
        omega
      · subst hs
        exact b5 _ hm' s.extEnd (by simp [Mutation.bounds])
    · cases hpre : (analyse opt f).preludeOff with
      | none => exact .inl (Nat.zero_le _)
      | some off => exact c2 off (hmark off hpre)
    · intro k2 hk2
      have hk2' := hc.mem_iff.1 hk2
      have n1 := c3 k2 hk2'
      have n2 := (ht.consts k2 hk2').2.2.2 k hk'
      rcases Lay.constsL_off f.lang ls 0 h4 h6 k hkl k2 (by rw [h3]; exact hk2') with h | h | h
      · exact .inl h
      · exact .inr (.inl (by omega))
      · exact .inr (.inr (by omega))
  · cases hpre : (analyse opt f).preludeOff with
    | none => exact .inl rfl
    | some off => exact .inr (ht.marker off (hmark off hpre))
  · intro xs m ys hpost q hq hword
    rw [analyse_post] at hpost
    obtain ⟨xs', z, hv, rfl, hz⟩ := List.map_eq_append_iff.1 hpost
    obtain ⟨⟨pl, m0⟩, ys', rfl, hm', rfl⟩ := List.map_eq_cons_iff.1 hz
    obtain rfl : m = m0 := hm'.symm
    have hma : MutationAt f.lang opt f.ast pl m := by
      rw [MutationAt, hv]
      exact List.mem_append_right _ List.mem_cons_self
    have key : ∀ p' above' s' xs' e' sp' t', p' <+: pl → Place f.ast p' above' (.stmt s' xs') →
        ExprOk f.lang opt above' s' e' xs' sp' t' → Replaceable opt above' e' xs' →
        ¬ DeclaredAt f.ast e'.beginLoc → sp'.b = q → e'.precIdent = true → m.isRemoval = false →
        ∃ s, Mutation.expr s ∈ m :: ys'.map (·.2) ∧ s.span.b = q ∧ s.precIdent = true := by
      intro p' above' s' ks' e' sp' t' hpre hp' hok' hr' hd' hb' hi' hrem
      obtain ⟨m2, hm2, x, rfl, -, hx, -, -, -, -, -, hxi, -⟩ := C55_expression f.lang opt f.ast hw p' above' s'
        ks' e' sp' t' hp' hok' hr' hd'
      refine ⟨x, ?_, by rw [hx]; exact hb', by rw [hxi]; exact hi'⟩
      have hmem : (p', Mutation.expr x) ∈ xs' ++ (pl, m) :: ys' := by rw [← hv]; exact hm2
      have hbef : (pl, m) = (p', Mutation.expr x) ∨ Before (pl, m) (p', Mutation.expr x) := by
        rcases prefix_cases hpre with rfl | ⟨i, r, rfl⟩
        · cases m with
          | bin s => exact .inr (.inr (.inr ⟨rfl, by simp [Mutation.rank]⟩))
          | un s => exact .inr (.inr (.inr ⟨rfl, by simp [Mutation.rank]⟩))
          | stmt s => simp [Mutation.isRemoval] at hrem
          | expr y =>
            left
            obtain ⟨-, hlin⟩ := C48_linear f.lang opt f.ast
            rcases hlin _ hma _ hm2 with h | h | h
            · exact h
            · have := h.1
              rcases this with ⟨i, r, h⟩ | ⟨u, i, j, r, r', hij, e1, e2⟩ | ⟨-, h⟩
              · have := congrArg List.length h; simp at this
              · simp only at e1 e2
                rw [e1] at e2
                have := List.append_cancel_left e2
                simp at this
                omega
              · simp [Mutation.rank] at h
            · have := h.1
              rcases this with ⟨i, r, h⟩ | ⟨u, i, j, r, r', hij, e1, e2⟩ | ⟨-, h⟩
              · have := congrArg List.length h; simp at this
              · simp only at e1 e2
                rw [e1] at e2
                have := List.append_cancel_left e2
                simp at this
                omega
              · simp [Mutation.rank] at h
        · exact .inr (.inl ⟨i, r, rfl⟩)
      have h := later_mem hv hmem hbef
      exact List.mem_map_of_mem (f := (·.2)) h
    obtain ⟨above, s, ks, hp, ⟨e, sp, t, hok, h⟩ | ⟨sp, hcn, hr, h⟩⟩ := C56 _ _ _ _ _ hma
    · have go : MayChange opt above e ks → q = sp.b → m.isRemoval = false →
          ∃ s, Mutation.expr s ∈ m :: ys'.map (·.2) ∧ s.span.b = q ∧ s.precIdent = true := by
        intro hch hqb hrem
        obtain ⟨p', above', s', ks', e', sp', t', g1, g2, g3, g4, g5, g6, g7⟩ :=
          hwords _ _ _ _ _ _ _ hp hok hch (hqb ▸ hword)
        exact key p' above' s' ks' e' sp' t' g1 g2 g3 g4 g5 (by rw [g6, hqb]) g7 hrem
      rcases h with ⟨hr, x, rfl, -, hx, -⟩ | ⟨op, e', t', hu, x, rfl, -, -, -, -, hx, -⟩ |
        ⟨op, sl, el, tl, sr, er, tr, hb, x, rfl, -, -, -, -, -, hx, hxl, hxr, -⟩
      · exact go (.inl hr) (by rw [List.mem_singleton.1 hq, hx]) rfl
      · exact go (.inr (.inl ⟨op, e', t', hu⟩)) (by rw [List.mem_singleton.1 hq, hx]) rfl
      · have hbegin : x.lhsSpan.b = x.span.b := by
          refine Lay.lhs_beginL ls 0 h4 x ?_
          rw [← h1, analyse_post]
          exact List.mem_map_of_mem (f := (·.2)) hma
        simp only [Mutation.opensAt, List.mem_cons, List.not_mem_nil, or_false] at hq
        rcases hq with hq | hq | hq
        · exact go (.inr (.inr ⟨op, sl, el, tl, sr, er, tr, hb⟩)) (by rw [hq, hbegin, hx]) rfl
        · exact absurd (hq ▸ hword) (ht.right _ _ _ _ _ _ _ _ _ hp hok.kind hb.cls hb.rhs hxr.symm)
        · exact go (.inr (.inr ⟨op, sl, el, tl, sr, er, tr, hb⟩)) (by rw [hq, hx]) rfl
    · obtain ⟨x, rfl, hx, -⟩ := h
      have hq : q = sp.b := by rw [List.mem_singleton.1 hq, hx]
      exact absurd (hq ▸ hword) (ht.items _ _ _ _ _ hp hr.item hr.range)

/-- C58, for parsed source text whose syntax tree lies over the tokens: the lexemes of the original
and those of the output can be compared such that lexemes are kept, or are gone, or new text is
inserted that is read on its own; gone are exactly those in the symbols of operators that are mutated
and in the constants.

The full property has no hypothesis `WordsKnown`; `C58_source_false` shows that it does not hold without,
with all the others. -/
theorem C58_source_partial (o : Options) (req : Bool) (first : Nat) (f : ParsedFile) (out : Text) (p : Src)
    (h : (handleTU o req first (analyse o.optimise f)).output = some out)
    (hast : p.nodes = [f.ast]) (hsrc : p.str = f.src) (hl : p.Laid 0)
    (hc : (analyse o.optimise f).consts.Perm (p.consts 0)) (hw : WellFormed f.ast)
    (hN : o.showAst = true → ∀ q above s ks, Place f.ast q above (.stmt s ks) → '*' ∉ s.node)
    (ht : LexedTree f (p.consts 0)) (hwords : WordsKnown o.optimise f) :
    ∃ items : List LItem, LItem.old items = lexemes f.src ∧ LItem.new items = lexemes out ∧
      ∀ q x, (q, x) ∈ LItem.gone 0 items ↔ (q, x) ∈ places f.src ∧
        (InSymbol (analyse o.optimise f) q ∨ ∃ k ∈ p.consts 0, k.span.has q) := by
  have hN' : NodesOk o (analyse o.optimise f) := by
    intro ho m hm
    obtain ⟨pl, hm⟩ := mem_analyse hm
    obtain ⟨above, s, ks, hp, ⟨e, sp, t, hok, h⟩ | ⟨sp, hcn, hr, h⟩⟩ := C56 _ _ _ _ _ hm
    · rcases h with ⟨-, x, rfl, -, -, -, hx, -⟩ | ⟨op, e', t', hu, x, rfl, -, -, -, -, -, -, hx⟩ |
        ⟨op, sl, el, tl, sr, er, tr, hb, x, rfl, -, -, -, -, -, -, -, -, -, hx⟩ <;>
        (simp only [Mutation.node, hx]; exact hN ho _ _ _ _ hp)
    · obtain ⟨x, rfl, -, -, -, -, -, -, hx⟩ := h
      simp only [Mutation.node, hx]
      exact hN ho _ _ _ _ hp
  obtain ⟨items, i1, i2, i3⟩ := C58_partial o req first _ out h hN' (ht.tokenised hast hsrc hl hc hw hwords)
  refine ⟨items, i1, i2, fun q x => ?_⟩
  rw [i3 q x]
  have : InConst (analyse o.optimise f) q ↔ ∃ k ∈ p.consts 0, k.span.has q := by
    simp only [InConst, hc.mem_iff]
  rw [this]
  rfl

/-! ### Checks of all nodes, for the example -/

mutual
/-- All nodes of a tree pass a check. -/
def Node.every (P : Node → Bool) : Node → Bool
  | .decl d ks => P (.decl d ks) && Node.everyL P ks
  | .stmt s ks => P (.stmt s ks) && Node.everyL P ks
  | .other k ks => P (.other k ks) && Node.everyL P ks

def Node.everyL (P : Node → Bool) : List Node → Bool
  | [] => true
  | k :: ks => k.every P && Node.everyL P ks
end

theorem Node.everyL_mem {P : Node → Bool} {ks : List Node} (h : Node.everyL P ks = true) :
    ∀ k ∈ ks, k.every P = true := by
  induction ks with
  | nil => simp
  | cons k ks ih =>
    simp only [Node.everyL, Bool.and_eq_true] at h
    intro k' hk'
    rcases List.mem_cons.1 hk' with rfl | hk'
    · exact h.1
    · exact ih h.2 k' hk'

theorem Node.every_iff {P : Node → Bool} (n : Node) :
    n.every P = true ↔ P n = true ∧ Node.everyL P n.kids = true := by
  cases n <;> simp [Node.every, Node.kids]

theorem Node.every_place {P : Node → Bool} {root : Node} (h : root.every P = true) {p above n}
    (hp : Place root p above n) : P n = true := by
  suffices n.every P = true from (n.every_iff.1 this).1
  induction hp with
  | root => exact h
  | kid _ hk ih => exact Node.everyL_mem (Node.every_iff _ |>.1 ih).2 _ (List.mem_of_getElem? hk)

namespace SampleSrc

/-- A check of the statements that have a place. -/
def placedCheck (P : AStmt → Span → Bool) : Node → Bool
  | .stmt s _ => s.range.all (P s)
  | _ => true

theorem placed_all {f : ParsedFile} {P : AStmt → Span → Bool} (h : f.ast.every (placedCheck P) = true) :
    ∀ p above s xs sp, Place f.ast p above (.stmt s xs) → s.range = some sp → P s sp = true := by
  intro p above s xs sp hp hr
  have := Node.every_place h hp
  simpa [placedCheck, hr] using this

/-- Nothing is called as the placeholder. -/
def noMarker : Node → Bool
  | .decl d _ => match d.kind with
    | .func _ (some _) => false
    | _ => true
  | _ => true

theorem no_marker {f : ParsedFile} (h : f.ast.every noMarker = true) (off : Nat) : ¬ MarkerAt f.ast off := by
  rintro ⟨p, above, d, ks, c, hp, hk⟩
  have := Node.every_place h hp
  simp [noMarker, hk] at this

def wellFormedCheck : Node → Bool
  | .stmt s ks =>
    let stmts := ks.all fun k => match k with | .stmt _ _ => true | _ => false
    match s.kind with
    | .compound | .case_ => stmts
    | .default_ => stmts && ks.length == 1
    | _ => true
  | _ => true

theorem wellFormed_of {root : Node} (h : root.every wellFormedCheck = true) : WellFormed root := by
  intro p above s ks hp
  have := Node.every_place h hp
  have key : ∀ {ks : List Node}, (ks.all fun k => match k with | .stmt _ _ => true | _ => false) = true →
      ∀ k ∈ ks, ∃ s' ks', k = .stmt s' ks' := by
    intro ks h k hk
    have := List.all_eq_true.1 h k hk
    cases k <;> simp at this
    exact ⟨_, _, rfl⟩
  refine ⟨fun h => ?_, fun h => ?_, fun h => ?_⟩
  · simp only [wellFormedCheck, h] at this
    exact key this
  · simp only [wellFormedCheck, h] at this
    exact key this
  · simp only [wellFormedCheck, h, Bool.and_eq_true, beq_iff_eq] at this
    obtain ⟨k, rfl⟩ := List.length_eq_one_iff.1 this.2
    obtain ⟨s', ks', rfl⟩ := key this.1 k (by simp)
    exact ⟨_, _, rfl⟩

def symbolCheck (src : Text) : Node → Bool
  | .stmt s _ =>
    match s.kind with
    | .expr e =>
      match e.cls, e.opOff with
      | .binary op, some q => (places src).any fun x => x.1 == q && x.2.1.isToken && x.2.2 == op.str
      | .unary op, some q => (places src).any fun x => x.1 == q && x.2.1.isToken && x.2.2 == op.str
      | _, _ => true
    | _ => true
  | _ => true

def unaryCheck (root : Node) : Node → Bool
  | .stmt s _ =>
    match s.kind, s.range with
    | .expr e, some sp =>
      match e.cls, e.opOff with
      | .unary op, some q => q == sp.b || (q + op.str.length == sp.e &&
          root.every (placedCheck fun _ sp' => sp'.b != sp.e))
      | _, _ => true
    | _, _ => true
  | _ => true

/-- There are no binary operators. -/
def noBinary : Node → Bool
  | .stmt s _ => match s.kind with
    | .expr e => match e.cls with
      | .binary _ => false
      | _ => true
    | _ => true
  | _ => true

/-- No word comes just before a part of a block or a labelled statement. -/
def itemCheck (src : Text) : Node → Bool
  | .stmt s ks => (s.kind != .compound && s.kind != .case_ && s.kind != .default_) ||
    ks.all (placedCheck fun _ sp => decide (¬ EndsWord src sp.b))
  | _ => true

theorem items_of {f : ParsedFile} (h : f.ast.every (itemCheck f.src) = true) {p above s xs sp}
    (hp : Place f.ast p above (.stmt s xs)) (hi : ItemOfBlock above) (hr : s.range = some sp) :
    ¬ EndsWord f.src sp.b := by
  obtain ⟨labels, s1, ks1, i1, post, he, hk1, hl⟩ := hi
  generalize hroot : f.ast = root at hp h
  generalize hnode : Node.stmt s xs = node at hp
  cases hp with
  | root => simp at he
  | @kid p' above' n i _ hp' hk =>
    subst hnode
    have hn : ∃ s2 ks2, n = .stmt s2 ks2 ∧ (s2.kind = .compound ∨ s2.kind = .case_ ∨ s2.kind = .default_) := by
      cases labels with
      | nil =>
        simp only [List.nil_append, List.cons.injEq, Prod.mk.injEq] at he
        exact ⟨s1, ks1, he.1.1, .inl hk1⟩
      | cons x r =>
        simp only [List.cons_append, List.cons.injEq] at he
        obtain ⟨s2, ks2, h1, h2⟩ := hl x List.mem_cons_self
        exact ⟨s2, ks2, by rw [← h1, ← he.1], .inr h2⟩
    obtain ⟨s2, ks2, rfl, hk2⟩ := hn
    have := Node.every_place h hp'
    have hall : ks2.all (placedCheck fun _ sp => decide (¬ EndsWord f.src sp.b)) = true := by
      rcases hk2 with hk2 | hk2 | hk2 <;> simpa [itemCheck, hk2] using this
    have := List.all_eq_true.1 hall _ (List.mem_of_getElem? hk)
    simpa [placedCheck, hr] using this

/-- What the samples have in common: all of `LexedTree` but the constants, by a check of the nodes. -/
theorem lexed_of {f : ParsedFile} {ks : List ConstRewrite}
    (h1 : f.ast.every (placedCheck fun s sp => decide (Starts f.src sp.b) && decide (Ends f.src sp.e) &&
      decide (Ends f.src s.extEnd)) = true)
    (h2 : f.ast.every (symbolCheck f.src) = true) (h3 : f.ast.every (unaryCheck f.ast) = true)
    (h4 : f.ast.every noMarker = true)
    (h5 : ∀ p above s xs e op s' e' sp', Place f.ast p above (.stmt s xs) → s.kind = .expr e →
      e.cls = .binary op → HasChild xs .rhs s' e' → s'.range = some sp' → ¬ EndsWord f.src sp'.b)
    (h6 : ∀ p above s xs sp, Place f.ast p above (.stmt s xs) → ItemOfBlock above →
      s.range = some sp → ¬ EndsWord f.src sp.b)
    (h7 : ∀ k ∈ ks, ConstTokens f.src k ∧
      (∀ p above s xs sp, Place f.ast p above (.stmt s xs) → s.range = some sp → sp.b ≠ k.span.e) ∧
      ∀ k' ∈ ks, k'.span.b ≠ k.span.e) : LexedTree f ks := by
  refine ⟨⟨?_, ?_, ?_, ?_, ?_, h5, h6⟩, fun p above s xs sp hp _ hr => ?_⟩
  rotate_right
  · have := placed_all h1 p above s xs sp hp hr
    simp only [Bool.and_eq_true, decide_eq_true_eq] at this
    exact .inl this.2
  · intro p above s xs sp hp hr
    have := placed_all h1 p above s xs sp hp hr
    simp only [Bool.and_eq_true, decide_eq_true_eq] at this
    exact this.1
  · intro p above s xs e q n hp hkd hq hop
    have := Node.every_place h2 hp
    rcases hop with ⟨op, hc, rfl⟩ | ⟨op, hc, rfl⟩ <;>
    · simp only [symbolCheck, hkd, hc, hq, List.any_eq_true, Bool.and_eq_true, beq_iff_eq] at this
      obtain ⟨⟨q', x⟩, h1, ⟨rfl, h2⟩, h3⟩ := this
      exact ⟨x, h1, h2, by rw [h3]⟩
  · intro p above s xs e sp op q hp hkd hr hc hq
    have := Node.every_place h3 hp
    simp only [unaryCheck, hkd, hr, hc, hq, Bool.or_eq_true, Bool.and_eq_true, beq_iff_eq] at this
    rcases this with h | ⟨g1, g2⟩
    · exact .inl h
    · refine .inr ⟨g1, no_marker h4 _, fun p' above' s' xs' sp' hp' hr' => ?_⟩
      have := placed_all g2 p' above' s' xs' sp' hp' hr'
      simpa using this
  · intro k hk
    obtain ⟨g1, g2, g3⟩ := h7 k hk
    exact ⟨g1, g2, fun off h => absurd h (no_marker h4 off), g3⟩
  · exact fun off h => absurd h (no_marker h4 off)

theorem parsed_noWord : ∀ p above s xs sp, Place parsed.ast p above (.stmt s xs) → s.range = some sp →
    ¬ EndsWord parsed.src sp.b := by
  intro p above s xs sp hp hr
  have := placed_all (P := fun _ sp => decide (¬ EndsWord parsed.src sp.b)) (by decide +kernel)
    p above s xs sp hp hr
  simpa using this

/-- The sample of C54 lies over its tokens. -/
theorem parsed_lexed : LexedTree parsed (file.consts 0) := by
  refine lexed_of (by decide +kernel) (by decide +kernel) (by decide +kernel) (by decide +kernel) ?_ ?_ ?_
  · intro p above s xs e op s' e' sp' hp _ _ hch hr
    obtain ⟨q, a, ks', h, -⟩ := hch.place hp
    exact parsed_noWord _ _ _ _ _ h hr
  · intro p above s xs sp hp _ hr
    exact parsed_noWord _ _ _ _ _ hp hr
  · have hk : file.consts 0 = [⟨⟨37, 38⟩, 3⟩] := by decide
    intro k hmem
    rw [hk] at hmem ⊢
    cases List.mem_singleton.1 hmem
    refine ⟨⟨by decide +kernel, by decide +kernel, ?_, ?_⟩, ?_, by decide⟩
    · have : ∀ q ∈ places parsed.src, q.1 + q.2.2.length = 37 →
          q.2.1.isWord = false ∧ q.2.2 ≠ t!"." := by decide +kernel
      exact fun x ⟨q, hq, e⟩ => this (q, x) hq e
    · have : ∀ q ∈ places parsed.src, q.1 = 38 → q.2.2 = t!"]" := by decide +kernel
      intro x hx c cs h
      have := this _ hx rfl
      simp only at this
      rw [this] at h
      cases h
      decide
    · intro p above s xs sp hp hr
      have := placed_all (P := fun _ sp => sp.b != 38) (by decide +kernel) p above s xs sp hp hr
      simpa using this

/-- The hypotheses of `C58_source_partial` hold for the file of C54, which has eight mutations and a
constant. -/
example : WellFormed parsed.ast ∧ LexedTree parsed (file.consts 0) ∧ WordsKnown Sample.opts.optimise parsed ∧
    (Sample.opts.showAst = true → ∀ q above s ks, Place parsed.ast q above (.stmt s ks) → '*' ∉ s.node) :=
  ⟨wellFormed_of (by decide +kernel), parsed_lexed,
    fun _ _ _ _ _ _ _ hp hok _ h => absurd h (parsed_noWord _ _ _ _ _ hp hok.range), by simp [Sample.opts]⟩

end SampleSrc

/-- `C58_source_partial` without `WordsKnown`: all other hypotheses hold for `else++x;`, and the keyword is
no longer a token of the output. -/
theorem C58_source_false :
    ∃ (o : Options) (f : ParsedFile) (p : Src) (out : Text),
      (handleTU o true 0 (analyse o.optimise f)).output = some out ∧
      p.nodes = [f.ast] ∧ p.str = f.src ∧ p.Laid 0 ∧ (analyse o.optimise f).consts.Perm (p.consts 0) ∧
      WellFormed f.ast ∧ LexedTree f (p.consts 0) ∧ o.showAst = false ∧
      ¬ ∃ items : List LItem, LItem.old items = lexemes f.src ∧ LItem.new items = lexemes out ∧
        ∀ q x, (q, x) ∈ LItem.gone 0 items ↔ (q, x) ∈ places f.src ∧
          (InSymbol (analyse o.optimise f) q ∨ ∃ k ∈ p.consts 0, k.span.has q) := by
  refine ⟨Sample.opts, SampleSrc.elseParsed, SampleSrc.elseFile, _, rfl, rfl, rfl, SampleSrc.else_laid, ?_,
    SampleSrc.wellFormed_of (by decide +kernel), ?_, rfl, ?_⟩
  · have h1 : (analyse Sample.opts.optimise SampleSrc.elseParsed).consts = [] := by decide +kernel
    have h2 : SampleSrc.elseFile.consts 0 = [] := by decide +kernel
    rw [h1, h2]
  · refine SampleSrc.lexed_of (by decide +kernel) (by decide +kernel) (by decide +kernel) (by decide +kernel)
      ?_ ?_ ?_
    · intro p above s xs e op s' e' sp' hp hk hc _ _
      have h : SampleSrc.elseParsed.ast.every SampleSrc.noBinary = true := by decide +kernel
      have := Node.every_place h hp
      simp [SampleSrc.noBinary, hk, hc] at this
    · intro p above s xs sp hp hi hr
      have h : SampleSrc.elseParsed.ast.every (SampleSrc.itemCheck SampleSrc.elseParsed.src) = true := by
        decide +kernel
      exact SampleSrc.items_of h hp hi hr
    · have h2 : SampleSrc.elseFile.consts 0 = [] := by decide +kernel
      rw [h2]
      simp
  · rintro ⟨items, i1, i2, i3⟩
    have hno : ∀ q, (∃ k ∈ SampleSrc.elseFile.consts 0, k.span.has q) → False := by
      have h2 : SampleSrc.elseFile.consts 0 = [] := by decide +kernel
      rw [h2]
      simp
    have hsub := LItem.kept_sublist (fun q => InSymbol (analyse Sample.opts.optimise SampleSrc.elseParsed) q)
      items 0 fun q x hx => ((i3 q x).1 hx).2.resolve_right (hno q)
    rw [i1, i2] at hsub
    have h1 : t!"else" ∈ ((placed 0 (lexemes SampleSrc.elseParsed.src)).filter fun q => q.2.1.isToken &&
        !decide (InSymbol (analyse Sample.opts.optimise SampleSrc.elseParsed) q.1)).map (·.2.2) := by
      decide +kernel
    have h2 : t!"else" ∉ tokens (rewrite SampleSrc.elseParsed.src
        (fileEdits Sample.opts 0 (analyse Sample.opts.optimise SampleSrc.elseParsed))) := by decide +kernel
    exact h2 (hsub.subset h1)

end Dredd
