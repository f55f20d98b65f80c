/-
C31 and C46 for parsed source text: what `Props/C31.lean` and `Props/C46.lean` suppose
about operator symbols holds if the syntax tree is laid out over the text.
-/
import Verif.Props.C46
import Verif.Props.C54

namespace Dredd

/-- All that a mutation deals with is in a stretch of text. -/
structure Mutation.Inside (l : Lang) (a b : Nat) (m : Mutation) : Prop where
  bounds : ∀ q ∈ m.bounds, a ≤ q ∧ q ≤ b
  sym : ∀ p t, m.symbolText l = some (p, t) → a ≤ p ∧ p + t.length ≤ b

/-- The operator symbols of two mutations do not overlap, and neither mutation deals with
texts that begin or end inside the symbol of the other. -/
structure Mutation.Clear (l : Lang) (m m' : Mutation) : Prop where
  left : ∀ p t, m.symbolText l = some (p, t) → ∀ q ∈ m'.bounds, q ≤ p ∨ p + t.length ≤ q
  right : ∀ p t, m'.symbolText l = some (p, t) → ∀ q ∈ m.bounds, q ≤ p ∨ p + t.length ≤ q
  syms : ∀ p t p' t', m.symbolText l = some (p, t) → m'.symbolText l = some (p', t') →
    p + t.length ≤ p' ∨ p' + t'.length ≤ p

theorem Mutation.Clear.symm {l m m'} (h : Mutation.Clear l m m') : Mutation.Clear l m' m :=
  ⟨h.right, h.left, fun p t p' t' h1 h2 => (h.syms p' t' p t h2 h1).symm⟩

theorem Mutation.Inside.mono {l a b a' b' m} (h : Mutation.Inside l a b m) (ha : a' ≤ a)
    (hb : b ≤ b') : Mutation.Inside l a' b' m := by
  constructor
  · intro q hq; have := h.bounds q hq; omega
  · intro p t hp; have := h.sym p t hp; omega

theorem Mutation.Inside.clear {l a b a' b' m m'} (h : Mutation.Inside l a b m)
    (h' : Mutation.Inside l a' b' m') (hab : b ≤ a') : Mutation.Clear l m m' := by
  constructor
  · intro p t hp q hq
    have := h.sym p t hp; have := h'.bounds q hq; omega
  · intro p t hp q hq
    have := h'.sym p t hp; have := h.bounds q hq; omega
  · intro p t p' t' h1 h2
    have := h.sym p t h1; have := h'.sym p' t' h2; omega

/-- A mutation around a stretch of text. -/
structure Mutation.Around (l : Lang) (a b : Nat) (m : Mutation) : Prop where
  bounds : ∀ q ∈ m.bounds, q ≤ a ∨ b ≤ q
  sym : ∀ p t, m.symbolText l = some (p, t) → p + t.length ≤ a ∨ b ≤ p

theorem Mutation.Inside.clear_around {l a b m m'} (h : Mutation.Inside l a b m)
    (h' : Mutation.Around l a b m') : Mutation.Clear l m m' := by
  constructor
  · intro p t hp q hq
    have := h.sym p t hp; have := h'.bounds q hq; omega
  · intro p t hp q hq
    have := h'.sym p t hp; have := h.bounds q hq; omega
  · intro p t p' t' h1 h2
    have := h.sym p t h1; have := h'.sym p' t' h2; omega

/-- The mutations of a stretch of text. -/
structure Lay.Tidy (l : Lang) (off : Nat) (src : Text) (ms : List Mutation) : Prop where
  inside : ∀ m ∈ ms, Mutation.Inside l off (off + src.length) m
  spelt : ∀ m ∈ ms, ∀ p t, m.symbolText l = some (p, t) → t <+: src.drop (p - off)
  own : ∀ m ∈ ms, ∀ p t, m.symbolText l = some (p, t) → ∀ q ∈ m.bounds, q ≤ p ∨ p + t.length ≤ q
  clear : ms.Pairwise (Mutation.Clear l)

theorem prefix_drop_append {t u v : Text} {k : Nat} (h : t <+: v.drop k) :
    t <+: (u ++ v).drop (u.length + k) := by
  rw [← List.drop_drop, List.drop_left]
  exact h

theorem prefix_drop_left {t u v : Text} {k : Nat} (h : t <+: u.drop k)  :
    t <+: (u ++ v).drop k := by
  rw [List.drop_append]
  exact h.trans (List.prefix_append _ _)

theorem Lay.Tidy.nil (l : Lang) (off : Nat) (src : Text) : Lay.Tidy l off src [] :=
  ⟨by simp, by simp, by simp, .nil⟩

theorem Lay.Tidy.append {l off u v ms ms'} (h : Lay.Tidy l off u ms)
    (h' : Lay.Tidy l (off + u.length) v ms') : Lay.Tidy l off (u ++ v) (ms ++ ms') := by
  constructor
  · intro m hm
    rcases List.mem_append.1 hm with hm | hm
    · exact (h.inside m hm).mono (Nat.le_refl _) (by rw [List.length_append]; omega)
    · exact (h'.inside m hm).mono (by omega) (by rw [List.length_append]; omega)
  · intro m hm p t hp
    rcases List.mem_append.1 hm with hm | hm
    · exact prefix_drop_left (h.spelt m hm p t hp)
    · have hs := h'.spelt m hm p t hp
      have := (h'.inside m hm).sym p t hp
      have e : p - off = u.length + (p - (off + u.length)) := by omega
      rw [e]
      exact prefix_drop_append hs
  · intro m hm
    rcases List.mem_append.1 hm with hm | hm
    · exact h.own m hm
    · exact h'.own m hm
  · rw [List.pairwise_append]
    exact ⟨h.clear, h'.clear, fun m hm m' hm' => (h.inside m hm).clear (h'.inside m' hm') (Nat.le_refl _)⟩

/-- More text before and after. -/
theorem Lay.Tidy.grow {l off u ms} (h : Lay.Tidy l off u ms) {off' : Nat} (x y : Text)
    (ho : off = off' + x.length) : Lay.Tidy l off' (x ++ u ++ y) ms := by
  have h1 := (Lay.Tidy.nil l off' x).append (ho ▸ h)
  have h2 := h1.append (Lay.Tidy.nil l (off' + (x ++ u).length) y)
  simpa using h2

/-- One more mutation around a stretch. -/
theorem Lay.Tidy.snoc {l off u ms a b m} (h : Lay.Tidy l off u ms)
    (hin : ∀ m' ∈ ms, Mutation.Inside l a b m') (har : Mutation.Around l a b m)
    (hi : Mutation.Inside l off (off + u.length) m)
    (hs : ∀ p t, m.symbolText l = some (p, t) → t <+: u.drop (p - off))
    (ho : ∀ p t, m.symbolText l = some (p, t) → ∀ q ∈ m.bounds, q ≤ p ∨ p + t.length ≤ q) :
    Lay.Tidy l off u (ms ++ [m]) := by
  constructor
  · intro m' hm'
    rcases List.mem_append.1 hm' with hm' | hm'
    · exact h.inside m' hm'
    · rw [List.mem_singleton.1 hm']; exact hi
  · intro m' hm'
    rcases List.mem_append.1 hm' with hm' | hm'
    · exact h.spelt m' hm'
    · rw [List.mem_singleton.1 hm']; exact hs
  · intro m' hm'
    rcases List.mem_append.1 hm' with hm' | hm'
    · exact h.own m' hm'
    · rw [List.mem_singleton.1 hm']; exact ho
  · rw [List.pairwise_append]
    refine ⟨h.clear, List.pairwise_singleton _ _, fun m' hm' m'' hm'' => ?_⟩
    rw [List.mem_singleton.1 hm'']
    exact (hin m' hm').clear_around har

mutual
theorem Lay.tidy (l : Lang) : (x : Lay) → (off : Nat) → x.Fits off →
    Lay.Tidy l off x.src x.muts
  | .text t, off, _ => Lay.Tidy.nil l off t
  | .const t _, off, _ => Lay.Tidy.nil l off t
  | .expr s body, off, h => by
    have ih := Lay.tidyL l body off h.2
    have hs := h.1
    refine ih.snoc (a := off) (b := off + (Lay.srcL body).length) ih.inside ⟨?_, ?_⟩ ⟨?_, ?_⟩ ?_ ?_ <;>
      simp [Mutation.bounds, Mutation.symbolText, hs]
  | .stmt s body ext, off, h => by
    have ih := Lay.tidyL l body off h.2.2
    have hs := h.1
    have he := h.2.1
    have ig := ih.grow (off' := off) [] ext (by simp)
    refine Lay.Tidy.snoc (a := off) (b := off + (Lay.srcL body).length) ig ih.inside ⟨?_, ?_⟩ ⟨?_, ?_⟩
      ?_ ?_ <;>
      simp [Mutation.bounds, Mutation.symbolText, hs, he, Lay.src]
    omega
  | .pre s body, off, h => by
    obtain ⟨ho, hs, hb⟩ := h
    have ih := Lay.tidyL l body (off + s.op.str.length) hb
    have ig := ih.grow (off' := off) s.op.str [] rfl
    rw [List.append_nil] at ig
    refine Lay.Tidy.snoc (a := off + s.op.str.length)
      (b := off + s.op.str.length + (Lay.srcL body).length) ig ih.inside ⟨?_, ?_⟩ ⟨?_, ?_⟩ ?_ ?_ <;>
      simp [Mutation.bounds, Mutation.symbolText, hs, ho, Lay.src]
    all_goals omega
  | .post s body, off, h => by
    obtain ⟨ho, hs, hb⟩ := h
    have ih := Lay.tidyL l body off hb
    have ig := ih.grow (off' := off) [] s.op.str (by simp)
    rw [List.nil_append] at ig
    refine Lay.Tidy.snoc (a := off) (b := off + (Lay.srcL body).length) ig ih.inside ⟨?_, ?_⟩ ⟨?_, ?_⟩
      ?_ ?_ <;>
      simp [Mutation.bounds, Mutation.symbolText, hs, ho, Lay.src]
    all_goals omega
  | .bin s lhs g1 g2 rhs, off, h => by
    obtain ⟨h1, h2, h3, h4, hl, hr⟩ := h
    have il := Lay.tidyL l lhs off hl
    have ir := Lay.tidyL l rhs _ hr
    let mid := g1 ++ s.op.str ++ g2
    have hmid : mid.length = g1.length + s.op.str.length + g2.length := by simp [mid]; omega
    have il' := il.grow (off' := off) [] mid (by simp)
    rw [List.nil_append] at il'
    have hboth := il'.append (v := Lay.srcL rhs) (ms' := Lay.mutsL rhs) (by
      have e : off + (Lay.srcL lhs ++ mid).length
          = off + (Lay.srcL lhs).length + g1.length + s.op.str.length + g2.length := by
        rw [List.length_append, hmid]; omega
      rw [e]; exact ir)
    have esrc : Lay.srcL lhs ++ mid ++ Lay.srcL rhs = (Lay.bin s lhs g1 g2 rhs).src := by
      simp [Lay.src, mid]
    rw [esrc] at hboth
    have hlen : (Lay.bin s lhs g1 g2 rhs).src.length
        = (Lay.srcL lhs).length + g1.length + s.op.str.length + g2.length + (Lay.srcL rhs).length := by
      simp [Lay.src]; omega
    have hbnd : ∀ q ∈ (Mutation.bin s).bounds, q = off ∨ q = off + (Lay.srcL lhs).length ∨
        q = off + (Lay.srcL lhs).length + g1.length + s.op.str.length + g2.length ∨
        q = off + (Lay.srcL lhs).length + g1.length + s.op.str.length + g2.length
          + (Lay.srcL rhs).length := by
      intro q hq
      simp only [Mutation.bounds, h1, h3, h4, List.mem_cons, List.not_mem_nil, or_false] at hq
      omega
    have hsym : ∀ p t, (Mutation.bin s).symbolText l = some (p, t) →
        p = off + (Lay.srcL lhs).length + g1.length ∧ t = s.op.str := by
      intro p t hp
      simp only [Mutation.symbolText] at hp
      split at hp
      · cases hp
      · simp only [h2, Option.map_some, Option.some.injEq, Prod.mk.injEq] at hp
        exact ⟨hp.1.symm, hp.2.symm⟩
    constructor
    · intro m hm
      rcases List.mem_append.1 hm with hm | hm
      · exact hboth.inside m hm
      · rw [List.mem_singleton.1 hm]
        constructor
        · intro q hq
          have := hbnd q hq
          omega
        · intro p t hp
          obtain ⟨rfl, rfl⟩ := hsym p t hp
          omega
    · intro m hm
      rcases List.mem_append.1 hm with hm | hm
      · exact hboth.spelt m hm
      · rw [List.mem_singleton.1 hm]
        intro p t hp
        obtain ⟨rfl, rfl⟩ := hsym p t hp
        have e : off + (Lay.srcL lhs).length + g1.length - off = (Lay.srcL lhs ++ g1).length := by
          simp; omega
        rw [e]
        have e2 : (Lay.bin s lhs g1 g2 rhs).src = (Lay.srcL lhs ++ g1) ++ (s.op.str ++ (g2 ++ Lay.srcL rhs)) := by
          simp [Lay.src]
        rw [e2, List.drop_left]
        exact List.prefix_append _ _
    · intro m hm
      rcases List.mem_append.1 hm with hm | hm
      · exact hboth.own m hm
      · rw [List.mem_singleton.1 hm]
        intro p t hp q hq
        obtain ⟨rfl, rfl⟩ := hsym p t hp
        have := hbnd q hq
        omega
    · rw [Lay.muts, List.pairwise_append]
      refine ⟨hboth.clear, List.pairwise_singleton _ _, fun m hm m' hm' => ?_⟩
      rw [List.mem_singleton.1 hm']
      rcases List.mem_append.1 hm with hm | hm
      · refine (il.inside m hm).clear_around ⟨fun q hq => ?_, fun p t hp => ?_⟩
        · have := hbnd q hq
          omega
        · obtain ⟨rfl, rfl⟩ := hsym p t hp
          omega
      · refine (ir.inside m hm).clear_around ⟨fun q hq => ?_, fun p t hp => ?_⟩
        · have := hbnd q hq
          omega
        · obtain ⟨rfl, rfl⟩ := hsym p t hp
          omega

theorem Lay.tidyL (l : Lang) : (xs : List Lay) → (off : Nat) → Lay.FitsL off xs →
    Lay.Tidy l off (Lay.srcL xs) (Lay.mutsL xs)
  | [], off, _ => Lay.Tidy.nil l off []
  | x :: xs, off, h => (Lay.tidy l x off h.1).append (Lay.tidyL l xs _ h.2)
end

mutual
theorem Lay.consts_clear (l : Lang) : (x : Lay) → (off : Nat) → x.Fits off → x.Apart →
    ∀ k ∈ x.consts off, k.span.b < k.span.e ∧ off ≤ k.span.b ∧ k.span.e ≤ off + x.src.length ∧
      ∀ m ∈ x.muts, ∀ p t, m.symbolText l = some (p, t) → k.span.e ≤ p ∨ p + t.length ≤ k.span.b
  | .text _, _, _, _ => by simp [Lay.consts]
  | .const t v, off, _, ha => by
    have ha : t ≠ [] := ha
    have := List.length_pos_iff.2 ha
    simp [Lay.consts, Lay.src, Lay.muts]
    omega
  | .expr s body, off, h, ha => by
    intro k hk
    obtain ⟨h1, h2, h3, h4⟩ := Lay.constsL_clear l body off h.2 ha.2.2 k hk
    refine ⟨h1, h2, h3, fun m hm => ?_⟩
    rcases List.mem_append.1 hm with hm | hm
    · exact h4 m hm
    · rw [List.mem_singleton.1 hm]; intro p t hp; cases hp
  | .stmt s body ext, off, h, ha => by
    intro k hk
    obtain ⟨h1, h2, h3, h4⟩ := Lay.constsL_clear l body off h.2.2 ha.2.2 k hk
    refine ⟨h1, h2, by rw [Lay.src, List.length_append]; omega, fun m hm => ?_⟩
    rcases List.mem_append.1 hm with hm | hm
    · exact h4 m hm
    · rw [List.mem_singleton.1 hm]; intro p t hp; cases hp
  | .pre s body, off, h, ha => by
    intro k hk
    obtain ⟨ho, hs, hb⟩ := h
    obtain ⟨h1, h2, h3, h4⟩ := Lay.constsL_clear l body _ hb ha.2 k hk
    refine ⟨h1, by omega, by rw [Lay.src, List.length_append]; omega, fun m hm => ?_⟩
    rcases List.mem_append.1 hm with hm | hm
    · exact h4 m hm
    · rw [List.mem_singleton.1 hm]
      intro p t hp
      simp only [Mutation.symbolText, ho, Option.map_some, Option.some.injEq, Prod.mk.injEq] at hp
      rw [← hp.1, ← hp.2]
      omega
  | .post s body, off, h, ha => by
    intro k hk
    obtain ⟨ho, hs, hb⟩ := h
    obtain ⟨h1, h2, h3, h4⟩ := Lay.constsL_clear l body _ hb ha.2 k hk
    refine ⟨h1, by omega, by rw [Lay.src, List.length_append]; omega, fun m hm => ?_⟩
    rcases List.mem_append.1 hm with hm | hm
    · exact h4 m hm
    · rw [List.mem_singleton.1 hm]
      intro p t hp
      simp only [Mutation.symbolText, ho, Option.map_some, Option.some.injEq, Prod.mk.injEq] at hp
      rw [← hp.1, ← hp.2]
      omega
  | .bin s lhs g1 g2 rhs, off, h, ha => by
    intro k hk
    obtain ⟨h1, h2, h3, h4, hl, hr⟩ := h
    have tl := Lay.tidyL l lhs off hl
    have tr := Lay.tidyL l rhs _ hr
    have hlen : (Lay.bin s lhs g1 g2 rhs).src.length
        = (Lay.srcL lhs).length + g1.length + s.op.str.length + g2.length + (Lay.srcL rhs).length := by
      simp [Lay.src]; omega
    have hsym : ∀ p t, (Mutation.bin s).symbolText l = some (p, t) →
        p = off + (Lay.srcL lhs).length + g1.length ∧ t = s.op.str := by
      intro p t hp
      simp only [Mutation.symbolText] at hp
      split at hp
      · cases hp
      · simp only [h2, Option.map_some, Option.some.injEq, Prod.mk.injEq] at hp
        exact ⟨hp.1.symm, hp.2.symm⟩
    rcases List.mem_append.1 hk with hk | hk
    · obtain ⟨c1, c2, c3, c4⟩ := Lay.constsL_clear l lhs _ hl ha.2.2.2.2.1 k hk
      refine ⟨c1, c2, by omega, fun m hm => ?_⟩
      rcases List.mem_append.1 hm with hm | hm
      · rcases List.mem_append.1 hm with hm | hm
        · exact c4 m hm
        · intro p t hp
          have := (tr.inside m hm).sym p t hp
          omega
      · rw [List.mem_singleton.1 hm]
        intro p t hp
        obtain ⟨rfl, rfl⟩ := hsym p t hp
        omega
    · obtain ⟨c1, c2, c3, c4⟩ := Lay.constsL_clear l rhs _ hr ha.2.2.2.2.2 k hk
      refine ⟨c1, by omega, by omega, fun m hm => ?_⟩
      rcases List.mem_append.1 hm with hm | hm
      · rcases List.mem_append.1 hm with hm | hm
        · intro p t hp
          have := (tl.inside m hm).sym p t hp
          omega
        · exact c4 m hm
      · rw [List.mem_singleton.1 hm]
        intro p t hp
        obtain ⟨rfl, rfl⟩ := hsym p t hp
        omega

theorem Lay.constsL_clear (l : Lang) : (xs : List Lay) → (off : Nat) → Lay.FitsL off xs →
    Lay.ApartL xs →
    ∀ k ∈ Lay.constsL off xs, k.span.b < k.span.e ∧ off ≤ k.span.b ∧
      k.span.e ≤ off + (Lay.srcL xs).length ∧
      ∀ m ∈ Lay.mutsL xs, ∀ p t, m.symbolText l = some (p, t) →
        k.span.e ≤ p ∨ p + t.length ≤ k.span.b
  | [], _, _, _ => by simp [Lay.constsL]
  | x :: xs, off, h, ha => by
    intro k hk
    have tl := Lay.tidy l x off h.1
    have tr := Lay.tidyL l xs _ h.2
    have hlen : (Lay.srcL (x :: xs)).length = x.src.length + (Lay.srcL xs).length := by
      simp [Lay.srcL]
    rcases List.mem_append.1 hk with hk | hk
    · obtain ⟨c1, c2, c3, c4⟩ := Lay.consts_clear l x off h.1 ha.1 k hk
      refine ⟨c1, c2, by omega, fun m hm => ?_⟩
      rcases List.mem_append.1 hm with hm | hm
      · exact c4 m hm
      · intro p t hp
        have := (tr.inside m hm).sym p t hp
        omega
    · obtain ⟨c1, c2, c3, c4⟩ := Lay.constsL_clear l xs _ h.2 ha.2 k hk
      refine ⟨c1, by omega, by omega, fun m hm => ?_⟩
      rcases List.mem_append.1 hm with hm | hm
      · intro p t hp
        have := (tl.inside m hm).sym p t hp
        omega
      · exact c4 m hm
end

/-- C31, for parsed source text: the output is the original text with text inserted into
it, from which only operator symbols, as spelt in the original, and constants are
missing. -/
theorem C31_source (o : Options) (req : Bool) (first : Nat) (f : ParsedFile) (out : Text) (p : Src)
    (h : (handleTU o req first (analyse o.optimise f)).output = some out)
    (hast : p.nodes = [f.ast]) (hsrc : p.str = f.src) (hl : p.Laid 0)
    (hc : (analyse o.optimise f).consts.Perm (p.consts 0)) :
    ∃ items : List Item, Item.oldText items = f.src ∧ Item.newText items = out ∧
      ∀ q c, (q, c) ∈ Item.gone 0 items ↔
        ((∃ m ∈ (analyse o.optimise f).tree.post, ∃ b t, m.symbolText f.lang = some (b, t) ∧ b ≤ q ∧
            t[q - b]? = some c) ∨
          f.src[q]? = some c ∧ ∃ k ∈ p.consts 0, k.span.has q) := by
  obtain ⟨ls, h1, h2, h3, h4, h5, h6⟩ := source_layout o.optimise f p hast hsrc hl
  obtain ⟨items, i1, i2, i3⟩ := C31_partial o req first (analyse o.optimise f) out h
  have ht := Lay.tidyL f.lang ls 0 h4
  rw [← h1, ← h2] at ht
  have at_ : ∀ m ∈ (analyse o.optimise f).tree.post, ∀ b t, m.symbolText f.lang = some (b, t) →
      ∀ i, i < t.length → f.src[b + i]? = t[i]? := by
    intro m hm b t hmt i hi
    obtain ⟨r, hr⟩ := ht.spelt m hm b t hmt
    rw [Nat.sub_zero] at hr
    rw [← List.getElem?_drop, ← hr, List.getElem?_append_left hi]
  refine ⟨items, i1, i2, fun q c => ?_⟩
  rw [i3]
  constructor
  · rintro ⟨hqc, ⟨m, hm, sp, hs, hin⟩ | ⟨k, hk, hin⟩⟩
    · left
      rw [Mutation.symbol_eq] at hs
      cases hst : m.symbolText (analyse o.optimise f).lang with
      | none => rw [hst] at hs; cases hs
      | some bt =>
        obtain ⟨b, t⟩ := bt
        rw [hst] at hs
        simp only [Option.map_some, Option.some.injEq] at hs
        subst hs
        obtain ⟨hb1, hb2⟩ := hin
        refine ⟨m, hm, b, t, hst, hb1, ?_⟩
        have := at_ m hm b t hst (q - b) (by simp only at hb1 hb2; omega)
        rw [← this]
        have e : b + (q - b) = q := by simp only at hb1; omega
        rw [e]; exact hqc
    · exact .inr ⟨hqc, k, hc.mem_iff.1 hk, hin⟩
  · rintro (⟨m, hm, b, t, hmt, hb, hq⟩ | ⟨hqc, k, hk, hin⟩)
    · have hlt : q - b < t.length := by
        have := List.getElem?_eq_some_iff.1 hq
        exact this.1
      have e : b + (q - b) = q := by omega
      have := at_ m hm b t hmt (q - b) hlt
      rw [e, hq] at this
      refine ⟨this, .inl ⟨m, hm, ⟨b, b + t.length⟩, ?_, ?_⟩⟩
      · rw [Mutation.symbol_eq]
        have : m.symbolText (analyse o.optimise f).lang = some (b, t) := hmt
        rw [this]; rfl
      · exact ⟨hb, by show q < b + t.length; omega⟩
    · exact ⟨hqc, .inr ⟨k, hc.mem_iff.2 hk, hin⟩⟩

/-- C46, for parsed source text: where an operator symbol stood that is replaced, there
is the comma (or nothing, for a unary operator), and nothing of the symbol is left; the
operator symbol as such is found in the original. -/
theorem C46_source (o : Options) (req : Bool) (first : Nat) (f : ParsedFile) (out : Text) (p : Src)
    (h : (handleTU o req first (analyse o.optimise f)).output = some out)
    (hast : p.nodes = [f.ast]) (hsrc : p.str = f.src) (hl : p.Laid 0)
    (hc : (analyse o.optimise f).consts.Perm (p.consts 0))
    (m : Mutation) (ms1 ms2 : List Mutation)
    (hpost : (analyse o.optimise f).tree.post = ms1 ++ m :: ms2) (b : Nat) (t : Text)
    (hsym : m.symbolText f.lang = some (b, t))
    (hpre : (analyse o.optimise f).preludeOff.getD 0 ≤ b ∨
      b + t.length ≤ (analyse o.optimise f).preludeOff.getD 0) :
    ∃ (u v : Text) (i1 i2 : List Item) (x : Text),
      f.src = u ++ t ++ v ∧ u.length = b ∧
      Item.oldText i1 = u ∧ Item.oldText i2 = v ∧
      out = Item.newText i1 ++ x ++ m.newSymbol ++ Item.newText i2 ∧
      ∀ q c, (q, c) ∈ Item.gone (b + t.length) i2 →
        (∃ m' ∈ ms1 ++ ms2, ∃ sp, m'.symbol f.lang = some sp ∧ sp.has q) ∨
          ∃ k ∈ p.consts 0, k.span.has q := by
  obtain ⟨ls, h1, h2, h3, h4, h5, h6⟩ := source_layout o.optimise f p hast hsrc hl
  have ht := Lay.tidyL f.lang ls 0 h4
  have hcc := Lay.constsL_clear f.lang ls 0 h4 h6
  rw [← h1] at ht hcc
  rw [← h2] at ht
  rw [h3] at hcc
  rw [hpost] at ht hcc
  have hmem : m ∈ ms1 ++ m :: ms2 := by simp
  have hoth : ∀ m' ∈ ms1 ++ ms2, Mutation.Clear f.lang m m' := by
    have hp := ht.clear
    rw [List.pairwise_append, List.pairwise_cons] at hp
    intro m' hm'
    rcases List.mem_append.1 hm' with hm' | hm'
    · exact (hp.2.2 m' hm' m List.mem_cons_self).symm
    · exact hp.2.1.1 m' hm'
  have tok : TokenOf (analyse o.optimise f) m (ms1 ++ ms2) b t := by
    refine ⟨hsym, ?_, ?_, ?_, hpre⟩
    · intro m' hm' q hq
      rcases List.mem_cons.1 hm' with rfl | hm'
      · exact ht.own _ hmem b t hsym q hq
      · exact (hoth m' hm').left b t hsym q hq
    · intro m' hm' b' t' hm't
      exact ((hoth m' hm').syms b t b' t' hsym hm't).symm
    · intro k hk
      obtain ⟨c1, -, -, c4⟩ := hcc k (hc.mem_iff.1 hk)
      exact ⟨c1, c4 m hmem b t hsym⟩
  obtain ⟨r, hr⟩ := ht.spelt m hmem b t hsym
  rw [Nat.sub_zero] at hr
  have hins := (ht.inside m hmem).sym b t hsym
  have hu : (f.src.take b).length = b := by
    rw [List.length_take]; omega
  have hs : f.src = f.src.take b ++ t ++ r := by
    rw [List.append_assoc, hr, List.take_append_drop]
  obtain ⟨i1, i2, x, j1, j2, j3, j4⟩ := C46_partial o req first (analyse o.optimise f) out h m ms1 ms2 hpost
    b t (f.src.take b) t r tok hs hu rfl
  refine ⟨f.src.take b, r, i1, i2, x, hs, hu, j1, j2, j3, fun q c hq => ?_⟩
  rcases j4 q c hq with h | ⟨k, hk, hin⟩
  · exact .inl h
  · exact .inr ⟨k, hc.mem_iff.1 hk, hin⟩

/-- Among the mutations of the sample file are those of the operators `-`, `=` and
`++`. -/
example : ((analyse Sample.opts.optimise SampleSrc.parsed).tree.post.filterMap
    (·.symbolText SampleSrc.parsed.lang)) = [(13, t!"-"), (11, t!"="), (26, t!"++")] := by decide

end Dredd
