/-
C39: constants rewritten in place keep their value.
-/
import Verif.Proofs.Consts
import Verif.Proofs.Run
import Verif.Proofs.Decimal
import Verif.Spec.Constant
import Verif.Spec.SampleAst

namespace Dredd

theorem digitChar_ne_zero (d : Nat) (h : d < 10) (h0 : d ≠ 0) : Nat.digitChar d ≠ '0' := by
  have : d = 1 ∨ d = 2 ∨ d = 3 ∨ d = 4 ∨ d = 5 ∨ d = 6 ∨ d = 7 ∨ d = 8 ∨ d = 9 := by omega
  rcases this with rfl | rfl | rfl | rfl | rfl | rfl | rfl | rfl | rfl <;> decide

theorem natDec_first (n : Nat) (h : n ≠ 0) : ∃ c rest, natDec n = c :: rest ∧ c ≠ '0' := by
  induction n using Nat.strongRecOn with
  | _ n ih =>
    unfold natDec at *
    by_cases h10 : n < 10
    · rw [Nat.toDigits_of_lt_base h10]
      exact ⟨_, [], rfl, digitChar_ne_zero n h10 h⟩
    · obtain ⟨c, rest, h1, h2⟩ := ih (n / 10) (Nat.div_lt_self (by omega) (by omega)) (by omega)
      rw [Nat.toDigits_of_base_le (by omega) (by omega), h1]
      exact ⟨c, _, rfl, h2⟩

theorem natDec_literal (n : Nat) : IntLiteral (natDec n) n := by
  by_cases h : n = 0
  · subst h
    exact .inl ⟨by decide, rfl⟩
  · obtain ⟨c, rest, h1, h2⟩ := natDec_first n h
    refine .inr ⟨c, rest, h1, h2, (natDec_spec n).2.1, ?_⟩
    rw [(natDec_spec n).2.2]

theorem savedArg_mentions : (x : TArg) → ∀ a ∈ savedArg x, x.Mentions a
  | .expr e, a, h => by
    simp [savedArg] at h; subst h; exact .expr
  | .type as, a, h => by
    rw [savedArg] at h
    obtain ⟨x, hx, hm⟩ := list as a h
    exact .type hx hm
  | .other, a, h => by simp [savedArg] at h
where
  list : (as : List TArg) → ∀ a ∈ savedArg.savedArgs as, ∃ x ∈ as, x.Mentions a
  | [], a, h => by simp [savedArg.savedArgs] at h
  | x :: xs, a, h => by
    rw [savedArg.savedArgs] at h
    rcases List.mem_append.mp h with h | h
    · exact ⟨x, by simp, savedArg_mentions x a h⟩
    · obtain ⟨y, hy, hm⟩ := list xs a h
      exact ⟨y, by simp [hy], hm⟩

/-- Something holds of a node somewhere in the tree. -/
def Somewhere (root : Node) (P : Node → Prop) : Prop := ∃ p above n, Place root p above n ∧ P n

theorem notes_ast (l : Lang) (root : Node) :
    Notes l root (fun a => Somewhere root (UsesConstant a)) (fun a => Somewhere root (Asserts a))
      (fun a => Somewhere root (UsesConstant a)) where
  decl := by
    intro c d ks st hr _ h
    obtain ⟨above, hf⟩ := hr.fine
    unfold noteDecl
    split
    · rename_i a hk
      refine ⟨h.1, ?_, h.2.2⟩
      intro a' ha
      rcases List.mem_append.mp ha with ha | ha
      · exact h.2.1 a' ha
      · simp at ha; subst ha
        exact ⟨_, _, _, hf.place, d, ks, rfl, hk⟩
    · exact h
    · rename_i b dims hk
      refine ⟨?_, h.2.1, h.2.2⟩
      intro a ha
      rcases List.mem_append.mp ha with ha | ha
      · exact h.1 a ha
      · split at ha
        · exact ⟨_, _, _, hf.place, .field hk ha⟩
        · simp at ha
    · rename_i v hk
      refine ⟨?_, h.2.1, ?_⟩
      · intro a ha
        rcases List.mem_append.mp ha with ha | ha
        · exact h.1 a ha
        · split at ha
          · exact ⟨_, _, _, hf.place, .var hk ha⟩
          · simp at ha
      · intro a ha
        rcases List.mem_append.mp ha with ha | ha
        · exact h.2.2 a ha
        · obtain ⟨x, hx, hm⟩ := List.mem_flatMap.mp ha
          exact ⟨_, _, _, hf.place, .template hk hx (savedArg_mentions x a hm)⟩
    · exact h
  frame := by
    intro c s ks hr a ha
    obtain ⟨above, hf⟩ := hr.fine
    unfold frameArg at ha
    split at ha
    · rename_i e hk
      split at ha
      · rename_i a' adl member hc
        split at ha
        · simp at ha
        · simp at ha; subst ha
          exact ⟨_, _, _, hf.place, .frame hk hc⟩
      · simp at ha
    · simp at ha

theorem mem_freshArgs {a : ConstArg} : ∀ {as seen}, a ∈ freshArgs seen as → a ∈ as
  | [], _, h => by simp [freshArgs] at h
  | b :: bs, seen, h => by
    rw [freshArgs] at h
    split at h
    · exact List.mem_cons_of_mem _ (mem_freshArgs h)
    · rcases List.mem_cons.mp h with rfl | h
      · simp
      · exact List.mem_cons_of_mem _ (mem_freshArgs h)

theorem freshArgs_nodup : ∀ as seen,
    (∀ a ∈ freshArgs seen as, a.addr ∉ seen) ∧ ((freshArgs seen as).map ConstArg.addr).Nodup
  | [], _ => by simp [freshArgs]
  | b :: bs, seen => by
    rw [freshArgs]
    split
    · exact freshArgs_nodup bs seen
    · rename_i hb
      obtain ⟨h1, h2⟩ := freshArgs_nodup bs (b.addr :: seen)
      constructor
      · intro a ha
        rcases List.mem_cons.mp ha with rfl | ha
        · simpa using hb
        · exact fun hs => h1 a ha (List.mem_cons_of_mem _ hs)
      · rw [List.map_cons, List.nodup_cons]
        refine ⟨?_, h2⟩
        intro hm
        obtain ⟨a, ha, he⟩ := List.mem_map.mp hm
        exact h1 a ha (by simp [he])

theorem mem_rewriteToValue {a : ConstArg} {r : ConstRewrite} (h : r ∈ rewriteToValue a) :
    ∃ v, a.value = some v ∧ a.range = some r.span ∧ r.value = v.limited := by
  unfold rewriteToValue at h
  split at h
  · simp at h
  · rename_i v hv
    unfold rewriteConst at h
    split at h
    · simp at h
    · rename_i sp hs
      simp at h
      subst h
      exact ⟨v, hv, hs, rfl⟩

theorem limited_value (v : ApInt) (h0 : 0 ≤ v.value) (h1 : v.value < 2 ^ 64) :
    (v.limited : Int) = v.value := by
  unfold ApInt.value ApInt.limited at *
  split at h0
  · rename_i hs
    simp only [hs, if_true] at h1 ⊢
    have hw := v.bits.isLt
    rw [BitVec.toInt_eq_toNat_cond] at h0 h1 ⊢
    split at h0
    · rename_i hc
      simp only [hc, if_true] at h1 ⊢
      omega
    · exfalso
      omega
  · rename_i hs
    simp only [hs] at h1 ⊢
    simp at h1 ⊢
    omega

/-- C39 for constants from 0 to the greatest 64-bit number.  Every rewrite of a
constant replaces exactly the text of a constant that the program uses as array
size, template argument or builtin argument by a literal for its value, or the
text of the condition of a static assertion by `1`.  Missing from C39: negative
constants and those that need more than 64 bits, for which it is false
(`C39_false_negative`, `C39_false_wide`). -/
theorem C39_partial (o : Options) (first : Nat) (f : ParsedFile) (r : ConstRewrite)
    (hr : r ∈ (analyse o.optimise f).consts) :
    ∃ t, Edit.replace r.span.b (r.span.e - r.span.b) t ∈ fileEdits o first (analyse o.optimise f) ∧
      ((∃ a, Somewhere f.ast (Asserts a) ∧ a.range = some r.span ∧ IntLiteral t 1) ∨
       (∃ a v, Somewhere f.ast (UsesConstant a) ∧ a.range = some r.span ∧ a.value = some v ∧
         (0 ≤ v.value → v.value < 2 ^ 64 → IntLiteral t v.value))) := by
  refine ⟨natDec r.value, ?_, ?_⟩
  · simp only [fileEdits, finishEdits, List.mem_append, List.mem_map]
    exact .inl (.inl (.inr ⟨r, hr, rfl⟩))
  · obtain ⟨h1, h2, h3⟩ := visitTU_noted (notes_ast f.lang f.ast) o.optimise
    have val : ∀ a, Somewhere f.ast (UsesConstant a) → r ∈ rewriteToValue a →
        ∃ a v, Somewhere f.ast (UsesConstant a) ∧ a.range = some r.span ∧ a.value = some v ∧
         (0 ≤ v.value → v.value < 2 ^ 64 → IntLiteral (natDec r.value) v.value) := by
      intro a hs ha
      obtain ⟨v, hv, hsp, he⟩ := mem_rewriteToValue ha
      refine ⟨a, v, hs, hsp, hv, fun p q => ?_⟩
      rw [← limited_value v p q, he]
      exact natDec_literal _
    simp only [analyse, constRewrites, List.mem_append, List.mem_flatMap] at hr
    rcases hr with (⟨a, ha, hr⟩ | ⟨a, ha, hr⟩) | ⟨a, ha, hr⟩
    · exact .inr (val a (h1 a ha) hr)
    · left
      unfold rewriteConst at hr
      split at hr
      · simp at hr
      · rename_i sp hsp
        simp at hr
        subst hr
        exact ⟨a, h2 a ha, hsp, natDec_literal 1⟩
    · exact .inr (val a (h3 a (mem_freshArgs ha)) hr)

/-- A replacement of text in a file stems from a mutation or is the rewrite of a
constant. -/
theorem C39_only (o : Options) (first : Nat) (f : ParsedFile) (b n : Nat) (t : Text)
    (h : Edit.replace b n t ∈ fileEdits o first (analyse o.optimise f)) :
    Edit.replace b n t ∈ editsFrom f.lang o first first (analyse o.optimise f).tree.post ∨
    ∃ r ∈ (analyse o.optimise f).consts, b = r.span.b ∧ n = r.span.e - r.span.b ∧ t = natDec r.value := by
  simp only [fileEdits, finishEdits, List.mem_append, List.mem_map] at h
  rcases h with ((h | ⟨r, hr, he⟩) | ⟨_, _, he⟩) | h
  · exact .inl h
  · cases he
    exact .inr ⟨r, hr, rfl, rfl, rfl⟩
  · cases he
  · simp at h

/-- An argument is rewritten once, however often it is recorded. -/
theorem C39_once (st : VState) : ((freshArgs [] st.args).map ConstArg.addr).Nodup ∧
    ∀ a ∈ st.args, ∃ a' ∈ freshArgs [] st.args, a'.addr = a.addr := by
  refine ⟨(freshArgs_nodup st.args []).2, ?_⟩
  have : ∀ as seen, ∀ a ∈ as, a.addr ∈ seen ∨ ∃ a' ∈ freshArgs seen as, a'.addr = a.addr := by
    intro as
    induction as with
    | nil => simp
    | cons b bs ih =>
      intro seen a ha
      rw [freshArgs]
      split
      · rename_i hb
        rcases List.mem_cons.mp ha with rfl | ha
        · exact .inl (by simpa using hb)
        · exact ih seen a ha
      · rcases List.mem_cons.mp ha with rfl | ha
        · exact .inr ⟨a, by simp, rfl⟩
        · rcases ih (b.addr :: seen) a ha with h | ⟨a', h, he⟩
          · rcases List.mem_cons.mp h with h | h
            · exact .inr ⟨b, by simp, h.symm⟩
            · exact .inl h
          · exact .inr ⟨a', by simp [h], he⟩
  intro a ha
  rcases this st.args [] a ha with h | h
  · simp at h
  · exact h

namespace SampleAst
/-- `T<…> x;` with an integer constant as template argument, `int y[3];` and a
static assertion. -/
def constants (v : ApInt) : ParsedFile :=
  ⟨[], Sample.cpp, [], false, tu
    [.decl ⟨.var ⟨6, false, [], [.type [.other, .expr ⟨1, some ⟨2, 4⟩, some v⟩]], false, false, false⟩, some ⟨0, 7⟩⟩ [],
     .decl ⟨.var ⟨12, true, [⟨2, some ⟨14, 15⟩, some ⟨64, false, 3⟩⟩], [], false, false, false⟩, some ⟨8, 16⟩⟩ [],
     .decl ⟨.staticAssert ⟨3, some ⟨30, 36⟩, none⟩, some ⟨18, 37⟩⟩ []]⟩
end SampleAst

/-- C39 does not hold for negative constants: the template argument -1 is
replaced by 4294967295. -/
theorem C39_false_negative : ∃ (f : ParsedFile) (v : ApInt) (a : ConstArg) (sp : Span),
    v.value = -1 ∧ Somewhere f.ast (UsesConstant a) ∧ a.value = some v ∧ a.range = some sp ∧
    (∃ r ∈ (analyse true f).consts, r.span = sp) ∧
    ∀ r ∈ (analyse true f).consts, r.span = sp → ¬ IntLiteral (natDec r.value) v.value := by
  refine ⟨SampleAst.constants ⟨32, true, -1⟩, ⟨32, true, -1⟩, ⟨1, some ⟨2, 4⟩, some ⟨32, true, -1⟩⟩, ⟨2, 4⟩,
    by decide, ?_, rfl, rfl, by decide +kernel, ?_⟩
  · exact ⟨_, _, _, .kid (i := 0) .root rfl, .template rfl (List.mem_singleton.mpr rfl)
      (.type (x := .expr _) (by simp) .expr)⟩
  · intro r hr hs hl
    rcases hl with ⟨_, h⟩ | ⟨_, _, _, _, _, h⟩
    · exact absurd h (by decide)
    · rw [show (ApInt.value ⟨32, true, -1⟩) = -1 by decide] at h
      omega

/-- Nor does it for constants of more than 64 bits: 2^64 becomes 2^64 - 1. -/
theorem C39_false_wide : ∃ (f : ParsedFile) (v : ApInt) (a : ConstArg) (sp : Span),
    v.value = 2 ^ 64 ∧ Somewhere f.ast (UsesConstant a) ∧ a.value = some v ∧ a.range = some sp ∧
    ∃ r ∈ (analyse true f).consts, r.span = sp ∧ r.value = 2 ^ 64 - 1 := by
  refine ⟨SampleAst.constants ⟨128, true, 2 ^ 64⟩, ⟨128, true, 2 ^ 64⟩,
    ⟨1, some ⟨2, 4⟩, some ⟨128, true, 2 ^ 64⟩⟩, ⟨2, 4⟩, by decide +kernel, ?_, rfl, rfl, by decide +kernel⟩
  exact ⟨_, _, _, .kid (i := 0) .root rfl, .template rfl (List.mem_singleton.mpr rfl)
      (.type (x := .expr _) (by simp) .expr)⟩

/-- A file with constants of all three kinds to which `C39_partial` applies. -/
example : (analyse true (SampleAst.constants ⟨32, true, 7⟩)).consts =
    [⟨⟨14, 15⟩, 3⟩, ⟨⟨30, 36⟩, 1⟩, ⟨⟨2, 4⟩, 7⟩] := by decide +kernel

end Dredd
