/-
Laws of the rewriter: edits that stay within a part of the text can be looked at
on that part alone.
-/
import Verif.Proofs.Decls

namespace Dredd

theorem afters_append (es fs : List Edit) (o : Nat) :
    afters (es ++ fs) o = afters es o ++ afters fs o := by simp [afters]

theorem replacements_append (es fs : List Edit) (o : Nat) :
    replacements (es ++ fs) o = replacements es o ++ replacements fs o := by simp [replacements]

/-- Two lists of edits do the same at offset `p`. -/
structure SameAt (es fs : List Edit) (p : Nat) : Prop where
  bef : befores es p = befores fs p
  aft : afters es p = afters fs p
  rep : replacements es p = replacements fs p
  rem : removed es p = removed fs p

theorem SameAt.slot {es fs : List Edit} {p : Nat} (h : SameAt es fs p) :
    slot es p = slot fs p := by
  unfold Dredd.slot
  rw [h.bef, h.aft, h.rep]

theorem SameAt.symm {es fs : List Edit} {p : Nat} (h : SameAt es fs p) : SameAt fs es p :=
  ⟨h.bef.symm, h.aft.symm, h.rep.symm, h.rem.symm⟩

/-- The rewritten text up to, and not including, what is inserted at its end. -/
def rewriteFront (es : List Edit) (o : Nat) : Text → Text
  | [] => []
  | c :: cs => slot es o ++ (if removed es o then [] else [c]) ++ rewriteFront es (o + 1) cs

theorem rewriteFrom_split (es : List Edit) (o : Nat) (s t : Text) :
    rewriteFrom es o (s ++ t) = rewriteFront es o s ++ rewriteFrom es (o + s.length) t := by
  induction s generalizing o with
  | nil => simp [rewriteFront]
  | cons c cs ih =>
    simp only [List.cons_append, rewriteFrom, rewriteFront, ih, List.length_cons]
    rw [show o + 1 + cs.length = o + (cs.length + 1) by omega]
    simp only [List.append_assoc]

theorem rewriteFrom_end (es : List Edit) (o : Nat) (s : Text) :
    rewriteFrom es o s = rewriteFront es o s ++ slot es (o + s.length) := by
  have := rewriteFrom_split es o s []
  simpa [rewriteFrom] using this

theorem rewriteFront_congr (es fs : List Edit) (o : Nat) (s : Text)
    (h : ∀ p, o ≤ p → p < o + s.length → SameAt es fs p) :
    rewriteFront es o s = rewriteFront fs o s := by
  induction s generalizing o with
  | nil => rfl
  | cons c cs ih =>
    have h0 := h o (Nat.le_refl _) (by simp)
    simp only [rewriteFront, h0.slot, h0.rem]
    rw [ih (o + 1) fun p h1 h2 => h p (by omega) (by simp at h2 ⊢; omega)]

theorem rewriteFrom_congr (es fs : List Edit) (o : Nat) (s : Text)
    (h : ∀ p, o ≤ p → p ≤ o + s.length → SameAt es fs p) :
    rewriteFrom es o s = rewriteFrom fs o s := by
  rw [rewriteFrom_end, rewriteFrom_end, rewriteFront_congr es fs o s fun p h1 h2 =>
    h p h1 (Nat.le_of_lt h2), (h (o + s.length) (by omega) (Nat.le_refl _)).slot]

/-- The edits concern only the part of the text from `o` on that has length `n`:
text is inserted in front of a character of that part, behind a character of that
part, or put in place of characters of that part. -/
structure Within (es : List Edit) (o n : Nat) : Prop where
  bef : ∀ p, p < o ∨ o + n ≤ p → befores es p = []
  aft : ∀ p, p ≤ o ∨ o + n < p → afters es p = []
  rep : ∀ p, p < o ∨ o + n ≤ p → replacements es p = []
  rem : ∀ p, p < o ∨ o + n ≤ p → removed es p = false

theorem Within.nil (o n : Nat) : Within [] o n :=
  ⟨fun _ _ => rfl, fun _ _ => rfl, fun _ _ => rfl, fun _ _ => rfl⟩

theorem Within.append {A B : List Edit} {o n : Nat} (hA : Within A o n) (hB : Within B o n) :
    Within (A ++ B) o n := by
  constructor <;> intro p hp
  · rw [befores_append, hA.bef p hp, hB.bef p hp]; rfl
  · rw [afters_append, hA.aft p hp, hB.aft p hp]; rfl
  · rw [replacements_append, hA.rep p hp, hB.rep p hp]; rfl
  · rw [removed_append, hA.rem p hp, hB.rem p hp]; rfl

theorem Within.mono {A : List Edit} {o n o' n' : Nat} (hA : Within A o n) (h1 : o' ≤ o)
    (h2 : o + n ≤ o' + n') : Within A o' n' := by
  constructor <;> intro p hp
  · exact hA.bef p (by omega)
  · exact hA.aft p (by omega)
  · exact hA.rep p (by omega)
  · exact hA.rem p (by omega)

theorem Within.congr {A B : List Edit} {o n : Nat} (hA : Within A o n)
    (h : ∀ p, SameAt A B p) : Within B o n := by
  constructor <;> intro p hp
  · rw [← (h p).bef, hA.bef p hp]
  · rw [← (h p).aft, hA.aft p hp]
  · rw [← (h p).rep, hA.rep p hp]
  · rw [← (h p).rem, hA.rem p hp]

/-- The edits concern only the text `s` at offset `o`, and turn it into `x`. -/
structure Turns (es : List Edit) (o : Nat) (s x : Text) : Prop where
  within : Within es o s.length
  eq : rewriteFrom es o s = x

theorem Turns.congr {A B : List Edit} {o : Nat} {s x : Text} (hA : Turns A o s x)
    (h : ∀ p, SameAt A B p) : Turns B o s x :=
  ⟨hA.within.congr h, by rw [← hA.eq]; exact rewriteFrom_congr _ _ _ _ fun p _ _ => (h p).symm⟩

theorem rewriteFrom_nil (o : Nat) (s : Text) : rewriteFrom [] o s = s := by
  induction s generalizing o with
  | nil => rfl
  | cons c cs ih => simp [rewriteFrom, ih, slot, befores, afters, replacements, removed]

theorem Turns.nil (o : Nat) (s : Text) : Turns [] o s s :=
  ⟨Within.nil _ _, rewriteFrom_nil o s⟩

/-- Two neighbouring parts of the text are changed independently, unless text is
inserted both behind the last character of the first and in front of the first
character of the second part. -/
theorem Turns.append {A B : List Edit} {o : Nat} {s t x y : Text} (hA : Turns A o s x)
    (hB : Turns B (o + s.length) t y)
    (hsep : afters A (o + s.length) = [] ∨ befores B (o + s.length) = []) :
    Turns (A ++ B) o (s ++ t) (x ++ y) := by
  refine ⟨(hA.within.mono (Nat.le_refl _) (by simp)).append
    (hB.within.mono (by omega) (by simp; omega)), ?_⟩
  have hl : ∀ p, p < o + s.length → SameAt (A ++ B) A p := by
    intro p hp
    constructor
    · rw [befores_append, hB.within.bef p (.inl hp)]; rfl
    · rw [afters_append, hB.within.aft p (.inl (Nat.le_of_lt hp)), List.append_nil]
    · rw [replacements_append, hB.within.rep p (.inl hp), List.append_nil]
    · rw [removed_append, hB.within.rem p (.inl hp), Bool.or_false]
  have hr : ∀ p, o + s.length < p → SameAt (A ++ B) B p := by
    intro p hp
    constructor
    · rw [befores_append, hA.within.bef p (.inr (Nat.le_of_lt hp)), List.append_nil]
    · rw [afters_append, hA.within.aft p (.inr hp)]; rfl
    · rw [replacements_append, hA.within.rep p (.inr (Nat.le_of_lt hp))]; rfl
    · rw [removed_append, hA.within.rem p (.inr (Nat.le_of_lt hp))]; rfl
  have hAe : slot A (o + s.length) = afters A (o + s.length) := by
    unfold slot
    rw [hA.within.bef _ (.inr (Nat.le_refl _)), hA.within.rep _ (.inr (Nat.le_refl _))]
    simp
  have hslot : slot (A ++ B) (o + s.length) = afters A (o + s.length) ++ slot B (o + s.length) := by
    unfold slot
    rw [befores_append, afters_append, replacements_append,
      hA.within.bef _ (.inr (Nat.le_refl _)), hA.within.rep _ (.inr (Nat.le_refl _)),
      hB.within.aft _ (.inl (Nat.le_refl _))]
    rcases hsep with h | h <;> rw [h] <;> simp
  have hrem : removed (A ++ B) (o + s.length) = removed B (o + s.length) := by
    rw [removed_append, hA.within.rem _ (.inr (Nat.le_refl _))]; rfl
  rw [← hA.eq, ← hB.eq, rewriteFrom_split, rewriteFrom_end A,
    rewriteFront_congr _ _ _ _ fun p _ h2 => hl p h2, hAe, List.append_assoc]
  congr 1
  cases t with
  | nil => simp only [rewriteFrom, hslot]
  | cons c cs =>
    simp only [rewriteFrom, hslot, hrem]
    rw [rewriteFrom_congr _ _ _ _ fun p h1 _ => hr p (by omega)]
    simp only [List.append_assoc]

/-- The two insertions around a part of the text. -/
theorem Turns.wrap {A : List Edit} {o : Nat} {s x : Text} (hA : Turns A o s x) (hs : s ≠ [])
    (pre post : List Piece) :
    Turns (A ++ [.before o pre, .after (o + s.length) post]) o s
      (renderPieces pre ++ x ++ renderPieces post) := by
  have hn : 0 < s.length := List.length_pos_iff.2 hs
  have hb : ∀ p, befores [.before o pre, .after (o + s.length) post] p
      = if o = p then renderPieces pre else [] := by
    intro p; simp [befores, Edit.beforeAt]
  have ha : ∀ p, afters [.before o pre, .after (o + s.length) post] p
      = if o + s.length = p then renderPieces post else [] := by
    intro p; simp [afters, Edit.afterAt]
  have hrp : ∀ p, replacements [.before o pre, .after (o + s.length) post] p = [] := by
    intro p; simp [replacements, Edit.replaceAt]
  have hrm : ∀ p, removed [.before o pre, .after (o + s.length) post] p = false := by
    intro p; simp [removed, Edit.removesAt]
  have hW : Within [.before o pre, .after (o + s.length) post] o s.length := by
    constructor <;> intro p hp
    · rw [hb, if_neg (by omega)]
    · rw [ha, if_neg (by omega)]
    · exact hrp p
    · exact hrm p
  refine ⟨hA.within.append hW, ?_⟩
  rw [← hA.eq]
  obtain ⟨c, cs, rfl⟩ := List.exists_cons_of_ne_nil hs
  have h0 : slot (A ++ [.before o pre, .after (o + (c :: cs).length) post]) o
      = renderPieces pre ++ slot A o := by
    unfold slot
    rw [befores_append, afters_append, replacements_append, hb, ha, hrp, if_pos rfl,
      if_neg (by simp)]
    simp
  have hmid : ∀ p, o < p → p < o + (c :: cs).length →
      SameAt (A ++ [.before o pre, .after (o + (c :: cs).length) post]) A p := by
    intro p h1 h2
    constructor
    · rw [befores_append, hb, if_neg (by omega)]; rfl
    · rw [afters_append, ha, if_neg (by omega), List.append_nil]
    · rw [replacements_append, hrp, List.append_nil]
    · rw [removed_append, hrm, Bool.or_false]
  have hend : slot (A ++ [.before o pre, .after (o + (c :: cs).length) post])
      (o + (c :: cs).length) = slot A (o + (c :: cs).length) ++ renderPieces post := by
    unfold slot
    rw [befores_append, afters_append, replacements_append, hb, ha, hrp, if_neg (by simp),
      if_pos rfl, hA.within.rep _ (.inr (Nat.le_refl _))]
    simp
  rw [rewriteFrom_end, rewriteFrom_end A, hend]
  simp only [rewriteFront, h0]
  rw [rewriteFront_congr _ A (o + 1) cs fun p h1 h2 =>
    hmid p (by omega) (by simp at h2 ⊢; omega)]
  rw [removed_append, hrm, Bool.or_false]
  simp only [List.append_assoc]

theorem rewriteFront_removed (es : List Edit) (o : Nat) (s : Text)
    (h : ∀ p, o ≤ p → p < o + s.length → removed es p = true)
    (h' : ∀ p, o ≤ p → p < o + s.length → slot es p = []) : rewriteFront es o s = [] := by
  induction s generalizing o with
  | nil => rfl
  | cons c cs ih =>
    simp only [rewriteFront, h' o (Nat.le_refl _) (by simp), h o (Nat.le_refl _) (by simp)]
    rw [ih (o + 1) (fun p h1 h2 => h p (by omega) (by simp at h2 ⊢; omega))
      (fun p h1 h2 => h' p (by omega) (by simp at h2 ⊢; omega))]
    rfl

/-- A replacement. -/
theorem Turns.replace (o : Nat) (s new : Text) (hs : s ≠ []) :
    Turns [.replace o s.length new] o s new := by
  have hn : 0 < s.length := List.length_pos_iff.2 hs
  have hrp : ∀ p, replacements [.replace o s.length new] p = if o = p then new else [] := by
    intro p; simp [replacements, Edit.replaceAt]
  have hrm : ∀ p, removed [.replace o s.length new] p
      = (decide (o ≤ p) && decide (p < o + s.length)) := by
    intro p; simp [removed, Edit.removesAt]
  have hb : ∀ p, befores [.replace o s.length new] p = [] := by
    intro p; simp [befores, Edit.beforeAt]
  have ha : ∀ p, afters [.replace o s.length new] p = [] := by
    intro p; simp [afters, Edit.afterAt]
  refine ⟨⟨fun p _ => hb p, fun p _ => ha p, fun p hp => ?_, fun p hp => ?_⟩, ?_⟩
  · rw [hrp, if_neg (by omega)]
  · rw [hrm]; simp; omega
  · obtain ⟨c, cs, rfl⟩ := List.exists_cons_of_ne_nil hs
    have hne : ∀ p, o < p → slot [.replace o (c :: cs).length new] p = [] := by
      intro p hp
      unfold slot
      rw [hb, ha, hrp, if_neg (by omega)]; rfl
    rw [rewriteFrom_end, hne _ (by simp)]
    simp only [rewriteFront]
    rw [rewriteFront_removed _ (o + 1) cs (fun p h1 h2 => by rw [hrm]; simp at h2 ⊢; omega)
      (fun p h1 h2 => hne p (by omega))]
    have : slot [.replace o (c :: cs).length new] o = new := by
      unfold slot
      rw [hb, ha, hrp, if_pos rfl]; rfl
    rw [this, hrm]
    simp

end Dredd
