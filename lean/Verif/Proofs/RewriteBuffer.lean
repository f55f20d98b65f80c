/-
Clang's rewrite buffer does what `rewrite` says, if the calls do not get in each
other's way.
-/
import Verif.Model.RewriteBuffer
import Verif.Proofs.Rewrite

namespace Dredd

/-- A call does the same as an edit. -/
inductive RwCall.Does : RwCall → Edit → Prop
  | before (p : Nat) (t : List Piece) : Does (.insertBefore p (renderPieces t)) (.before p t)
  | after (p n : Nat) (t : List Piece) :
    Does (.insertAfterToken p n (renderPieces t)) (.after (p + n) t)
  | replace (p n : Nat) (t : Text) : Does (.replace p n t) (.replace p n t)
  | range (b k n : Nat) (t : Text) : 0 < n → Does (.replaceRange b (b + k) n t) (.replace b (k + n) t)

/-- The call replaces a range of tokens. -/
def RwCall.isRange : RwCall → Bool
  | .replaceRange .. => true
  | _ => false

/-- The edit is within the text. -/
def Edit.Inside (n : Nat) : Edit → Prop
  | .before p _ => p ≤ n
  | .after p _ => p ≤ n
  | .replace p k _ => 0 < k ∧ p + k ≤ n

/-- A later edit `f` is not in the way of an earlier edit `e`; `range` says whether the later one
replaces a range of tokens. -/
def Edit.Clear (range : Bool) (e f : Edit) : Prop :=
  match e, f with
  | .replace p n _, .replace q m _ => p + n ≤ q ∨ q + m ≤ p
  | .replace p n _, .before q _ => q ≤ p ∨ p + n ≤ q
  | .replace p n _, .after q _ => q ≤ p ∨ p + n ≤ q
  | .before q _, .replace p n _ => (if range then q < p else q ≤ p) ∨ p + n ≤ q
  | .after q _, .replace p n _ => (if range then q < p else q ≤ p) ∨ p + n ≤ q
  | _, _ => True

/-- How much the text grows in front of `k` (in the numbering of the table of deltas). -/
def Edit.grow (k : Nat) : Edit → Int
  | .before p t => if 2 * p < k then ((renderPieces t).length : Int) else 0
  | .after p t => if 2 * p < k then ((renderPieces t).length : Int) else 0
  | .replace p n t => if 2 * p + 1 < k then (t.length : Int) - n else 0

def growth (es : List Edit) (k : Nat) : Int := (es.map (Edit.grow k)).sum

theorem growth_snoc (es : List Edit) (e : Edit) (k : Nat) :
    growth (es ++ [e]) k = growth es k + e.grow k := by
  simp [growth]

/-- Text is inserted at the beginning, or the end, of a position. -/
theorem slot_length (es : List Edit) (o : Nat) :
    (slot es o).length = (befores es o).length + (afters es o).length + (replacements es o).length := by
  simp [slot]; omega

theorem befores_snoc_length (es : List Edit) (e : Edit) (o : Nat) :
    (befores (es ++ [e]) o).length = (befores es o).length + (e.beforeAt o).length := by
  simp [befores]; omega

theorem afters_snoc_length (es : List Edit) (e : Edit) (o : Nat) :
    (afters (es ++ [e]) o).length = (afters es o).length + (e.afterAt o).length := by
  simp [afters]

theorem replacements_snoc_length (es : List Edit) (e : Edit) (o : Nat) :
    (replacements (es ++ [e]) o).length = (replacements es o).length + (e.replaceAt o).length := by
  simp [replacements]

theorem removed_snoc (es : List Edit) (e : Edit) (o : Nat) :
    removed (es ++ [e]) o = (removed es o || e.removesAt o) := by
  simp [removed]

/-- What the text in front of an offset gains by another edit. -/
def Edit.gain (o n : Nat) : Edit → Int
  | .before p t => if o ≤ p ∧ p < o + n then ((renderPieces t).length : Int) else 0
  | .after p t => if o ≤ p ∧ p < o + n then ((renderPieces t).length : Int) else 0
  | .replace p m t => (if o ≤ p ∧ p < o + n then (t.length : Int) else 0) -
      ((min (p + m) (o + n) - max p o : Nat) : Int)

theorem front_gain (es : List Edit) (e : Edit)
    (h : ∀ q, e.removesAt q = true → removed es q = false) (s : Text) (o : Nat) :
    ((rewriteFront (es ++ [e]) o s).length : Int) = (rewriteFront es o s).length + e.gain o s.length := by
  induction s generalizing o with
  | nil => cases e <;> simp [rewriteFront, Edit.gain] <;> omega
  | cons c cs ih =>
    have ih := ih (o + 1)
    have h1 := slot_length es o
    have h2 := slot_length (es ++ [e]) o
    rw [befores_snoc_length, afters_snoc_length, replacements_snoc_length] at h2
    have h3 := removed_snoc es e o
    have h4 := h o
    simp only [rewriteFront, List.length_append, List.length_cons]
    have hkeep : ∀ b : Bool, (if b then ([] : Text) else [c]).length = if b then 0 else 1 := by
      intro b; cases b <;> rfl
    rw [hkeep, hkeep, h3]
    cases e with
    | before p t =>
      simp only [Edit.beforeAt, Edit.afterAt, Edit.replaceAt, Edit.removesAt, Bool.or_false, Edit.gain,
        List.length_nil] at *
      split at h2 <;> split at ih <;> split <;> simp_all <;> omega
    | after p t =>
      simp only [Edit.beforeAt, Edit.afterAt, Edit.replaceAt, Edit.removesAt, Bool.or_false, Edit.gain,
        List.length_nil] at *
      split at h2 <;> split at ih <;> split <;> simp_all <;> omega
    | replace p m t =>
      simp only [Edit.beforeAt, Edit.afterAt, Edit.replaceAt, Edit.removesAt, Edit.gain,
        List.length_nil] at *
      by_cases hr : p ≤ o ∧ o < p + m
      · have h4 := h4 (by simp [hr])
        simp only [hr, h4, decide_true, Bool.and_self, Bool.or_true, if_true,
          Bool.false_eq_true, if_false]
        split at h2 <;> split at ih <;> split <;> simp_all <;> omega
      · have : (decide (p ≤ o) && decide (o < p + m)) = false := by simp; omega
        simp only [this, Bool.or_false]
        split at h2 <;> split at ih <;> split <;> simp_all <;> omega

/-- The offset is not within text that is replaced, except at its begin. -/
def NotInside (es : List Edit) (o : Nat) : Prop :=
  ∀ p n t, .replace p n t ∈ es → o ≤ p ∨ p + n ≤ o

theorem Edit.gain_eq_grow (e : Edit) (o : Nat) (h : NotInside [e] o) : e.gain 0 o = e.grow (2 * o) := by
  cases e with
  | before p t => simp only [Edit.gain, Edit.grow]; split <;> split <;> omega
  | after p t => simp only [Edit.gain, Edit.grow]; split <;> split <;> omega
  | replace p m t =>
    have := h p m t (List.mem_singleton.2 rfl)
    simp only [Edit.gain, Edit.grow]
    split <;> split <;> omega

theorem Edit.grow_at (e : Edit) (o : Nat) :
    e.grow (2 * o + 1) = e.grow (2 * o) + (e.beforeAt o).length + (e.afterAt o).length := by
  cases e with
  | before p t =>
    simp only [Edit.grow, Edit.beforeAt, Edit.afterAt]
    by_cases h : p = o
    · subst h; simp
    · simp only [if_neg h, List.length_nil]; split <;> split <;> omega
  | after p t =>
    simp only [Edit.grow, Edit.beforeAt, Edit.afterAt]
    by_cases h : p = o
    · subst h; simp
    · simp only [if_neg h, List.length_nil]; split <;> split <;> omega
  | replace p m t =>
    simp only [Edit.grow, Edit.beforeAt, Edit.afterAt, List.length_nil]; split <;> split <;> omega

/-- The buffer holds the rewritten text, and the table of deltas says where things are. -/
structure BufInv (src : Text) (es : List Edit) (b : RewBuf) : Prop where
  inside : ∀ e ∈ es, e.Inside src.length
  text : b.text = rewrite src es
  delta : ∀ k, b.deltaAt k = growth es k
  len : ∀ o, o ≤ src.length → NotInside es o →
    ((rewriteFront es 0 (src.take o)).length : Int) = o + growth es (2 * o)
  ins : ∀ o, growth es (2 * o + 1) = growth es (2 * o) + (befores es o).length + (afters es o).length

theorem BufInv.start (src : Text) : BufInv src [] (.start src) where
  inside := by simp
  text := (rewriteFrom_nil 0 src).symm
  delta := fun _ => rfl
  len := fun o ho _ => by
    have := rewriteFrom_end [] 0 (src.take o)
    rw [rewriteFrom_nil] at this
    simp only [slot, befores, afters, replacements, List.reverse_nil, List.flatMap_nil,
      List.append_nil] at this
    rw [← this]
    simp [growth]
    omega
  ins := fun o => by simp [growth, befores, afters]

theorem BufInv.mapped_false {src : Text} {es : List Edit} {b : RewBuf} (h : BufInv src es b) {o : Nat}
    (ho : o ≤ src.length) (hi : NotInside es o) :
    b.mapped o false = (rewriteFront es 0 (src.take o)).length := by
  have := h.len o ho hi
  have hd := h.delta (2 * o)
  simp only [RewBuf.mapped, Bool.false_eq_true, if_false, Nat.add_zero]
  omega

theorem BufInv.mapped_true {src : Text} {es : List Edit} {b : RewBuf} (h : BufInv src es b) {o : Nat}
    (ho : o ≤ src.length) (hi : NotInside es o) :
    b.mapped o true =
      (rewriteFront es 0 (src.take o)).length + (befores es o).length + (afters es o).length := by
  have := h.len o ho hi
  have hd := h.delta (2 * o + 1)
  have hn := h.ins o
  simp only [RewBuf.mapped, if_true]
  omega

/-- The rest of the text behind what is put in front of a character. -/
def rewriteRest (es : List Edit) (o : Nat) : Text → Text
  | [] => []
  | c :: cs => (if removed es o then [] else [c]) ++ rewriteFrom es (o + 1) cs

theorem rewriteFrom_rest (es : List Edit) (o : Nat) (s : Text) :
    rewriteFrom es o s = slot es o ++ rewriteRest es o s := by
  cases s <;> simp [rewriteFrom, rewriteRest]

theorem rewrite_parts (es : List Edit) (src : Text) (o : Nat) (ho : o ≤ src.length) :
    rewrite src es = rewriteFront es 0 (src.take o) ++ slot es o ++ rewriteRest es o (src.drop o) := by
  have := rewriteFrom_split es 0 (src.take o) (src.drop o)
  rw [List.take_append_drop, List.length_take, Nat.min_eq_left ho, Nat.zero_add,
    rewriteFrom_rest es o] at this
  rw [rewrite, this, List.append_assoc]

/-- The edit does nothing at `q`. -/
def Edit.Quiet (e : Edit) (q : Nat) : Prop :=
  e.beforeAt q = [] ∧ e.afterAt q = [] ∧ e.replaceAt q = [] ∧ e.removesAt q = false

theorem Edit.Quiet.same {e : Edit} {q : Nat} (h : e.Quiet q) (es : List Edit) :
    SameAt (es ++ [e]) es q := by
  obtain ⟨h1, h2, h3, h4⟩ := h
  constructor
  · simp [befores, h1]
  · simp [afters, h2]
  · simp [replacements, h3]
  · simp [removed, h4]

theorem rewriteRest_congr (es fs : List Edit) (o : Nat) (s : Text)
    (hr : removed es o = removed fs o) (h : ∀ p, o < p → SameAt es fs p) :
    rewriteRest es o s = rewriteRest fs o s := by
  cases s with
  | nil => rfl
  | cons c cs =>
    simp only [rewriteRest, hr]
    rw [rewriteFrom_congr es fs (o + 1) cs fun p hp _ => h p hp]

theorem splice {α : Type} (a b c t : List α) (k : Nat) (hk : k = a.length + b.length) :
    (a ++ b ++ c).take k ++ t ++ (a ++ b ++ c).drop k = a ++ (b ++ t) ++ c := by
  subst hk
  rw [← List.length_append, List.take_left, List.drop_left]
  simp

theorem RewBuf.insertText_text (b : RewBuf) (o : Nat) (t : Text) (f : Bool) :
    (b.insertText o t f).text = b.text.take (b.mapped o f) ++ t ++ b.text.drop (b.mapped o f) := by
  unfold RewBuf.insertText
  split
  · have : t = [] := by simpa using ‹t.isEmpty = true›
    simp [this]
  · rfl

theorem RewBuf.insertText_delta (b : RewBuf) (o : Nat) (t : Text) (f : Bool) (k : Nat) :
    (b.insertText o t f).deltaAt k = b.deltaAt k + if 2 * o < k then (t.length : Int) else 0 := by
  unfold RewBuf.insertText
  split
  · have : t = [] := by simpa using ‹t.isEmpty = true›
    simp [this]
  · simp only [RewBuf.deltaAt, List.filter_cons]
    by_cases h : 2 * o < k
    · simp [h]; omega
    · simp [h]

theorem RewBuf.replaceText_delta (b : RewBuf) (o n : Nat) (t : Text) (k : Nat) :
    (b.replaceText o n t).deltaAt k
      = b.deltaAt k + if 2 * o + 1 < k then (t.length : Int) - n else 0 := by
  unfold RewBuf.replaceText
  by_cases hn : n = t.length
  · simp [hn, RewBuf.deltaAt]
  · simp only [RewBuf.deltaAt, hn, ne_eq, not_false_iff, if_true, List.filter_cons]
    by_cases h : 2 * o + 1 < k
    · simp [h]; omega
    · simp [h]

/-- Everything but the text. -/
theorem BufInv.rest {src : Text} {es : List Edit} {b b' : RewBuf} {e : Edit} (h : BufInv src es b)
    (he : e.Inside src.length) (hc : ∀ q, e.removesAt q = true → removed es q = false)
    (ht : b'.text = rewrite src (es ++ [e])) (hd : ∀ k, b'.deltaAt k = b.deltaAt k + e.grow k) :
    BufInv src (es ++ [e]) b' where
  inside := by
    intro x hx
    rcases List.mem_append.1 hx with hx | hx
    · exact h.inside x hx
    · rw [List.mem_singleton.1 hx]; exact he
  text := ht
  delta := fun k => by rw [hd, h.delta, growth_snoc]
  len := fun o ho hi => by
    have h1 : NotInside es o := fun p n t hp => hi p n t (List.mem_append_left _ hp)
    have h2 : NotInside [e] o := fun p n t hp => hi p n t (List.mem_append_right _ hp)
    have h3 := h.len o ho h1
    have h4 := front_gain es e hc (src.take o) 0
    rw [List.length_take, Nat.min_eq_left ho, e.gain_eq_grow o h2] at h4
    rw [growth_snoc]
    omega
  ins := fun o => by
    have h1 := h.ins o
    have h2 := e.grow_at o
    rw [growth_snoc, growth_snoc, befores_snoc_length, afters_snoc_length]
    omega

theorem BufInv.before {src : Text} {es : List Edit} {b : RewBuf} (h : BufInv src es b) (p : Nat)
    (t : List Piece) (hp : p ≤ src.length) (hi : NotInside es p) :
    BufInv src (es ++ [.before p t]) (b.insertText p (renderPieces t) false) := by
  refine h.rest hp (by simp [Edit.removesAt]) ?_ fun k => by
    rw [RewBuf.insertText_delta]; rfl
  have hq : ∀ q, q ≠ p → (Edit.before p t).Quiet q := fun q hq =>
    ⟨by simp [Edit.beforeAt, hq.symm], rfl, rfl, rfl⟩
  rw [RewBuf.insertText_text, h.mapped_false hp hi, h.text, rewrite_parts es src p hp,
    rewrite_parts (es ++ _) src p hp,
    List.append_assoc (rewriteFront es 0 (src.take p)), List.take_left, List.drop_left,
    rewriteFront_congr (es ++ _) es 0 _ fun q _ hq' => (hq q (by
      simp only [List.length_take] at hq'; omega)).same es,
    rewriteRest_congr (es ++ _) es p _ (by simp [removed, Edit.removesAt]) fun q hq' =>
      (hq q (by omega)).same es]
  have : slot (es ++ [.before p t]) p = renderPieces t ++ slot es p := by
    simp [slot, befores, afters, replacements, Edit.beforeAt, Edit.afterAt, Edit.replaceAt]
  rw [this]
  simp

theorem BufInv.after {src : Text} {es : List Edit} {b : RewBuf} (h : BufInv src es b) (p : Nat)
    (t : List Piece) (hp : p ≤ src.length) (hi : NotInside es p) :
    BufInv src (es ++ [.after p t]) (b.insertText p (renderPieces t) true) := by
  refine h.rest hp (by simp [Edit.removesAt]) ?_ fun k => by
    rw [RewBuf.insertText_delta]; rfl
  have hq : ∀ q, q ≠ p → (Edit.after p t).Quiet q := fun q hq =>
    ⟨rfl, by simp [Edit.afterAt, hq.symm], rfl, rfl⟩
  rw [RewBuf.insertText_text, h.mapped_true hp hi, h.text, rewrite_parts es src p hp,
    rewrite_parts (es ++ _) src p hp,
    rewriteFront_congr (es ++ _) es 0 _ fun q _ hq' => (hq q (by
      simp only [List.length_take] at hq'; omega)).same es,
    rewriteRest_congr (es ++ _) es p _ (by simp [removed, Edit.removesAt]) fun q hq' =>
      (hq q (by omega)).same es]
  have h1 : slot (es ++ [.after p t]) p
      = (befores es p ++ afters es p) ++ renderPieces t ++ replacements es p := by
    simp [slot, befores, afters, replacements, Edit.beforeAt, Edit.afterAt, Edit.replaceAt]
  have h2 := splice (rewriteFront es 0 (src.take p)) (befores es p ++ afters es p)
    (replacements es p ++ rewriteRest es p (src.drop p)) (renderPieces t) _
    (by rw [List.length_append, ← Nat.add_assoc])
  rw [h1, slot]
  simp only [List.append_assoc] at h2 ⊢
  exact h2

theorem rewriteFront_keep (es : List Edit) (o : Nat) (s : Text)
    (h : ∀ q, o ≤ q → q < o + s.length → removed es q = false ∧ slot es q = []) :
    rewriteFront es o s = s := by
  induction s generalizing o with
  | nil => rfl
  | cons c cs ih =>
    simp only [List.length_cons] at h
    obtain ⟨h1, h2⟩ := h o (Nat.le_refl _) (by omega)
    rw [rewriteFront, h1, h2, ih (o + 1) fun q a b => h q (by omega) (by omega)]
    rfl

theorem BufInv.replace {src : Text} {es : List Edit} {b : RewBuf} (h : BufInv src es b) (p n : Nat)
    (t : Text) (hn : 0 < n) (hp : p + n ≤ src.length)
    (hc : ∀ e ∈ es, e.Clear false (.replace p n t)) :
    BufInv src (es ++ [.replace p n t]) (b.replaceText p n t) := by
  have hi : NotInside es p := fun q m u hq => by
    have : q + m ≤ p ∨ p + n ≤ q := hc _ hq
    omega
  have hrem : ∀ q, p ≤ q → q < p + n → removed es q = false := by
    intro q h1 h2
    simp only [removed, List.any_eq_false]
    intro e he
    have := hc e he
    cases e with
    | replace a m u =>
      have : a + m ≤ p ∨ p + n ≤ a := this
      simp [Edit.removesAt]; omega
    | _ => simp [Edit.removesAt]
  have hrep : ∀ q, p ≤ q → q < p + n → replacements es q = [] := by
    intro q h1 h2
    simp only [replacements, List.flatMap_eq_nil_iff]
    intro e he
    have := hc e he
    have hins := h.inside e he
    cases e with
    | replace a m u =>
      have : a + m ≤ p ∨ p + n ≤ a := this
      have : 0 < m ∧ a + m ≤ src.length := hins
      simp only [Edit.replaceAt]
      rw [if_neg (by omega)]
    | _ => simp [Edit.replaceAt]
  have hins : ∀ q, p < q → q < p + n → befores es q = [] ∧ afters es q = [] := by
    intro q h1 h2
    simp only [befores, afters, List.flatMap_eq_nil_iff, List.mem_reverse]
    constructor <;> intro e he <;> have := hc e he <;> cases e with
    | replace a m u => simp [Edit.beforeAt, Edit.afterAt]
    | before a u =>
      have : a ≤ p ∨ p + n ≤ a := this
      simp [Edit.beforeAt, Edit.afterAt]
      try omega
    | after a u =>
      have : a ≤ p ∨ p + n ≤ a := this
      simp [Edit.beforeAt, Edit.afterAt]
      try omega
  refine h.rest ⟨hn, hp⟩ ?_ ?_ fun k => by rw [RewBuf.replaceText_delta]; rfl
  · intro q hq
    simp only [Edit.removesAt, Bool.and_eq_true, decide_eq_true_eq] at hq
    exact hrem q hq.1 hq.2
  have hq : ∀ q, q < p ∨ p + n ≤ q → (Edit.replace p n t).Quiet q := fun q hq =>
    ⟨rfl, rfl, by simp only [Edit.replaceAt]; rw [if_neg (by omega)], by
      simp [Edit.removesAt]; omega⟩
  have hpl : p ≤ src.length := by omega
  -- the replaced text, and what is behind it
  obtain ⟨mid, rest, hmid, hmlen⟩ : ∃ mid rest, src.drop p = mid ++ rest ∧ mid.length = n :=
    ⟨(src.drop p).take n, (src.drop p).drop n, (List.take_append_drop _ _).symm, by
      simp; omega⟩
  have hR : ∀ fs : List Edit, rewrite src fs =
      rewriteFront fs 0 (src.take p) ++ rewriteFront fs p mid ++ rewriteFrom fs (p + n) rest := by
    intro fs
    have := rewriteFrom_split fs 0 (src.take p) (src.drop p)
    rw [List.take_append_drop, List.length_take, Nat.min_eq_left hpl, Nat.zero_add, hmid,
      rewriteFrom_split, hmlen] at this
    rw [rewrite, this, List.append_assoc]
  obtain ⟨c, cs, rfl⟩ : ∃ c cs, mid = c :: cs := by
    cases mid with
    | nil => simp at hmlen; omega
    | cons c cs => exact ⟨c, cs, rfl⟩
  simp only [List.length_cons] at hmlen
  have hold : rewriteFront es p (c :: cs) = befores es p ++ afters es p ++ (c :: cs) := by
    rw [rewriteFront, hrem p (Nat.le_refl _) (by omega), rewriteFront_keep es (p + 1) cs fun q a b => by
      refine ⟨hrem q (by omega) (by omega), ?_⟩
      obtain ⟨x, y⟩ := hins q (by omega) (by omega)
      simp [slot, x, y, hrep q (by omega) (by omega)]]
    simp [slot, hrep p (Nat.le_refl _) (by omega)]
  have hnew : rewriteFront (es ++ [.replace p n t]) p (c :: cs) = befores es p ++ afters es p ++ t := by
    have hr : ∀ q, p ≤ q → q < p + n → removed (es ++ [.replace p n t]) q = true := by
      intro q h1 h2
      simp [removed, Edit.removesAt, h1, h2]
    rw [rewriteFront, hr p (Nat.le_refl _) (by omega), rewriteFront_removed _ (p + 1) cs
      (fun q a b => hr q (by omega) (by omega)) fun q a b => by
        obtain ⟨x, y⟩ := hins q (by omega) (by omega)
        have h1 : slot (es ++ [.replace p n t]) q
            = befores es q ++ afters es q ++ (replacements es q ++ Edit.replaceAt q (.replace p n t)) := by
          simp [slot, befores, afters, replacements, Edit.beforeAt, Edit.afterAt]
        rw [h1, x, y, hrep q (by omega) (by omega), Edit.replaceAt, if_neg (by omega)]
        rfl]
    have h1 : slot (es ++ [.replace p n t]) p
        = befores es p ++ afters es p ++ (replacements es p ++ t) := by
      simp [slot, befores, afters, replacements, Edit.beforeAt, Edit.afterAt, Edit.replaceAt]
    rw [h1, hrep p (Nat.le_refl _) (by omega)]
    simp
  have hm := h.mapped_true hpl hi
  simp only [RewBuf.replaceText]
  rw [h.text, hR es, hR (es ++ _), hold, hnew, hm,
    rewriteFront_congr (es ++ _) es 0 _ fun q _ hq' => (hq q (by
      simp only [List.length_take] at hq'; omega)).same es,
    rewriteFrom_congr (es ++ _) es (p + n) _ fun q hq' _ => (hq q (by omega)).same es]
  have e1 : rewriteFront es 0 (src.take p) ++ (befores es p ++ afters es p ++ c :: cs)
      ++ rewriteFrom es (p + n) rest
      = (rewriteFront es 0 (src.take p) ++ befores es p ++ afters es p) ++ ((c :: cs)
        ++ rewriteFrom es (p + n) rest) := by simp
  have e2 : (rewriteFront es 0 (src.take p)).length + (befores es p).length + (afters es p).length
      = (rewriteFront es 0 (src.take p) ++ befores es p ++ afters es p).length := by
    simp [Nat.add_assoc]
  rw [e1, e2, List.take_left, ← List.drop_drop, List.drop_left, List.drop_left' (by simpa using hmlen)]
  simp

/-- One call. -/
theorem BufInv.call {src : Text} {es : List Edit} {b : RewBuf} {c : RwCall} {e : Edit}
    (h : BufInv src es b) (hd : c.Does e) (he : e.Inside src.length)
    (hc : ∀ e' ∈ es, e'.Clear c.isRange e) : BufInv src (es ++ [e]) (b.call c) := by
  cases hd with
  | before p t =>
    exact h.before p t he fun q n u hq => by
      have : p ≤ q ∨ q + n ≤ p := hc _ hq
      exact this
  | after p n t =>
    have : b.rangeSize p p n false = n := by simp [RewBuf.rangeSize]
    simp only [RewBuf.call, this]
    exact h.after (p + n) t he fun q m u hq => by
      have : p + n ≤ q ∨ q + m ≤ p + n := hc _ hq
      exact this
  | replace p n t => exact h.replace p n t he.1 he.2 hc
  | range p k n t hn =>
    have he : 0 < k + n ∧ p + (k + n) ≤ src.length := he
    have hc' : ∀ e ∈ es, e.Clear false (.replace p (k + n) t) := by
      intro e hm
      have := hc e hm
      cases e with
      | replace q m u => exact this
      | before q u =>
        have : q < p ∨ p + (k + n) ≤ q := by simpa [Edit.Clear, RwCall.isRange] using this
        show (if false = true then q < p else q ≤ p) ∨ p + (k + n) ≤ q
        simp; omega
      | after q u =>
        have : q < p ∨ p + (k + n) ≤ q := by simpa [Edit.Clear, RwCall.isRange] using this
        show (if false = true then q < p else q ≤ p) ∨ p + (k + n) ≤ q
        simp; omega
    have hi : NotInside es p := fun q m u hq => by
      have : q + m ≤ p ∨ p + (k + n) ≤ q := hc _ hq
      omega
    have hsize : b.rangeSize p (p + k) n true = k + n := by
      have h1 : growth es (2 * (p + k) + 1) = growth es (2 * p) := by
        have : ∀ fs : List Edit, (∀ e ∈ fs, e ∈ es) →
            growth fs (2 * (p + k) + 1) = growth fs (2 * p) := by
          intro fs hfs
          induction fs with
          | nil => rfl
          | cons x xs ih =>
            have ih := ih fun y hy => hfs y (List.mem_cons_of_mem _ hy)
            have hx := hc x (hfs x (List.mem_cons_self ..))
            have hxi := h.inside x (hfs x (List.mem_cons_self ..))
            have : x.grow (2 * (p + k) + 1) = x.grow (2 * p) := by
              cases x with
              | replace q m u =>
                have : q + m ≤ p ∨ p + (k + n) ≤ q := hx
                have : 0 < m ∧ q + m ≤ src.length := hxi
                simp only [Edit.grow]
                split <;> split <;> omega
              | before q u =>
                have : q < p ∨ p + (k + n) ≤ q := by simpa [Edit.Clear, RwCall.isRange] using hx
                simp only [Edit.grow]
                split <;> split <;> omega
              | after q u =>
                have : q < p ∨ p + (k + n) ≤ q := by simpa [Edit.Clear, RwCall.isRange] using hx
                simp only [Edit.grow]
                split <;> split <;> omega
            simp only [growth, List.map_cons, List.sum_cons] at ih ⊢
            omega
        exact this es fun _ h => h
      have h2 := h.delta (2 * (p + k) + 1)
      have h3 := h.delta (2 * p)
      have h4 := h.len p (by omega) hi
      simp only [RewBuf.rangeSize, RewBuf.mapped, Bool.not_true, if_true, Bool.false_eq_true, if_false,
        Nat.add_zero]
      omega
    simp only [RewBuf.call, hsize]
    exact h.replace p (k + n) t he.1 he.2 hc'

/-- The calls are, one by one, the edits; all are within the text, and none is in the way of
an earlier one. -/
inductive CallsFor (src : Text) : List Edit → List RwCall → List Edit → Prop
  | nil (pre : List Edit) : CallsFor src pre [] []
  | cons {pre : List Edit} {c : RwCall} {e : Edit} {cs : List RwCall} {es : List Edit} :
    c.Does e → e.Inside src.length → (∀ e' ∈ pre, e'.Clear c.isRange e) →
    CallsFor src (pre ++ [e]) cs es → CallsFor src pre (c :: cs) (e :: es)

theorem CallsFor.run {src : Text} {pre es : List Edit} {cs : List RwCall} (h : CallsFor src pre cs es)
    {b : RewBuf} (hb : BufInv src pre b) : BufInv src (pre ++ es) (cs.foldl RewBuf.call b) := by
  induction h generalizing b with
  | nil pre => simpa using hb
  | cons h1 h2 h3 _ ih =>
    have := ih (hb.call h1 h2 h3)
    rw [List.append_assoc] at this
    exact this

/-- The buffer holds the rewritten text. -/
theorem bufferText_eq {src : Text} {es : List Edit} {cs : List RwCall} (h : CallsFor src [] cs es) :
    bufferText src cs = rewrite src es :=
  (h.run (.start src)).text

end Dredd
