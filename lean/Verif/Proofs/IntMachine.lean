/-
Laws of the machine for integers, and type soundness.
-/
import Verif.Spec.IntMachine
import Verif.Proofs.Integer
import Verif.Proofs.Order
import Verif.Proofs.CLogical
import Verif.Spec.Mutant

namespace Dredd

variable {R X : Type} {N : IntRules} {l : Lang} {std : Std}

/-! ### Reading types -/

theorem readTy_name (l : Lang) (t : BTy) : readTy l (t.name l) = some (.num t) := by
  obtain ⟨a, b, c, d⟩ := l
  cases b <;> cases t <;> decide +revert

theorem readTy_ref (l : Lang) (t : BTy) (q : Text)
    (hq : q = [] ∨ q = t!"volatile " ∨ q = t!"const ") :
    readTy l (q ++ t.name l ++ t!"&") = some (.obj t) := by
  obtain ⟨a, b, c, d⟩ := l
  have h : ∀ b : Bool, ∀ t ∈ BTy.all, ∀ q ∈ [[], t!"volatile ", t!"const "],
      readTy ⟨true, b, true, true⟩ (q ++ t.name ⟨true, b, true, true⟩ ++ t!"&") = some (.obj t) := by
    decide +kernel
  refine h b t (by cases t <;> decide) q ?_
  rcases hq with rfl | rfl | rfl <;> simp

/-! ### Laws of the operators -/

theorem Platform.holds_bin {P : Platform} {t : BTy} {op : BOp} {x y r : Int}
    (hb : t.isBool = false) (hx : P.Holds l t x) (h : P.bin l t x y op = some r) :
    P.Holds l t r := by
  have hres : ∀ {v r : Int}, P.result l t v = some r → P.Holds l t r := fun h => by
    rw [Platform.result_eq h]; exact P.holds_conv l t _
  cases op <;> simp only [Platform.bin] at h <;> try cases h
  all_goals try exact hres h
  all_goals try exact Platform.holds_ofBits _ hb
  · split at h
    · cases h
    · exact hres h
  · split at h
    · cases h
    · split at h
      · cases h
      · exact hres h
  · split at h
    · cases h
    · split at h
      · cases h
      · split at h
        · cases h; exact P.holds_conv l t _
        · exact hres h
  · split at h
    · cases h
    · cases h
      have h0 := P.holds_zero l t
      have hp : (0 : Int) < 2 ^ y.toNat := Int.pow_pos (by decide)
      obtain ⟨h1, h2⟩ := hx
      obtain ⟨h3, h4⟩ := h0
      constructor
      · by_cases hn : 0 ≤ x
        · have := Int.ediv_nonneg hn (Int.le_of_lt hp); omega
        · refine Int.le_trans h1 ?_
          rw [Int.le_ediv_iff_mul_le hp]
          have h5 : (1 : Int) ≤ 2 ^ y.toNat := hp
          have h6 := Int.mul_le_mul_of_nonpos_left (a := x) (by omega : x ≤ 0) h5
          rw [Int.mul_one] at h6
          exact h6
      · by_cases hn : 0 ≤ x
        · exact Int.le_trans (Int.ediv_le_self _ hn) h2
        · have := Int.ediv_neg_of_neg_of_pos (by omega : x < 0) hp; omega

theorem IntRules.arith_holds {op : BOp} {a b : BTy} {x y : Int} {r : BTy × Int}
    (ha : a.isFloat = false) (hb : b.isFloat = false) (h : N.arith l op a x b y = some r) :
    N.Holds l r.1 r.2 ∧ r.1.isFloat = false := by
  unfold IntRules.arith at h
  split at h
  · obtain ⟨v, hv, rfl⟩ := Option.map_eq_some_iff.1 h
    exact ⟨Platform.holds_bin (N.usual_int a b ha hb).2 (N.holds_conv l _ _) hv,
      (N.usual_int a b ha hb).1⟩
  · obtain ⟨v, hv, rfl⟩ := Option.map_eq_some_iff.1 h
    exact ⟨Platform.holds_bin (N.prom_int a ha).2 (N.holds_conv l _ _) hv, (N.prom_int a ha).1⟩
  · cases h

theorem Std.boolTy_int (std : Std) : std.boolTy.isFloat = false := by cases std <;> rfl

theorem has_bool (N : IntRules) (l : Lang) (std : Std) (z : Bool) :
    (IVal.num std.boolTy (if z then 1 else 0) : IVal X).Has N l (.num std.boolTy) :=
  ⟨rfl, std.boolTy_int, by
    cases z
    · exact N.holds_zero l _
    · exact N.holds_one l _⟩

theorem has_modified {std : Std} {a : BTy} {p : Nat} {v : Int} (ha : a.isFloat = false) :
    (std.modifiedVal a p (N.conv l a v) : IVal X).Has N l (std.modifiedTy a) := by
  cases std
  · exact ⟨rfl, ha, N.holds_conv l _ _⟩
  · rfl
  · rfl

/-- Whether an operator is a comparison does not depend on the operands. -/
theorem compare_isSome (op : BOp) (x y : Int) :
    (op.compare x y).isSome = (op.compare 0 0).isSome := by
  cases op <;> rfl

theorem has_num {v : IVal X} {a : BTy} (h : v.Has N l (.num a)) :
    ∃ x, v = .num a x ∧ a.isFloat = false ∧ N.Holds l a x := by
  cases v with
  | num b x => obtain ⟨rfl, h1, h2⟩ := h; exact ⟨x, rfl, h1, h2⟩
  | obj b p => exact h.elim
  | other x => exact h.elim

theorem has_obj {v : IVal X} {a : BTy} (h : v.Has N l (.obj a)) :
    ∃ p, v = .obj a p := by
  cases v with
  | num b x => exact h.elim
  | obj b p => cases h; exact ⟨p, rfl⟩
  | other x => exact h.elim

/-- Results of binary operators have the type of the operator. -/
theorem binVal_has {op : BOp} {a b t : VTy} (hl : op.isLogical = false)
    (ht : N.binTy std op a b = some t) {u v w : IVal X} {s s' : IState R} (hu : u.Has N l a)
    (hv : v.Has N l b) (h : N.binVal l std op u v s = some (w, s')) : w.Has N l t := by
  unfold IntRules.binTy at ht
  split at ht
  · rename_i a b
    obtain ⟨x, rfl, ha, hx⟩ := has_num hu
    obtain ⟨y, rfl, hb, hy⟩ := has_num hv
    simp only [ha, hb, Bool.or_false, Bool.false_eq_true, if_false, hl] at ht
    simp only [IntRules.binVal] at h
    have hc := compare_isSome op (N.conv l (N.usual a b) x) (N.conv l (N.usual a b) y)
    split at h
    · rename_i z hz
      rw [hz] at hc
      obtain ⟨z', hz'⟩ := Option.isSome_iff_exists.1 hc.symm
      rw [hz'] at ht
      cases ht
      cases h
      exact has_bool N l std z
    · rename_i hz
      rw [hz] at hc
      have hz' := Option.isNone_iff_eq_none.1 (by simpa using hc.symm : (op.compare 0 0).isNone = true)
      rw [hz'] at ht
      obtain ⟨r, hr, h⟩ := Option.map_eq_some_iff.1 h
      cases h
      obtain ⟨h1, h2⟩ := IntRules.arith_holds ha hb hr
      refine (?_ : IVal.Has N l (.num r.1 r.2) t)
      have e : t = .num r.1 := by
        unfold IntRules.arith at hr
        split at hr <;> rename_i hk
        · rw [hk] at ht; cases ht
          obtain ⟨_, _, rfl⟩ := Option.map_eq_some_iff.1 hr; rfl
        · rw [hk] at ht; cases ht
          obtain ⟨_, _, rfl⟩ := Option.map_eq_some_iff.1 hr; rfl
        · cases hr
      rw [e]
      exact ⟨rfl, h2, h1⟩
  · rename_i a b
    obtain ⟨p, rfl⟩ := has_obj hu
    obtain ⟨y, rfl, hb, hy⟩ := has_num hv
    have ha : a.isFloat = false := by
      cases h : a.isFloat
      · rfl
      · simp [h] at ht
    simp only [ha, hb, Bool.or_false, Bool.false_eq_true, if_false] at ht
    simp only [IntRules.binVal] at h
    obtain ⟨r, -, h⟩ := Option.map_eq_some_iff.1 h
    cases h
    split at ht
    · cases ht; exact has_modified ha
    · cases ht
  · cases ht

/-- Results of unary operators have the type of the operator. -/
theorem unVal_has {op : UOp} {a t : VTy} (hl : op ≠ .lnot)
    (ht : N.unTy std op a = some t) {u w : IVal X} {s s' : IState R} (hu : u.Has N l a)
    (h : N.unVal l std op u s = some (w, s')) : w.Has N l t := by
  unfold IntRules.unTy at ht
  split at ht
  · rename_i a
    obtain ⟨x, rfl, ha, hx⟩ := has_num hu
    have hp := N.prom_int a ha
    simp only [ha, Bool.false_eq_true, if_false] at ht
    cases op <;> simp only [reduceCtorEq] at ht <;> simp only [IntRules.unVal] at h <;> cases ht
    · cases h; exact ⟨rfl, hp.1, N.holds_conv l _ _⟩
    · obtain ⟨r, hr, h⟩ := Option.map_eq_some_iff.1 h
      cases h
      refine ⟨rfl, hp.1, ?_⟩
      rw [Platform.result_eq hr]
      exact N.holds_conv l _ _
    · cases h; exact ⟨rfl, hp.1, Platform.holds_flip _ hp.2⟩
    · exact absurd rfl hl
  · rename_i a
    obtain ⟨p, rfl⟩ := has_obj hu
    have ha : a.isFloat = false := by
      cases h : a.isFloat
      · rfl
      · simp [h] at ht
    simp only [ha, Bool.false_eq_true, if_false] at ht
    simp only [IntRules.unVal] at h
    obtain ⟨d, hd, h⟩ := Option.bind_eq_some_iff.1 h
    obtain ⟨x, hx, h⟩ := Option.bind_eq_some_iff.1 h
    obtain ⟨r, hr, h⟩ := Option.map_eq_some_iff.1 h
    cases h
    rw [hd] at ht
    simp only [Option.isNone_some, Bool.false_eq_true, if_false] at ht
    split at ht
    · rename_i hp
      cases ht
      rw [if_pos hp]
      unfold IntRules.read at hx
      split at hx
      · cases hx; exact ⟨rfl, ha, by assumption⟩
      · cases hx
    · rename_i hp
      cases ht
      rw [if_neg hp]
      exact has_modified ha
  · cases ht

/-- Results of conversions have the type to which they are converted. -/
theorem convVal_has {ty : Text} {t : VTy} (ht : readTy l ty = some t) {u w : IVal X}
    {s s' : IState R} (h : N.convVal l ty u s = some (w, s')) : w.Has N l t := by
  unfold IntRules.convVal at h
  rw [ht] at h
  cases t with
  | num t =>
    simp only at h
    split at h
    · cases h
    · rename_i hf
      have hf : t.isFloat = false := by simpa using hf
      cases u with
      | num b x => cases h; exact ⟨rfl, hf, N.holds_conv l _ _⟩
      | obj b p =>
        obtain ⟨r, hr, h⟩ := Option.map_eq_some_iff.1 h
        cases h
        exact ⟨rfl, hf, N.holds_conv l _ _⟩
      | other x => cases h
  | obj t =>
    simp only at h
    cases u with
    | num b x => cases h
    | obj b p =>
      simp only at h
      split at h
      · rename_i e
        cases h
        exact e
      · cases h
    | other x => cases h
  | other => cases h

/-- Conversion of a value to its own type does nothing. -/
theorem convVal_self {ty : Text} {t : VTy} (ht : readTy l ty = some t) (ho : t ≠ .other) {u : IVal X}
    (hu : u.Has N l t) (s : IState R) : N.convVal l ty u s = some (u, s) := by
  unfold IntRules.convVal
  rw [ht]
  cases t with
  | num t =>
    obtain ⟨x, rfl, h1, h2⟩ := has_num hu
    simp only [h1, Bool.false_eq_true, if_false, Platform.conv_holds h2]
  | obj t =>
    obtain ⟨p, rfl⟩ := has_obj hu
    simp
  | other => exact absurd rfl ho

/-- The text of the result type of a binary operator is its type. -/
theorem BinSite.Fits.readTy {s : BinSite} {a b t : VTy} (hs : s.Fits a b t)
    (hl : l.cpp = decide (std ≠ .c)) (h : N.binTy std s.op a b = some t) :
    readTy l (s.resTyText l) = some t ∧ t ≠ .other := by
  have hr := hs.res
  unfold BinSite.resTyText
  unfold IntRules.binTy at h
  split at h
  · split at h
    · cases h
    · split at h
      · rename_i hlog
        cases h
        have hr' : std.boolTy = s.resTy := Option.some.inj hr
        rw [← hr']
        have : s.op.isAssign = false := by
          cases ho : s.op <;> rw [ho] at hlog <;> first | rfl | cases hlog
        simp [this, readTy_name]
      · have key : s.op.isAssign = false ∧ ∃ u, t = .num u := by
          cases ho : s.op <;> rw [ho] at h <;> simp [BOp.compare, BOp.arithKind] at h <;>
            exact ⟨rfl, _, h.symm⟩
        obtain ⟨k, u, rfl⟩ := key
        cases hr
        simp [k, readTy_name]
  · split at h
    · cases h
    · split at h
      · rename_i hop
        cases h
        have k : s.op.isAssign = true := by
          cases ho : s.op <;> rw [ho] at hop <;> simp [BOp.compound] at hop <;> rfl
        cases hstd : std
        · have hc : l.cpp = false := by rw [hl, hstd]; rfl
          rw [hstd] at hr
          cases hr
          simp [k, hc, Std.modifiedTy, readTy_name]
        all_goals
          have hc : l.cpp = true := by rw [hl, hstd]; rfl
          rw [hstd] at hr
          cases hr
          simp only [k, hc, Std.modifiedTy, Bool.and_self, if_true]
          refine ⟨readTy_ref l _ _ ?_, by simp⟩
          split
          · exact .inr (.inl rfl)
          · exact .inl rfl
      · cases h
  · cases h

/-- The text of the result type of a unary operator is its type. -/
theorem UnSite.Fits.readTy {s : UnSite} {a t : VTy} (hs : s.Fits t)
    (hl : l.cpp = decide (std ≠ .c)) (h : N.unTy std s.op a = some t) :
    readTy l (s.resTyText l) = some t ∧ t ≠ .other := by
  have hr := hs.res
  have hv := hs.lvalue
  unfold UnSite.resTyText cppTypeModifiers
  rw [hv]
  cases t with
  | num u => cases hr; simp [VTy.isObj, readTy_name]
  | obj u =>
    cases hr
    have hc : l.cpp = true := by
      cases hstd : std
      · rw [hstd] at h
        unfold IntRules.unTy at h
        split at h
        · split at h
          · cases h
          · split at h <;> cases h
        · split at h
          · cases h
          · split at h
            · cases h
            · split at h <;> cases h
        · cases h
      all_goals rw [hl, hstd]; rfl
    simp only [hc, VTy.isObj, if_true]
    refine ⟨readTy_ref l _ _ ?_, by simp⟩
    split
    · exact .inr (.inl rfl)
    · split
      · exact .inr (.inr rfl)
      · exact .inl rfl
  | other => cases hr

/-! ### Type soundness -/

section Yields

variable {S V α β : Type}

theorem Comp.yields_bind {c : Comp S α} {k : α → Comp S β} {v : β}
    (h : Comp.Yields (V := β) (Comp.bind c k) v) : ∃ a, Comp.Yields (V := α) c a ∧
      Comp.Yields (V := β) (k a) v := by
  obtain ⟨s, s', hd⟩ := h
  obtain ⟨a, s1, h1, h2⟩ := Comp.bind_done hd
  exact ⟨a, ⟨_, _, h1⟩, _, _, h2⟩

theorem Comp.yields_pure {a v : α} (h : Comp.Yields (S := S) (Comp.pure a) v) : v = a := by
  obtain ⟨s, s', hd⟩ := h
  cases hd
  rfl

theorem Comp.yields_lift {f : S → Option (α × S)} {v : α} (h : Comp.Yields (Comp.lift f) v) :
    ∃ s s', f s = some (v, s') := by
  obtain ⟨s, s', hd⟩ := h
  exact ⟨s, s', Comp.lift_done hd⟩

theorem Comp.yields_ofOption {o : Option α} {v : α}
    (h : Comp.Yields (S := S) (Comp.ofOption o) v) : o = some v := by
  obtain ⟨s, s', hd⟩ := h
  exact (Comp.ofOption_done hd).1

theorem yields_selected {E : Nat → Bool} {insts : List (Nat × α)} {f : α → Comp S V} {c : Comp S V}
    {v : V} (h : (selected E insts f c).Yields v) : (∃ a, (f a).Yields v) ∨ c.Yields v := by
  obtain ⟨s, s', (⟨a, -, h⟩ | ⟨-, h⟩)⟩ := h
  · exact .inl ⟨a, _, _, h⟩
  · exact .inr ⟨_, _, h⟩

theorem yields_prepare2 {l1 l2 : Bool} {c1 c2 : Comp S V} {k : Comp S V → Comp S V → Comp S V} {v : V}
    (h : (prepare2 l1 l2 c1 c2 k).Yields v) : ∃ d1 d2, (k d1 d2).Yields v := by
  cases l1 <;> cases l2 <;> simp only [prepare2] at h
  · obtain ⟨a, -, h⟩ := Comp.yields_bind h; exact ⟨_, _, h⟩
  · obtain ⟨a, -, h⟩ := Comp.yields_bind h; exact ⟨_, _, h⟩
  · obtain ⟨a, -, h⟩ := Comp.yields_bind h; exact ⟨_, _, h⟩
  · exact ⟨_, _, h⟩

theorem yields_prepare1 {l1 : Bool} {c : Comp S V} {k : Comp S V → Comp S V} {v : V}
    (h : (prepare1 l1 c k).Yields v) : ∃ d, (k d).Yields v := by
  cases l1 <;> simp only [prepare1, Bool.false_eq_true, if_false, if_true] at h
  · obtain ⟨a, -, h⟩ := Comp.yields_bind h; exact ⟨_, h⟩
  · exact ⟨_, h⟩

theorem yields_to {M : Machine S V} {ty : Text} {c : Comp S V} {v : V} (h : (c.to M ty).Yields v) :
    ∃ u s s', c.Yields u ∧ M.conv ty u s = some (v, s') := by
  obtain ⟨u, h1, h2⟩ := Comp.yields_bind h
  obtain ⟨s, s', h3⟩ := Comp.yields_lift h2
  exact ⟨u, s, s', h1, h3⟩

theorem yields_logical {M : Machine S V} {op : BOp} {c1 c2 : Comp S V} {v : V}
    (h : (M.logical op c1 c2).Yields v) : ∃ z, v = M.ofBool z := by
  unfold Machine.logical at h
  obtain ⟨v1, -, h⟩ := Comp.yields_bind h
  obtain ⟨b1, -, h⟩ := Comp.yields_bind h
  split at h
  · exact ⟨_, Comp.yields_pure h⟩
  · obtain ⟨v2, -, h⟩ := Comp.yields_bind h
    obtain ⟨b2, -, h⟩ := Comp.yields_bind h
    exact ⟨_, Comp.yields_pure h⟩

theorem yields_mutantLogical {M : Machine S V} {E : Nat → Bool} {op : BOp} {id : Nat}
    {c1 c2 : Comp S V} {v : V} (h : (mutantLogical M E op id c1 c2).Yields v) :
    ∃ z, v = M.ofBool z := by
  unfold mutantLogical at h
  split at h
  · exact yields_logical h
  · split at h
    · split at h
      · obtain ⟨v1, -, h⟩ := Comp.yields_bind h
        obtain ⟨v2, -, h⟩ := Comp.yields_bind h
        exact ⟨_, Comp.yields_pure h⟩
      · unfold leftTruth at h
        obtain ⟨v1, -, h⟩ := Comp.yields_bind h
        obtain ⟨v2, -, h⟩ := Comp.yields_bind h
        split at h
        · exact ⟨_, Comp.yields_pure h⟩
        · obtain ⟨v3, -, h⟩ := Comp.yields_bind h
          exact ⟨_, Comp.yields_pure h⟩
    · split at h
      · unfold rightTruth at h
        obtain ⟨v1, -, h⟩ := Comp.yields_bind h
        obtain ⟨v2, -, h⟩ := Comp.yields_bind h
        obtain ⟨v3, -, h⟩ := Comp.yields_bind h
        exact ⟨_, Comp.yields_pure h⟩
      · exact yields_logical h

end Yields

variable {truthX : X → Option Bool} {sig : Nat → VTy}

/-- Logical operators have the type of truth values. -/
theorem binTy_logical {op : BOp} {a b t : VTy} (hl : op.isLogical = true)
    (ht : N.binTy std op a b = some t) :
    t = .num std.boolTy ∧ ∃ u v, a = .num u ∧ b = .num v ∧ u.isFloat = false ∧ v.isFloat = false := by
  unfold IntRules.binTy at ht
  split at ht
  · split at ht
    · cases ht
    · rename_i hf
      cases ht
      simp only [Bool.or_eq_true, not_or, Bool.not_eq_true] at hf
      exact ⟨rfl, _, _, rfl, rfl, hf.1, hf.2⟩
  · split at ht
    · cases ht
    · split at ht
      · rename_i hop
        cases op <;> cases hl <;> simp [BOp.compound] at hop
      · cases ht
  · cases ht

theorem evalBin_has {op : BOp} {a b t : VTy} (ht : N.binTy std op a b = some t)
    {c1 c2 : Comp (IState R) (IVal X)} (h1 : ∀ v, c1.Yields v → v.Has N l a)
    (h2 : ∀ v, c2.Yields v → v.Has N l b) {v : IVal X}
    (h : ((intMachine N l std R truthX).evalBin op c1 c2).Yields v) : v.Has N l t := by
  unfold Machine.evalBin at h
  split at h
  · rename_i hl
    obtain ⟨z, rfl⟩ := yields_logical h
    rw [(binTy_logical hl ht).1]
    exact has_bool N l std z
  · rename_i hl
    split at h
    · rename_i hc
      have hc : op = .comma := by simpa using hc
      subst hc
      unfold IntRules.binTy at ht
      split at ht
      · simp [BOp.isLogical, BOp.compare, BOp.arithKind] at ht
      · simp [BOp.compound] at ht
      · cases ht
    · obtain ⟨p, hp, h⟩ := Comp.yields_bind h
      obtain ⟨s, s', h⟩ := Comp.yields_lift h
      obtain ⟨hp1, hp2⟩ := Comp.yields_both hp
      exact binVal_has (by simpa using hl) ht (h1 _ hp1) (h2 _ hp2) h

theorem evalUn_has {op : UOp} {a t : VTy} (ht : N.unTy std op a = some t)
    {c : Comp (IState R) (IVal X)} (h1 : ∀ v, c.Yields v → v.Has N l a) {v : IVal X}
    (h : ((intMachine N l std R truthX).evalUn op c).Yields v) : v.Has N l t := by
  unfold Machine.evalUn at h
  split at h
  · rename_i hl
    have hl : op = .lnot := by simpa using hl
    subst hl
    obtain ⟨v1, -, h⟩ := Comp.yields_bind h
    obtain ⟨z, -, h⟩ := Comp.yields_bind h
    have h := Comp.yields_pure h
    subst h
    unfold IntRules.unTy at ht
    split at ht
    · split at ht
      · cases ht
      · cases ht
        exact has_bool N l std _
    · simp [UOp.delta] at ht
    · cases ht
  · rename_i hl
    obtain ⟨u, hu, h⟩ := Comp.yields_bind h
    obtain ⟨s, s', h⟩ := Comp.yields_lift h
    exact unVal_has (by simpa using hl) ht (h1 _ hu) h

/-- An interpretation of the instrumentation points that respects their types. -/
structure Interp.Sound (N : IntRules) (l : Lang) (std : Std) (truthX : X → Option Bool)
    (K : Interp (IState R) (IState R) (IVal X)) : Prop where
  machine : K.machine = intMachine N l std R truthX
  raise : ∀ c, K.raise c = c
  bin : ∀ s id c1 c2 a b t, N.binTy std s.op a b = some t → s.Fits a b t →
    (∀ v, Comp.Yields c1 v → v.Has N l a) → (∀ v, Comp.Yields c2 v → v.Has N l b) →
    ∀ v, (K.bin s id c1 c2).Yields v → v.Has N l t
  un : ∀ s id c a t, N.unTy std s.op a = some t → s.Fits t →
    (∀ v, Comp.Yields c v → v.Has N l a) → ∀ v, (K.un s id c).Yields v → v.Has N l t
  expr : ∀ s id c, (∀ v, Comp.Yields c v → v.Has N l (.num s.self.ty)) →
    ∀ v, (K.expr s id c).Yields v → v.Has N l (.num s.self.ty)
  load : ∀ s id c, ∀ v, (K.load s id c).Yields v → v.Has N l (.num s.self.ty)

/-- Values of expressions have the types of the expressions. -/
theorem Exp.Ty.sound {K : Interp (IState R) (IState R) (IVal X)} (hK : K.Sound N l std truthX)
    {calls : Nat → List (IVal X) → Comp (IState R) (IVal X)}
    (hc : ∀ f vs v, (calls f vs).Yields v → v.Has N l (sig f)) {x : Exp (IState R) (IVal X)} {t : VTy}
    (h : x.Ty N l std sig t) : ∀ v, (x.eval K calls).Yields v → v.Has N l t := by
  induction h with
  | atom h => intro v hv; rw [Exp.eval, hK.raise] at hv; exact h v hv
  | step _ h ih =>
    intro v hv
    obtain ⟨u, hu, hv⟩ := Comp.yields_bind hv
    rw [hK.raise] at hv
    exact h u (ih u hu) v hv
  | bin _ _ h ih1 ih2 =>
    intro v hv
    rw [Exp.eval, hK.machine] at hv
    exact evalBin_has h ih1 ih2 hv
  | comma _ _ ih1 ih2 =>
    intro v hv
    rw [Exp.eval, hK.machine] at hv
    simp only [Machine.evalBin, BOp.isLogical, Bool.false_eq_true, if_false, beq_self_eq_true,
      if_true, Machine.comma] at hv
    obtain ⟨u, -, hv⟩ := Comp.yields_bind hv
    exact ih2 v hv
  | binAt _ _ h hs ih1 ih2 => exact hK.bin _ _ _ _ _ _ _ h hs ih1 ih2
  | un _ h ih =>
    intro v hv
    rw [Exp.eval, hK.machine] at hv
    exact evalUn_has h ih hv
  | unAt _ h hs ih => exact hK.un _ _ _ _ _ h hs ih
  | exprAt _ ih => exact hK.expr _ _ _ ih
  | load _ ih =>
    intro v hv
    rw [Exp.eval, hK.machine] at hv
    obtain ⟨u, s, s', -, hv⟩ := yields_to hv
    exact convVal_has (readTy_name l _) hv
  | loadAt _ ih => exact hK.load _ _ _
  | cond _ _ _ _ ih2 ih3 =>
    intro v hv
    rw [Exp.eval] at hv
    obtain ⟨z, -, hv⟩ := Comp.yields_bind hv
    cases z
    · exact ih3 v hv
    · exact ih2 v hv
  | call a h ih =>
    intro v hv
    rw [Exp.eval] at hv
    obtain ⟨u, -, hv⟩ := Comp.yields_bind hv
    exact hc _ _ _ hv

theorem Prog.Returns.call {P : Prog (IState R) (IVal X)} (hP : P.Returns N l sig)
    {K : Interp (IState R) (IState R) (IVal X)}
    (hK : ∀ (α : Type) (f : IState R → Option (α × IState R)), K.step f = .lift f) (k f : Nat)
    (vs : List (IVal X)) (v : IVal X) (h : (P.call K k f vs).Yields v) : v.Has N l (sig f) := by
  cases k with
  | zero =>
    obtain ⟨s, s', h⟩ := h
    cases h
  | succ k =>
    rw [Prog.call] at h
    obtain ⟨a, -, h⟩ := Comp.yields_bind h
    obtain ⟨x, -, h⟩ := Comp.yields_bind h
    rw [hK] at h
    obtain ⟨s, s', h⟩ := Comp.yields_lift h
    exact hP _ _ _ _ _ h

/-- The original program respects types. -/
theorem sound_original (N : IntRules) (l : Lang) (std : Std) (truthX : X → Option Bool) :
    (Interp.original l (intMachine N l std R truthX)).Sound N l std truthX where
  machine := rfl
  raise _ := rfl
  bin _ _ _ _ _ _ _ ht _ h1 h2 _ h := evalBin_has ht h1 h2 h
  un _ _ _ _ _ ht _ h1 _ h := evalUn_has ht h1 h
  expr _ _ _ h := h
  load s _ _ v h := by
    obtain ⟨u, s, s', -, h⟩ := yields_to h
    exact convVal_has (readTy_name l _) h

/-- Mutants respect types. -/
theorem sound_mutant (N : IntRules) (l : Lang) (std : Std) (truthX : X → Option Bool)
    (hl : l.cpp = decide (std ≠ .c)) (o : Options) (E : Nat → Bool) (first : Nat) :
    (Interp.mutant l o (intMachine N l std R truthX) E first).Sound N l std truthX where
  machine := rfl
  raise _ := rfl
  bin s id c1 c2 a b t ht hs h1 h2 v h := by
    dsimp only [Interp.mutant] at h
    have key : ∀ {c : Comp (IState R) (IVal X)},
        (c.to (intMachine N l std R truthX) (s.resTyText l)).Yields v → v.Has N l t := by
      intro c h
      obtain ⟨u, s, s', -, h⟩ := yields_to h
      exact convVal_has (hs.readTy hl ht).1 h
    split at h
    · split at h
      · rcases yields_selected h with ⟨a, h⟩ | h
        · obtain ⟨_, _, h⟩ := yields_prepare2 h
          exact key h
        · obtain ⟨_, _, h⟩ := yields_prepare2 h
          exact key h
      · rename_i hcl
        obtain ⟨z, rfl⟩ := yields_mutantLogical h
        have hlog : s.op.isLogical = true := by
          cases hh : s.op.isLogical
          · simp [hh] at hcl
          · rfl
        rw [(binTy_logical hlog ht).1]
        exact has_bool N l std z
    · obtain ⟨s, s', h⟩ := h
      cases h
  un s id c a t ht hs h1 v h := by
    dsimp only [Interp.mutant] at h
    have key : ∀ {c : Comp (IState R) (IVal X)},
        (c.to (intMachine N l std R truthX) (s.resTyText l)).Yields v → v.Has N l t := by
      intro c h
      obtain ⟨u, s, s', -, h⟩ := yields_to h
      exact convVal_has (hs.readTy hl ht).1 h
    split at h
    · rcases yields_selected h with ⟨a, h⟩ | h
      · obtain ⟨_, h⟩ := yields_prepare1 h
        exact key h
      · obtain ⟨_, h⟩ := yields_prepare1 h
        exact key h
    · obtain ⟨s, s', h⟩ := h
      cases h
  expr s id c h1 v h := by
    dsimp only [Interp.mutant] at h
    have key : ∀ {c : Comp (IState R) (IVal X)},
        (c.to (intMachine N l std R truthX) (s.self.ty.name l)).Yields v →
        v.Has N l (.num s.self.ty) := by
      intro c h
      obtain ⟨u, s, s', -, h⟩ := yields_to h
      exact convVal_has (readTy_name l _) h
    split at h
    · rcases yields_selected h with ⟨a, h⟩ | h
      · obtain ⟨_, h⟩ := yields_prepare1 h
        exact key h
      · obtain ⟨_, h⟩ := yields_prepare1 h
        exact key h
    · obtain ⟨s, s', h⟩ := h
      cases h
  load s id c v h := by
    dsimp only [Interp.mutant] at h
    have key : ∀ {c : Comp (IState R) (IVal X)},
        (c.to (intMachine N l std R truthX) (s.self.ty.name l)).Yields v →
        v.Has N l (.num s.self.ty) := by
      intro c h
      obtain ⟨u, s, s', -, h⟩ := yields_to h
      exact convVal_has (readTy_name l _) h
    split at h
    · rcases yields_selected h with ⟨a, h⟩ | h
      · obtain ⟨_, h⟩ := yields_prepare1 h
        exact key h
      · obtain ⟨_, h⟩ := yields_prepare1 h
        exact key h
    · obtain ⟨s, s', h⟩ := h
      cases h

end Dredd
