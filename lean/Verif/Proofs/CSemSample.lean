/-
The sample semantics meets what C63 asks of a semantics.
-/
import Verif.Spec.CSemSample
import Verif.Proofs.CSem

namespace Dredd.Mini

variable {S T V D : Type}

/-! ### Merging statements -/

/-- Not a statement. -/
def flat : Den T V Nat → Bool
  | .stm _ => false
  | _ => true

@[simp] theorem flat_tok (t : Text) : flat (T := T) (V := V) (.tok t) = true := rfl
@[simp] theorem flat_type (t : Text) : flat (T := T) (V := V) (.type t) = true := rfl
@[simp] theorem flat_name (t : Text) : flat (T := T) (V := V) (.name t) = true := rfl
@[simp] theorem flat_num (n : Nat) : flat (T := T) (V := V) (.num n) = true := rfl

theorem merge_cons {d : Den T V Nat} (h : flat d = true) (ds : List (Den T V Nat)) :
    merge (d :: ds) = d :: merge ds := by
  cases d <;> first | rfl | cases h

theorem merge_append {a : List (Den T V Nat)} (h : a.all flat = true) (ds : List (Den T V Nat)) :
    merge (a ++ ds) = a ++ merge ds := by
  induction a with
  | nil => rfl
  | cons d a ih =>
    rw [List.all_cons, Bool.and_eq_true] at h
    rw [List.cons_append, merge_cons h.1, ih h.2, List.cons_append]

theorem merge_flat {a : List (Den T V Nat)} (h : a.all flat = true) : merge a = a := by
  have := merge_append h []
  simpa [merge] using this

theorem merge_stm (c : Code T V) {ds : List (Den T V Nat)} (h : ds.all flat = true) :
    merge (.stm c :: ds) = .stm c :: ds := by
  rw [merge, merge_flat h]
  cases ds with
  | nil => rfl
  | cons d ds => cases d <;> first | rfl | cases h

theorem merge_mid {a ds : List (Den T V Nat)} (ha : a.all flat = true) (c : Code T V)
    (h : ds.all flat = true) : merge (a ++ .stm c :: ds) = a ++ .stm c :: ds := by
  rw [merge_append ha, merge_stm c h]

theorem andThen_assoc (a b c : Comp T (Ctl V)) :
    andThen (andThen a b) c = andThen a (andThen b c) := by
  simp only [andThen, Comp.bind_assoc]
  congr 1
  funext x
  cases x <;> simp

theorem seq_assoc (a b c : Code T V) : (a.seq b).seq c = a.seq (b.seq c) := by
  refine Code.ext' (List.append_assoc _ _ _) fun e => ?_
  cases e with
  | none => exact andThen_assoc _ _ _
  | some l =>
    simp only [Code.seq, Code.build, List.mem_append]
    by_cases h1 : l ∈ a.labels
    · simp [h1, andThen_assoc]
    · by_cases h2 : l ∈ b.labels
      · simp [h1, h2]
      · simp only [h1, h2, false_or, if_false]
        split <;> simp_all

theorem merge_two (as bs : List (Den T V Nat)) (c d : Code T V) :
    merge (as ++ [.stm c, .stm d] ++ bs) = merge (as ++ [.stm (c.seq d)] ++ bs) := by
  induction as with
  | nil =>
    simp only [List.nil_append, List.cons_append, merge]
    cases merge bs with
    | nil => rfl
    | cons e r => cases e <;> simp only [seq_assoc]
  | cons a as ih =>
    simp only [List.cons_append] at ih ⊢
    cases a <;> simp only [merge, ih]

theorem merge_stms (cs : List (Code T V)) (t : Text) :
    merge (cs.map .stm ++ [.tok t]) =
      if cs = [] then [Den.tok (R := Nat) t] else [.stm (seqAll cs), .tok t] := by
  induction cs with
  | nil => rfl
  | cons c cs ih =>
    rw [List.map_cons, List.cons_append, merge, ih]
    cases cs with
    | nil => simp [seqAll, Code.seq_skip]
    | cons c' cs => simp [seqAll]

/-! ### Small things -/

theorem asVal_flat {n : Nat → V} {d : Den T V Nat} {x : Text × Comp T V} (h : d.asVal n = some x) :
    flat d = true := by
  cases d <;> first | rfl | cases h

theorem unSep_commaSep {α : Type} (s : α) : ∀ xs : List α, unSep (commaSep s xs) = xs
  | [] => rfl
  | [x] => rfl
  | x :: y :: xs => by
    have := unSep_commaSep s (y :: xs)
    simp only [commaSep, unSep, this]

theorem commaSep_flat (t : Text) : ∀ {xs : List (Den T V Nat)}, xs.all flat = true →
    (commaSep (.tok t) xs).all flat = true
  | [], _ => rfl
  | [x], h => h
  | x :: y :: xs, h => by
    rw [List.all_cons, Bool.and_eq_true] at h
    simp only [commaSep, List.all_cons, Bool.and_eq_true]
    exact ⟨h.1, rfl, commaSep_flat t h.2⟩

theorem passTo_flat {N : Machine T V} {n : Nat → V} {p : CParam} {d : Den T V Nat} {c : Comp T V}
    (h : d.passTo N n p = some c) : flat d = true := by
  cases d <;> first | rfl | skip
  simp only [Den.passTo, Den.asVal] at h
  split at h <;> cases h

theorem passAll_flat {N : Machine T V} {n : Nat → V} : ∀ {ps : List CParam} {ds : List (Den T V Nat)}
    {cs : List (Comp T V)}, passAll N n ps ds = some cs → ds.all flat = true
  | [], [], _, _ => rfl
  | [], _ :: _, _, h => by cases h
  | _ :: _, [], _, h => by cases h
  | p :: ps, d :: ds, cs, h => by
    simp only [passAll, Option.bind_eq_some_iff, Option.map_eq_some_iff] at h
    obtain ⟨c, h1, cs', h2, -⟩ := h
    rw [List.all_cons, passTo_flat h1, passAll_flat h2, Bool.and_self]

theorem toksOf_map (ts : List Text) : toksOf (ts.map (Den.tok (T := T) (V := V) (R := Nat))) = some ts := by
  induction ts with
  | nil => rfl
  | cons t ts ih => simp [toksOf, ih]

theorem toks_flat (ts : List Text) : (ts.map (Den.tok (T := T) (V := V) (R := Nat))).all flat = true := by
  induction ts with
  | nil => rfl
  | cons t ts ih => simp

theorem decimal_not_dredd {x : Text} {n : Nat} (h : decimal? x = some n) : isDredd x = false := by
  cases hd : isDredd x with
  | false => rfl
  | true =>
    simp only [isDredd, Bool.and_eq_true, List.isPrefixOf_iff_prefix] at hd
    obtain ⟨⟨t, rfl⟩, -⟩ := hd
    have : decimal? (t!"__dredd_" ++ t) = none := by
      simp [decimal?, show Char.isDigit '_' = false by decide]
    rw [this] at h
    cases h

theorem resolve_some (C : Ctx S V D) {x : Text} {args : List (Den (S × D) V Nat)} {f : CFn}
    {cs : List (Comp (S × D) V)} (id : Nat)
    (h : Resolves (C.M.withState D) C.env.numVal C.fs x args f cs) :
    C.resolve x args id = some (.val (typeText f.resTy) (f.call C.M C.dev id cs)) := by
  have hex : ∃ y : CFn × List (Comp (S × D) V),
      Resolves (C.M.withState D) C.env.numVal C.fs x args y.1 y.2 := ⟨(f, cs), h⟩
  unfold Ctx.resolve
  rw [dif_pos hex]
  have hc := hex.choose_spec
  have e1 := h.only _ hc.mem hc.name (by rw [hc.fit]; rfl)
  have e2 : hex.choose.2 = cs := by
    have := hc.fit
    rw [e1, h.fit] at this
    exact (Option.some.inj this).symm
  rw [e1, e2]

/-! ### The semantics -/

/-- It has the rules of C and C++, if no generated function has the name of a function of the
prelude. -/
theorem sem_has (C : Ctx S V D) (cpp : Bool)
    (hfs : ∀ f ∈ C.fs, f.name ≠ t!"__dredd_enabled_mutation" ∧
      f.name ≠ t!"__dredd_record_covered_mutants") :
    C.sem.Has C.M C.dev C.fs cpp where
  name x h1 h2 := by
    have : isDredd x = true := by simp [isDredd, h1, h2]
    simp [Ctx.sem, Ctx.node, Ctx.primary, merge, Ctx.word, this]
  num n := by
    have := decimal_not_dredd (decimal_natDec n)
    simp [Ctx.sem, Ctx.node, Ctx.primary, merge, Ctx.word, this, decimal_natDec]
  paren d x h := by
    have e : merge [.tok t!"(", d, .tok t!")"] = [.tok t!"(", d, .tok t!")"] :=
      merge_flat (by simp [asVal_flat h])
    have h' : d.asVal C.env.numVal = some x := h
    simp [Ctx.sem, Ctx.node, Ctx.primary, e, h']
  call x args id f cs h := by
    have hx : x ≠ t!"__dredd_enabled_mutation" ∧ x ≠ t!"__dredd_record_covered_mutants" :=
      h.name ▸ hfs f h.mem
    have hfl : (([.name x, .tok t!"("] ++ commaSep (.tok t!",") (args ++ [.num id]) ++
        [.tok t!")"] : List (Den (S × D) V Nat))).all flat = true := by
      rw [List.all_append, List.all_append, commaSep_flat]
      · rfl
      · rw [List.all_append, passAll_flat h.fit]; rfl
    simp only [Ctx.sem, Ctx.node, merge_flat hfl]
    simp [Ctx.postfix, List.dropLast_concat, unSep_commaSep, hx, resolve_some C id h]
  enabled n := by simp [Ctx.sem, Ctx.node, merge, Ctx.postfix, unSep]
  record n k := by simp [Ctx.sem, Ctx.node, merge, Ctx.postfix, unSep]
  addr d ty c h := by
    have e : merge [.tok t!"&", d] = [.tok t!"&", d] := merge_flat (by simp [asVal_flat h])
    have h' : d.asVal C.env.numVal = some (ty, c) := h
    simp [Ctx.sem, Ctx.node, Ctx.prefix, e, h']
  lnot c := by simp [Ctx.sem, Ctx.node, merge, Ctx.prefix]
  logical _ op ho d1 d2 t1 t2 c1 c2 h1 h2 := by
    have e : merge [d1, .tok op.str, d2] = [d1, .tok op.str, d2] :=
      merge_flat (by simp [asVal_flat h1, asVal_flat h2])
    have h1' : d1.asVal C.env.numVal = some (t1, c1) := h1
    have h2' : d2.asVal C.env.numVal = some (t2, c2) := h2
    have hop : opOf op.levels.1 op.str = some op := by revert ho; cases op <;> decide
    have hk : op.levels.1 ≠ 17 ∧ op.levels.1 ≠ 16 ∧ op.levels.1 ≠ 15 := by cases op <;> decide
    simp [Ctx.sem, Ctx.node, Ctx.binary, e, h1', h2', hop, hk]
  exprStm d x h := by
    have e : merge [d, .tok t!";"] = [d, .tok t!";"] := merge_flat (by simp [asVal_flat h])
    have h' : d.asVal C.env.numVal = some x := h
    cases d <;> simp [Den.asVal] at h' <;> subst h' <;> simp [Ctx.sem, Ctx.node, Ctx.closed, e, Den.asVal]
  actStm c := by simp [Ctx.sem, Ctx.node, merge, Ctx.closed]
  stmSemi c := by simp [Ctx.sem, Ctx.node, merge, Ctx.closed]
  null := by simp [Ctx.sem, Ctx.node, merge, Ctx.closed]
  block cs := by
    have : merge ([.tok t!"{"] ++ cs.map .stm ++ [.tok t!"}"]) =
        .tok t!"{" :: (if cs = [] then [Den.tok (R := Nat) t!"}"] else [.stm (seqAll cs), .tok t!"}"]) := by
      rw [← merge_stms]
      rfl
    simp only [Ctx.sem, Ctx.node, this]
    cases cs with
    | nil => simp [Ctx.closed, seqAll]
    | cons c cs => simp [Ctx.closed]
  ifs c a := by simp [Ctx.sem, Ctx.node, merge, Ctx.flow]
  ret d x h := by
    have e : merge [.tok t!"return", d] = [.tok t!"return", d] :=
      merge_flat (by simp [asVal_flat h])
    have h' : d.asVal C.env.numVal = some x := h
    simp [Ctx.sem, Ctx.node, e, h']
  type ts _ := by simp [Ctx.sem, Ctx.node, merge_flat (toks_flat ts), toksOf_map]
  cast _ ty d x h := by
    have e : merge [.tok t!"static_cast", .tok t!"<", .type ty, .tok t!">", .tok t!"(", d, .tok t!")"] =
        [.tok t!"static_cast", .tok t!"<", .type ty, .tok t!">", .tok t!"(", d, .tok t!")"] :=
      merge_flat (by simp [asVal_flat h])
    have h' : d.asVal C.env.numVal = some x := h
    simp [Ctx.sem, Ctx.node, e, h', Ctx.postfix]
  lambda _ ty c := by simp [Ctx.sem, Ctx.node, merge, Ctx.primary]
  item p as bs c d := by simp only [Ctx.sem, merge_two]

@[simp] theorem den_tok {I : Interp S T V} {calls : Nat → List V → Comp T V} {n : Nat} (t : Text) :
    (SrcPart.tok (R := Nat) t : SrcPart S V Nat).den I calls n = .tok t := rfl
@[simp] theorem den_num {I : Interp S T V} {calls : Nat → List V → Comp T V} {n : Nat} (k : Nat) :
    (SrcPart.num (R := Nat) k : SrcPart S V Nat).den I calls n = .num k := rfl
@[simp] theorem den_exp {I : Interp S T V} {calls : Nat → List V → Comp T V} {n : Nat} (t : Text)
    (e : Exp S V) : (SrcPart.exp (R := Nat) t e).den I calls n = .val t (e.eval I calls) := rfl
@[simp] theorem den_stm {I : Interp S T V} {calls : Nat → List V → Comp T V} {n : Nat} (a : Stm S V) :
    (SrcPart.stm (R := Nat) a).den I calls n = .stm (a.code I calls n) := rfl
@[simp] theorem den_unit {I : Interp S T V} {calls : Nat → List V → Comp T V} {n : Nat}
    (fs : List (Nat × Stm S V)) :
    (SrcPart.unit (R := Nat) fs).den I calls n = .unit (fs.map fun x => (x.1, x.2.exec I calls n)) := rfl
@[simp] theorem den_other {I : Interp S T V} {calls : Nat → List V → Comp T V} {n : Nat} (k : Nat) :
    (SrcPart.other (R := Nat) k : SrcPart S V Nat).den I calls n = .other k := rfl

section
variable {C : Ctx S V D} {l : Lang} {o : Options} {first : Nat}
  (hI : C.I = Interp.instrumented l o C.M C.dev first)
include hI

theorem asExp_asVal {p : SrcPart S V Nat} {ty : Text} {e : Exp S V}
    (h : p.asExp C.env.numVal = some (ty, e)) :
    (p.den C.I C.calls C.fuel).asVal C.env.numVal = some (ty, e.eval C.I C.calls) := by
  cases p <;> simp only [SrcPart.asExp, Option.some.injEq, Prod.mk.injEq, reduceCtorEq] at h
  · obtain ⟨rfl, rfl⟩ := h
    simp only [SrcPart.den, Den.asVal, Exp.eval, hI, raise_pure]
  · obtain ⟨rfl, rfl⟩ := h
    rfl

theorem den_flat {p : SrcPart S V Nat} {x : Text × Exp S V} (h : p.asExp C.env.numVal = some x) :
    flat (p.den C.I C.calls C.fuel) = true := asVal_flat (asExp_asVal hI (ty := x.1) (e := x.2) h)

theorem blockOf_den {ps : List (SrcPart S V Nat)} {a : Stm S V} (h : blockOf ps = some a) :
    ∃ cs : List (Code (S × D) V), ps.map (SrcPart.den C.I C.calls C.fuel) = cs.map .stm ++ [.tok t!"}"] ∧
      seqAll cs = a.code C.I C.calls C.fuel := by
  induction ps generalizing a with
  | nil => cases h
  | cons p ps ih =>
    cases p <;> first | cases h; done | skip
    · cases ps with
      | cons => cases h
      | nil =>
        simp only [blockOf] at h
        split at h
        · cases h
          rename_i ht
          exact ⟨[], by simp [ht, SrcPart.den], rfl⟩
        · cases h
    · simp only [blockOf, Option.map_eq_some_iff] at h
      obtain ⟨b, h1, rfl⟩ := h
      obtain ⟨cs, h2, h3⟩ := ih h1
      exact ⟨_ :: cs, by simp [h2, SrcPart.den]; rfl, by simp [seqAll, h3, Stm.code]⟩

theorem flow_den {ps : List (SrcPart S V Nat)} {q : SrcPart S V Nat} (h : C.env.flow ps = some q) :
    merge (ps.map (SrcPart.den C.I C.calls C.fuel)) = ps.map (SrcPart.den C.I C.calls C.fuel) ∧
    C.flow (ps.map (SrcPart.den C.I C.calls C.fuel)) = some (q.den C.I C.calls C.fuel) ∧
    C.closed (ps.map (SrcPart.den C.I C.calls C.fuel)) = some (q.den C.I C.calls C.fuel) := by
  have hmach : C.I.machine = C.M.withState D := by rw [hI]; rfl
  unfold Env.flow at h
  split at h
  rotate_left
  · cases h
  rename_i a b e c s
  split at h
  rotate_left
  · cases h
  rename_i hbc
  obtain ⟨rfl, rfl⟩ := hbc
  obtain ⟨x, hx, hq⟩ : ∃ x, e.asExp C.env.numVal = some x ∧
      ((a = t!"if" ∧ q = .stm (.ite x.2 s .skip)) ∨ (a = t!"while" ∧ q = .stm (.loop x.2 none s))) := by
    split at h
    · simp only [Option.map_eq_some_iff] at h
      obtain ⟨x, h1, h2⟩ := h
      exact ⟨x, h1, .inl ⟨by assumption, h2.symm⟩⟩
    · split at h
      rotate_left
      · cases h
      simp only [Option.map_eq_some_iff] at h
      obtain ⟨x, h1, h2⟩ := h
      exact ⟨x, h1, .inr ⟨by assumption, h2.symm⟩⟩
  have hv := asExp_asVal hI (ty := x.1) (e := x.2) hx
  have hf := den_flat hI hx
  have hm : merge ([.tok a, .tok t!"(", e, .tok t!")", .stm s].map (SrcPart.den C.I C.calls C.fuel)) =
      [.tok a, .tok t!"(", e, .tok t!")", .stm s].map (SrcPart.den C.I C.calls C.fuel) :=
    merge_mid (a := [.tok a, .tok t!"(", e.den C.I C.calls C.fuel, .tok t!")"]) (ds := [])
      (by simp [hf]) _ rfl
  have hfl : C.flow ([.tok a, .tok t!"(", e, .tok t!")", .stm s].map (SrcPart.den C.I C.calls C.fuel)) =
      some (q.den C.I C.calls C.fuel) := by
    simp only [List.map_cons, List.map_nil, den_tok, den_stm]
    generalize e.den C.I C.calls C.fuel = d at hv
    rcases hq with ⟨rfl, rfl⟩ | ⟨rfl, rfl⟩
    · cases d <;> simp only [Den.asVal, reduceCtorEq, Option.some.injEq, Prod.mk.injEq] at hv <;>
        simp [Ctx.flow, Den.asVal, Stm.code, hmach, hv]
    · simp [Ctx.flow, hv, Stm.code, hmach, optStep]
  exact ⟨hm, hfl, hfl⟩

/-- It agrees with the elaboration. -/
theorem sem_agrees : C.sem.Agrees C.env.elab C.I C.calls C.fuel where
  numVal := rfl
  node p ps q h := by
    replace h : C.env.elabNode p ps = some q := h
    show C.node p (merge (ps.map _)) = _
    unfold Env.elabNode at h
    split at h
    · rename_i x
      simp only [List.map_cons, List.map_nil, den_tok, merge, Ctx.node, if_true, Ctx.primary]
      unfold Env.word at h
      unfold Ctx.word
      split at h
      · cases h
      rename_i hd
      rw [if_neg hd]
      split at h
      next n hn => cases h; simp [hn]
      next hn =>
        split at h
        next ty c hv => cases h; simp [hv, Exp.eval]
        next hv =>
          simp only [Option.map_eq_some_iff] at h
          obtain ⟨g, hg, rfl⟩ := h
          simp [hv, hg]
    · rename_i a e b
      split at h
      rotate_left
      · cases h
      rename_i hab
      obtain ⟨rfl, rfl⟩ := hab
      simp only [Option.map_eq_some_iff] at h
      obtain ⟨x, hx, rfl⟩ := h
      have hv := asExp_asVal hI (ty := x.1) (e := x.2) hx
      simp only [List.map_cons, List.map_nil, den_tok, den_stm]
      rw [merge_flat (by simp [den_flat hI hx])]
      simp [Ctx.node, Ctx.primary, hv]
    · rename_i g a b
      split at h
      rotate_left
      · cases h
      rename_i hab
      obtain ⟨rfl, rfl⟩ := hab
      cases h
      have : (fun i => ((Fin.elim0 i : Exp S V)).eval C.I C.calls) =
          fun i : Fin 0 => (i.elim0 : Comp (S × D) V) := funext fun i => i.elim0
      simp [merge, Ctx.node, Ctx.postfix, Exp.eval, this]
    · rename_i k a x b _ _
      simp only [Option.bind_eq_some_iff, Option.map_eq_some_iff] at h
      obtain ⟨op, ho, e, he, f, hf, rfl⟩ := h
      have hk : k ≠ 17 ∧ k ≠ 16 ∧ k ≠ 15 := by
        have := List.find?_some ho
        simp only [Bool.and_eq_true, beq_iff_eq] at this
        rw [← this.2]
        cases op <;> decide
      have hv := asExp_asVal hI (ty := e.1) (e := e.2) he
      have hw := asExp_asVal hI (ty := f.1) (e := f.2) hf
      have hmach : C.I.machine = C.M.withState D := by rw [hI]; rfl
      simp only [List.map_cons, List.map_nil, den_tok, den_stm]
      rw [merge_flat (by simp [den_flat hI he, den_flat hI hf])]
      simp [Ctx.node, hk, Ctx.binary, ho, hv, hw, Exp.eval, hmach]
    · rename_i a e
      split at h
      rotate_left
      · cases h
      simp only [Option.map_eq_some_iff] at h
      obtain ⟨x, hx, rfl⟩ := h
      have hv := asExp_asVal hI (ty := x.1) (e := x.2) hx
      simp only [List.map_cons, List.map_nil, den_tok, den_stm]
      rw [merge_flat (by simp [den_flat hI hx])]
      simp [Ctx.node, hv, Stm.code, optRet]
    · rename_i e a
      split at h
      · rename_i ha
        subst ha
        simp only [Option.map_eq_some_iff] at h
        obtain ⟨s, hs, rfl⟩ := h
        cases e <;> simp only [SrcPart.asStm, if_true, SrcPart.asExp, Option.map_some, Option.map_none,
          reduceCtorEq, Option.some.injEq] at hs <;> subst hs <;>
          simp [merge, Ctx.node, Ctx.closed, Stm.code, Den.asVal, Exp.eval]
        rw [hI, raise_pure, Comp.pure_bind]
      · split at h
        rotate_left
        · cases h
        split at h
        rotate_left
        · cases h
        split at h
        rotate_left
        · cases h
        rename_i ha _ b hb
        subst ha hb
        cases h
        simp [merge, Ctx.node, Ctx.closed, Stm.code]
    · rename_i a ps _
      split at h
      · rename_i ha
        subst ha
        simp only [Option.map_eq_some_iff] at h
        obtain ⟨b, hb, rfl⟩ := h
        obtain ⟨cs, h1, h2⟩ := blockOf_den hI hb
        have := (sem_has { C with fs := [] } true (by simp)).block cs
        simp only [List.map_cons, den_tok, den_stm, h1, ← h2]
        exact this
      · obtain ⟨h1, -, h3⟩ := flow_den hI h
        rw [h1]
        exact h3
    · obtain ⟨h1, h2, -⟩ := flow_den hI h
      rw [h1]
      exact h2
    · simp only [Option.map_eq_some_iff] at h
      obtain ⟨g, hg, rfl⟩ := h
      simp [merge, Ctx.node, hg, Stm.exec]
    · cases h

end

end Dredd.Mini
