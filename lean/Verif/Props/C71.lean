/-
C71: integer programs.  For the machine of `Spec/IntMachine.lean`, everything that C18, C19 and C50 ask
of the semantics of a program follows from its static types.
-/
import Verif.Proofs.Quiet
import Verif.Proofs.Lambda

namespace Dredd

variable {R X : Type} {D : Type} {Ok : D → Prop}

/-- What C71 asks of the instrumentation points of a program: the ids belong to the file, whose `n`
mutants begin with `first`, and the types recorded are the types of the expressions. -/
def typedSites (N : IntRules) (l : Lang) (std : Std) (sig : Nat → VTy) (o : Options) (first n : Nat) :
    Sites (IState R) (IVal X) where
  bin s id x y := first ≤ id ∧ (s.apply l o first id).nextId ≤ first + n ∧
    ∃ a b t, x.Ty N l std sig a ∧ y.Ty N l std sig b ∧ N.binTy std s.op a b = some t ∧ s.Fits a b t
  un s id x := first ≤ id ∧ (s.apply l o first id).nextId ≤ first + n ∧
    ∃ a t, x.Ty N l std sig a ∧ N.unTy std s.op a = some t ∧ s.Fits t
  expr s id x := first ≤ id ∧ (s.apply l o first id).nextId ≤ first + n ∧
    x.Ty N l std sig (.num s.self.ty)
  load s id x := first ≤ id ∧ (s.apply l o first id).nextId ≤ first + n ∧
    x.Ty N l std sig (.obj s.self.ty)
  stmt id := first ≤ id ∧ id + 1 ≤ first + n

/-- In C++17, operands of shifts and assignments that do not influence each other, unless the
instrumented program keeps their order; for `all` also those of other operators. -/
def orderedSites (l : Lang) (std : Std) (all : Prop) : Sites (IState R) (IVal X) where
  bin s _ x y := s.op.isLogical = true ∨ std.order s.op = .unseq ∧ ¬ all ∨ x.Apart y ∨
    callOrder (l.cpp && s.lhs.sideEffects) (l.cpp && s.rhs.sideEffects) (std.order s.op)
      = std.order s.op
  un _ _ _ := True
  expr _ _ _ := True
  load _ _ _ := True
  stmt _ := True

section

variable {N : IntRules} {l : Lang} {std : Std} {truthX : X → Option Bool} {sig : Nat → VTy}

/-- Conversions keep the truth values of logical operators and of the literals 0 and 1. -/
theorem intMachine_truthLaws (N : IntRules) (l : Lang) (std : Std) (truthX : X → Option Bool)
    {a b t : BTy} (ha : a.isFloat = false) (hb : b.isFloat = false) (ht : t = std.boolTy) :
    (intMachine N l std R truthX).TruthLaws (a.name l) (b.name l) (t.name l) where
  zero := rfl
  one := rfl
  bool x := by cases x <;> rfl
  conv ty hty v hv s := by
    obtain ⟨u, hu, rfl⟩ : ∃ u : BTy, u.isFloat = false ∧ ty = u.name l := by
      rcases hty with rfl | rfl
      · exact ⟨a, ha, rfl⟩
      · exact ⟨b, hb, rfl⟩
    have h0 : N.conv l u 0 = 0 := Platform.conv_holds (N.holds_zero l u)
    have h1 : N.conv l u 1 = 1 := Platform.conv_holds (N.holds_one l u)
    have key : ∀ z : Bool, N.conv l u (if z = true then 1 else 0) = if z = true then 1 else 0 := by
      intro z
      cases z
      · exact h0
      · exact h1
    rcases hv with ⟨z, rfl⟩ | rfl | rfl
    · refine ⟨.num u (if z then 1 else 0), ?_, rfl⟩
      simp only [intMachine, IntRules.convVal, readTy_name, hu, Bool.false_eq_true, if_false, key]
    · refine ⟨.num u 0, ?_, rfl⟩
      simp only [intMachine, IntRules.convVal, readTy_name, hu, Bool.false_eq_true, if_false, h0]
    · refine ⟨.num u 1, ?_, rfl⟩
      simp only [intMachine, IntRules.convVal, readTy_name, hu, Bool.false_eq_true, if_false, h1]
  res x s := by
    subst ht
    exact convVal_self (readTy_name l _) (by simp) (has_bool N l std x) s

/-- Values of a type are not changed by conversion to it. -/
theorem hasType_of_has {c : Comp (IState R) (IVal X)} {ty : Text} {t : VTy}
    (ht : readTy l ty = some t) (ho : t ≠ .other) (h : ∀ v, c.Yields v → v.Has N l t) :
    c.HasType (intMachine N l std R truthX) ty := fun _ v _ hd =>
  convVal_self ht ho (h v ⟨_, _, hd⟩) _

/-- Operands of logical operators in C have the types that the generated functions use. -/
theorem typed_logical {K : Interp (IState R) (IState R) (IVal X)} (hK : K.Sound N l std truthX)
    (hstep : ∀ (α : Type) (f : IState R → Option (α × IState R)), K.step f = .lift f)
    {P : Prog (IState R) (IVal X)} (hP : P.Returns N l sig) {s : BinSite}
    {x y : Exp (IState R) (IVal X)} {a b t : VTy} (hx : x.Ty N l std sig a) (hy : y.Ty N l std sig b)
    (ht : N.binTy std s.op a b = some t) (hs : s.Fits a b t) :
    logicalTyped l (intMachine N l std R truthX) K P s x y := by
  intro hcpp hlog
  obtain ⟨rfl, u, v, rfl, rfl, hu, hv⟩ := binTy_logical hlog ht
  have e1 : u = s.lhs.ty := Option.some.inj hs.lhs
  have e2 : v = s.rhs.ty := Option.some.inj hs.rhs
  have e3 : std.boolTy = s.resTy := Option.some.inj hs.res
  subst e1
  subst e2
  refine ⟨intMachine_truthLaws N l std truthX hu hv e3.symm, fun k => ⟨?_, ?_⟩⟩
  · exact hasType_of_has (readTy_name l _) (by simp)
      (hx.sound hK fun f vs v h => hP.call hstep k f vs v h)
  · exact hasType_of_has (readTy_name l _) (by simp)
      (hy.sound hK fun f vs v h => hP.call hstep k f vs v h)

/-- Static types are all that C50 needs. -/
theorem fileSites_of_typed (hl : l.cpp = decide (std ≠ .c)) (o : Options) (E : Nat → Bool)
    (first n : Nat) {P : Prog (IState R) (IVal X)} (hR : P.Returns N l sig)
    (hP : P.All (typedSites N l std sig o first n)) :
    P.All (fileSites l o (intMachine N l std R truthX) first n
      (Interp.mutant l o (intMachine N l std R truthX) E first) P) := by
  intro f
  refine Stm.All.imp ?_ ?_ ?_ ?_ ?_ _ (hP f)
  · rintro s id x y ⟨h1, h2, a, b, t, hx, hy, ht, hs⟩
    exact ⟨h1, h2, typed_logical (sound_mutant N l std truthX hl o E first) (fun _ _ => rfl) hR hx hy
      ht hs⟩
  · exact fun s id x h => ⟨h.1, h.2.1⟩
  · exact fun s id x h => ⟨h.1, h.2.1⟩
  · exact fun s id x h => ⟨h.1, h.2.1⟩
  · exact fun id h => h

/-- Static types and operands that do not influence each other are all that C18 needs. -/
theorem originalSites_of_typed (hl : l.cpp = decide (std ≠ .c)) (o : Options)
    (first n : Nat) (all : Prop) {P : Prog (IState R) (IVal X)} (hR : P.Returns N l sig)
    (hP : P.All ((typedSites N l std sig o first n).and (orderedSites l std (l.cpp = true ∧ all)))) :
    P.All (originalSites l o (intMachine N l std R truthX) first n all P) := by
  have hK := sound_original (R := R) N l std truthX
  intro f
  refine Stm.All.imp ?_ ?_ ?_ ?_ ?_ _ (hP f)
  · rintro s id x y ⟨⟨h1, h2, a, b, t, hx, hy, ht, hs⟩, hord⟩
    refine ⟨h1, h2, ?_, ?_⟩
    · intro hc
      rw [hc] at ht
      unfold IntRules.binTy at ht
      split at ht
      · simp [BOp.isLogical, BOp.compare, BOp.arithKind] at ht
      · simp [BOp.compound] at ht
      · cases ht
    · split
      · rename_i hlog
        refine ⟨?_, typed_logical hK (fun _ _ => rfl) hR hx hy ht hs⟩
        intro z t'
        have h3 := (hs.readTy hl ht).1
        obtain ⟨rfl, -⟩ := binTy_logical hlog ht
        exact convVal_self h3 (by simp) (has_bool N l std z) t'
      · rename_i hlog
        have hlog : s.op.isLogical = false := by simpa using hlog
        intro k
        refine ⟨⟨fun _ v1 v2 y1 y2 s1 v s2 h => ?_, fun h => by rw [hlog] at h; cases h⟩, ?_⟩
        · obtain ⟨h3, h4⟩ := hs.readTy hl ht
          refine convVal_self h3 h4 (binVal_has hlog ht ?_ ?_ h) s2
          · exact hx.sound hK (fun f vs v h => hR.call (fun _ _ => rfl) k f vs v h) v1 y1
          · exact hy.sound hK (fun f vs v h => hR.call (fun _ _ => rfl) k f vs v h) v2 y2
        · rcases hord with h | ⟨h, h'⟩ | h | h
          · rw [hlog] at h; cases h
          · refine .inl ⟨h, fun ha => ?_⟩
            cases hc : l.cpp
            · rfl
            · exact absurd ⟨hc, ha⟩ h'
          · exact .inr (.inl (h.commute (intMachine_reads N l std truthX) l _))
          · exact .inr (.inr h)
  · rintro s id x ⟨⟨h1, h2, a, t, hx, ht, hs⟩, -⟩
    refine ⟨h1, h2, fun k => ?_⟩
    obtain ⟨h3, h4⟩ := hs.readTy hl ht
    constructor
    · intro hn v hy s1 v' s2 h
      exact convVal_self h3 h4 (unVal_has hn ht
        (hx.sound hK (fun f vs v h => hR.call (fun _ _ => rfl) k f vs v h) v hy) h) s2
    · intro hn z s1
      have hz : IVal.Has N l ((intMachine N l std R truthX).ofBool z) t := by
        rw [hn] at ht
        unfold IntRules.unTy at ht
        split at ht
        · split at ht
          · cases ht
          · cases ht
            exact has_bool N l std z
        · simp [UOp.delta] at ht
        · cases ht
      exact convVal_self h3 h4 hz s1
  · rintro s id x ⟨⟨h1, h2, hx⟩, -⟩
    refine ⟨h1, h2, fun k => ?_⟩
    exact hasType_of_has (readTy_name l _) (by simp)
      (hx.sound hK fun f vs v h => hR.call (fun _ _ => rfl) k f vs v h)
  · exact fun s id x h => ⟨h.1.1, h.1.2.1⟩
  · exact fun id h => h.1

/-- C71: an integer program in C or C++ whose recorded types are right, built with mutants and run
with any enabled set, behaves exactly like the mutant that the mutation information describes. -/
theorem C71_mutant (N : IntRules) (l : Lang) (std : Std) (truthX : X → Option Bool)
    (sig : Nat → VTy) (hl : l.cpp = decide (std ≠ .c)) (o : Options) (ho : o.track = false)
    (dev : Device D) (E : Nat → Bool) (first n : Nat)
    (hdev : dev.Faithful Ok (fun i => E (first + i)) n)
    (P : Prog (IState R) (IVal X)) (hR : P.Returns N l sig)
    (hP : P.All (typedSites N l std sig o first n)) (k f : Nat) (vs : List (IVal X)) :
    let M := intMachine N l std R truthX
    Sim Ok True (P.call (Interp.mutant l o M E first) k f vs)
      (P.call (Interp.instrumented l o M dev first) k f vs) :=
  C50_mutant l o _ dev E first n hdev ho P (fileSites_of_typed hl o E first n hR hP) k f vs

/-- C71: an integer program in C whose recorded types are right has exactly the behaviours of the
original program if none of its mutants is enabled. -/
theorem C71_original_c (N : IntRules) (l : Lang) (truthX : X → Option Bool)
    (sig : Nat → VTy) (hl : l.cpp = false) (o : Options) (ho : o.track = false)
    (dev : Device D) (E : Nat → Bool) (first n : Nat)
    (hdev : dev.Faithful Ok (fun i => E (first + i)) n)
    (hE : ∀ i, first ≤ i → i < first + n → E i = false)
    (P : Prog (IState R) (IVal X)) (hR : P.Returns N l sig)
    (hP : P.All (typedSites N l .c sig o first n)) (k f : Nat) (vs : List (IVal X)) :
    let M := intMachine N l .c R truthX
    Sim Ok True (P.call (Interp.original l M) k f vs)
      (P.call (Interp.instrumented l o M dev first) k f vs) := by
  refine C18_original l o _ dev E first n hdev ho hE True P
    (originalSites_of_typed (by rw [hl]; rfl) o first n True hR fun f => ?_) k f vs
  refine Stm.All.imp ?_ ?_ ?_ ?_ ?_ _ (hP f)
  · exact fun s id x y h => ⟨h, .inr (.inl ⟨rfl, by simp [hl]⟩)⟩
  · exact fun s id x h => ⟨h, trivial⟩
  · exact fun s id x h => ⟨h, trivial⟩
  · exact fun s id x h => ⟨h, trivial⟩
  · exact fun id h => ⟨h, trivial⟩

/-- C71: an integer program in C++ whose recorded types are right only has behaviours of the original
program if none of its mutants is enabled; and has all of them if `all`, under the stronger conditions
on operands that this implies. -/
theorem C71_original_cpp (N : IntRules) (l : Lang) (std : Std) (truthX : X → Option Bool)
    (sig : Nat → VTy) (hl : l.cpp = decide (std ≠ .c)) (o : Options) (ho : o.track = false)
    (dev : Device D) (E : Nat → Bool) (first n : Nat)
    (hdev : dev.Faithful Ok (fun i => E (first + i)) n)
    (hE : ∀ i, first ≤ i → i < first + n → E i = false) (all : Prop)
    (P : Prog (IState R) (IVal X)) (hR : P.Returns N l sig)
    (hP : P.All ((typedSites N l std sig o first n).and (orderedSites l std (l.cpp = true ∧ all))))
    (k f : Nat) (vs : List (IVal X)) :
    let M := intMachine N l std R truthX
    Sim Ok all (P.call (Interp.original l M) k f vs)
      (P.call (Interp.instrumented l o M dev first) k f vs) :=
  C18_original l o _ dev E first n hdev ho hE all P
    (originalSites_of_typed hl o first n all hR hP) k f vs

/-- C71: in the original program and in every mutant, each typed expression only has values of its
type. -/
theorem C71_types (N : IntRules) (l : Lang) (std : Std) (truthX : X → Option Bool)
    (sig : Nat → VTy) (hl : l.cpp = decide (std ≠ .c)) (o : Options) (E : Nat → Bool) (first : Nat)
    (P : Prog (IState R) (IVal X)) (hR : P.Returns N l sig) (x : Exp (IState R) (IVal X)) (t : VTy)
    (h : x.Ty N l std sig t) (k : Nat) (v : IVal X) :
    let M := intMachine N l std R truthX
    ((x.eval (Interp.original l M) (P.call (Interp.original l M) k)).Yields v → v.Has N l t) ∧
    ((x.eval (Interp.mutant l o M E first) (P.call (Interp.mutant l o M E first) k)).Yields v →
      v.Has N l t) :=
  ⟨h.sound (sound_original N l std truthX) (fun f vs v h => hR.call (fun _ _ => rfl) k f vs v h) v,
   h.sound (sound_mutant N l std truthX hl o E first)
    (fun f vs v h => hR.call (fun _ _ => rfl) k f vs v h) v⟩

end

/-! ### Examples -/

namespace Sample

/-- The widths of the types on 64-bit Linux. -/
def lp64Width : BTy → Nat
  | .bool | .char | .uchar | .char8 | .schar => 8
  | .char16 | .ushort | .short | .half | .float16 | .bfloat16 => 16
  | .wchar | .char32 | .uint | .int | .float => 32
  | .uint128 | .int128 | .longdouble | .float128 | .ibm128 => 128
  | _ => 64

/-- Integer promotion. -/
def lp64Prom : BTy → BTy
  | .bool | .char | .uchar | .char8 | .schar | .char16 | .ushort | .short | .wchar => .int
  | .char32 => .uint
  | t => t

/-- Integer types on 64-bit Linux. -/
def lp64 : IntRules where
  width := lp64Width
  width_gt t := by cases t <;> decide
  prom := lp64Prom
  shlDefined := false
  usual t u :=
    if lp64Width (lp64Prom t) < lp64Width (lp64Prom u) then lp64Prom u
    else if lp64Width (lp64Prom u) < lp64Width (lp64Prom t) then lp64Prom t
    else if (lp64Prom t).isSigned c then lp64Prom u else lp64Prom t
  prom_int t h := by cases t <;> first | exact ⟨rfl, rfl⟩ | cases h
  usual_int t u h h' := by
    have key : ∀ t : BTy, t.isFloat = false →
        (lp64Prom t).isFloat = false ∧ (lp64Prom t).isBool = false := by
      intro t h
      cases t <;> first | exact ⟨rfl, rfl⟩ | cases h
    repeat' split
    all_goals first | exact key t h | exact key u h'

/-- A variable of type `int` at a fixed address. -/
def var (a : Nat) : Exp (IState Unit) (IVal Unit) := .atom (.pure (.obj .int a))
/-- A number of type `int`. -/
def lit (n : Int) : Exp (IState Unit) (IVal Unit) := .atom (.pure (.num .int n))
/-- The value of a variable. -/
def get (a : Nat) : Exp (IState Unit) (IVal Unit) := .load t!"int" (var a)

/-- A binary operator of C on `int` operands. -/
def binC (op : BOp) (lhs rhs : ExprInfo) : BinSite := { bin op lhs rhs with resTy := .int }

/-- `int gcd(void) { while (b != 0 && a > 0) { t = a % b; a = b; b = t; } return a; }` on global
variables `a`, `b`, `t` at addresses 0, 1, 2.  All operators and statements are instrumented. -/
def gcd : Prog (IState Unit) (IVal Unit) where
  body _ :=
    .seq
      (.loop
        (.binAt (binC .land intVal intVal) 0
          (.binAt (binC .ne intVal intVal) 3 (get 1) (lit 0))
          (.binAt (binC .gt intVal intVal) 8 (get 0) (lit 0)))
        none
        (.seq
          (.removable 13 (.expr (.binAt (binC .assign intVar intVal) 14 (var 2)
            (.binAt (binC .rem intVal intVal) 24 (get 0) (get 1)))))
          (.seq (.removable 30 (.expr (.binAt (binC .assign intVar intVal) 31 (var 0) (get 1))))
            (.removable 41 (.expr (.binAt (binC .assign intVar intVal) 42 (var 1) (get 2)))))))
      (.ret (some (.loadAt (expr intVar) 52 (var 0))))
  enter _ _ s := some ((), s)
  leave _ v s := match v with
    | some (.num t x) => if t = .int ∧ lp64.Holds c .int x then some (.num t x, s) else none
    | _ => none

theorem gcd_returns : gcd.Returns lp64 c (fun _ => .num .int) := by
  intro f v s w s' h
  simp only [gcd] at h
  split at h
  · split at h
    · rename_i hh
      cases h
      exact ⟨hh.1, rfl, hh.2⟩
    · cases h
  · cases h

theorem var_ty (a : Nat) : (var a).Ty lp64 c .c (fun _ => .num .int) (.obj .int) :=
  .atom fun v h => by rw [Comp.yields_pure h]; rfl

theorem get_ty (a : Nat) : (get a).Ty lp64 c .c (fun _ => .num .int) (.num .int) :=
  .load (t := .int) (var_ty a)

theorem lit_ty : (lit 0).Ty lp64 c .c (fun _ => .num .int) (.num .int) :=
  .atom fun v h => by rw [Comp.yields_pure h]; exact ⟨rfl, rfl, lp64.holds_zero c .int⟩

theorem gcd_typed : gcd.All (typedSites lp64 c .c (fun _ => .num .int) opts 0 60) := by
  intro f
  have h1 := Exp.Ty.binAt (s := binC .ne intVal intVal) (id := 3) (get_ty 1) lit_ty (t := .num .int)
    rfl ⟨rfl, rfl, rfl⟩
  have h2 := Exp.Ty.binAt (s := binC .gt intVal intVal) (id := 8) (get_ty 0) lit_ty (t := .num .int)
    rfl ⟨rfl, rfl, rfl⟩
  have h3 := Exp.Ty.binAt (s := binC .rem intVal intVal) (id := 24) (get_ty 0) (get_ty 1)
    (t := .num .int) rfl ⟨rfl, rfl, rfl⟩
  refine ⟨⟨⟨⟨by decide, by decide, _, _, .num .int, h1, h2, rfl, ⟨rfl, rfl, rfl⟩⟩, ?_, ?_⟩, ?_, ?_⟩, ?_⟩
  · exact ⟨⟨by decide, by decide, _, _, .num .int, get_ty 1, lit_ty, rfl, ⟨rfl, rfl, rfl⟩⟩,
      trivial, trivial⟩
  · exact ⟨⟨by decide, by decide, _, _, .num .int, get_ty 0, lit_ty, rfl, ⟨rfl, rfl, rfl⟩⟩,
      trivial, trivial⟩
  · exact fun _ h => by cases h
  · refine ⟨⟨⟨by decide, by decide⟩, ?_⟩, ⟨⟨by decide, by decide⟩, ?_⟩, ⟨by decide, by decide⟩, ?_⟩
    · exact ⟨⟨by decide, by decide, _, _, .num .int, var_ty 2, h3, rfl, ⟨rfl, rfl, rfl⟩⟩, trivial,
        ⟨by decide, by decide, _, _, .num .int, get_ty 0, get_ty 1, rfl, ⟨rfl, rfl, rfl⟩⟩,
        trivial, trivial⟩
    · exact ⟨⟨by decide, by decide, _, _, .num .int, var_ty 0, get_ty 1, rfl, ⟨rfl, rfl, rfl⟩⟩,
        trivial, trivial⟩
    · exact ⟨⟨by decide, by decide, _, _, .num .int, var_ty 1, get_ty 2, rfl, ⟨rfl, rfl, rfl⟩⟩,
        trivial, trivial⟩
  · rintro x hx
    cases hx
    exact ⟨⟨by decide, by decide, var_ty 0⟩, trivial⟩

/-- The hypotheses of C71 can be met: a C program that computes greatest common divisors, with all its
mutants, the environment variable not being set. -/
example (k : Nat) : Sim (PreludeOk 0 60 []) True
    (gcd.call (Interp.original c (intMachine lp64 c .c Unit fun _ => none)) k 0 [])
    (gcd.call (Interp.instrumented c opts (intMachine lp64 c .c Unit fun _ => none)
      (mutatingPrelude false 0 60 none) 0) k 0 []) :=
  C71_original_c lp64 c _ (fun _ => .num .int) rfl opts rfl _ (inList []) 0 60
    (mutatingPrelude_faithful false 0 60 none [] (.inl ⟨rfl, rfl⟩) (by simp)) (fun _ _ _ => rfl)
    gcd gcd_returns gcd_typed k 0 []

/-- The same with mutants 3 and 24 enabled. -/
example (k : Nat) (dev : Device Thread) (Ok : Thread → Prop)
    (hdev : dev.Faithful Ok (fun i => inList [3, 24] (0 + i)) 60) : Sim Ok True
    (gcd.call (Interp.mutant c opts (intMachine lp64 c .c Unit fun _ => none) (inList [3, 24]) 0) k 0 [])
    (gcd.call (Interp.instrumented c opts (intMachine lp64 c .c Unit fun _ => none) dev 0) k 0 []) :=
  C71_mutant lp64 c .c _ (fun _ => .num .int) rfl opts rfl dev (inList [3, 24]) 0 60 hdev
    gcd gcd_returns gcd_typed k 0 []

/-- A run of the program: if `b` is 0, the result is `a`. -/
example (s : IState Unit) (h0 : s.mem 0 = 6) (h1 : s.mem 1 = 0) :
    gcd.call (Interp.original c (intMachine lp64 c .c Unit fun _ => none)) 2 0 [] s
      (.done (.num .int 6) s) := by
  have step : ∀ {α β : Type} {x : Comp (IState Unit) α} {k : α → Comp (IState Unit) β} {a s s' r},
      x s (.done a s') → k a s' r → Comp.bind x k s r := fun h1 h2 => ⟨_, h1, h2⟩
  have g0 : lp64.Holds c .int 0 := lp64.holds_zero c .int
  have g6 : lp64.Holds c .int 6 := by decide
  have r1 : lp64.read c .int 1 s = some 0 := by simp [IntRules.read, h1, g0]
  have r0 : lp64.read c .int 0 s = some 6 := by simp [IntRules.read, h0, g6]
  have c0 : lp64.conv c .int 0 = 0 := Platform.conv_holds g0
  have c6 : lp64.conv c .int 6 = 6 := Platform.conv_holds g6
  have l1 : (intMachine lp64 c .c Unit fun _ : Unit => none).conv t!"int" (.obj .int 1) s
      = some (.num .int 0, s) := by
    have e := readTy_name c .int
    simp only [BTy.name] at e
    simp [intMachine, IntRules.convVal, e, BTy.isFloat, r1, c0]
  have l0 : (intMachine lp64 c .c Unit fun _ : Unit => none).conv t!"int" (.obj .int 0) s
      = some (.num .int 6, s) := by
    have e := readTy_name c .int
    simp only [BTy.name] at e
    simp [intMachine, IntRules.convVal, e, BTy.isFloat, r0, c6]
  have hne : (intMachine lp64 c .c Unit fun _ : Unit => none).bin .ne (.num .int 0) (.num .int 0) s
      = some (.num .int 0, s) := rfl
  refine step (s' := s) (a := ()) (by rfl) (step (s' := s) (a := .return_ (some (.num .int 6))) ?_ ?_)
  · refine step (s' := s) (a := .return_ (some (.num .int 6))) ?_ (by rfl)
    refine step (s' := s) (a := .normal) ?_ ?_
    · refine step (s' := s) (a := false) ?_ (by rfl)
      refine step (s' := s) (a := .num .int 0) ?_ (by rfl)
      refine step (s' := s) (a := .num .int 0) ?_ (step (s' := s) (a := false) (by rfl) (by rfl))
      refine step (s' := s) (a := (.num .int 0, .num .int 0)) (.inl ?_) ?_
      · refine step (s' := s) (a := .num .int 0) (step (s' := s) (a := .obj .int 1) (by rfl) ?_)
          (step (s' := s) (a := .num .int 0) (by rfl) (by rfl))
        simp only [Interp.original, Comp.lift, l1]
      · simp only [Comp.lift, binC, bin, hne]
    · refine step (s' := s) (a := .num .int 6) (step (s' := s) (a := .obj .int 0) (by rfl) ?_) (by rfl)
      have e : (expr intVar).self.ty.name c = t!"int" := rfl
      simp only [Comp.lift, e, l0]
  · simp [gcd, Interp.original, Comp.lift, returned, g6]

/-- `int main() { x = f(); return x << 1; } int f() { return ++x; }` in C++17, the three operators
being instrumented; `x` is at address 0. -/
def shifted : Prog (IState Unit) (IVal Unit) where
  body f :=
    if f = 0 then
      .seq (.expr (.binAt (bin .assign intVar intCall) 0 (var 0) (.call 1 0 Fin.elim0)))
        (.ret (some (.binAt (bin .shl intVal (intConst 1)) 10 (get 0) (lit 1))))
    else .ret (some (.load t!"int" (.unAt (un .preInc intVar intVar) 16 (var 0))))
  enter _ _ s := some ((), s)
  leave := gcd.leave

/-- The hypotheses of C71 can be met in C++17. -/
example (k : Nat) : Sim (PreludeOk 0 20 []) True
    (shifted.call (Interp.original cpp (intMachine lp64 cpp .cpp17 Unit fun _ => none)) k 0 [])
    (shifted.call (Interp.instrumented cpp opts (intMachine lp64 cpp .cpp17 Unit fun _ => none)
      (unset 20) 0) k 0 []) := by
  refine C71_original_cpp lp64 cpp .cpp17 _ (fun _ => .num .int) rfl opts rfl _ (inList []) 0 20
    (unset_faithful 20) (fun _ _ _ => rfl) True shifted ?_ ?_ k 0 []
  · intro f v s w s' h
    exact gcd_returns f v s w s' h
  · have hv : (var 0).Ty lp64 cpp .cpp17 (fun _ => .num .int) (.obj .int) :=
      .atom fun v h => by rw [Comp.yields_pure h]; rfl
    have hg : (get 0).Ty lp64 cpp .cpp17 (fun _ => .num .int) (.num .int) := .load (t := .int) hv
    have h1 : (lit 1).Ty lp64 cpp .cpp17 (fun _ => .num .int) (.num .int) :=
      .atom fun v h => by rw [Comp.yields_pure h]; exact ⟨rfl, rfl, lp64.holds_one cpp .int⟩
    intro f
    unfold shifted
    dsimp only
    split
    · refine ⟨⟨⟨⟨by decide, by decide, _, _, .obj .int, hv, .call Fin.elim0 fun i => i.elim0, rfl,
        ⟨rfl, rfl, rfl⟩⟩, ?_⟩, trivial, fun i => i.elim0⟩, ?_⟩
      · exact .inr (.inr (.inl (.inl ⟨_, rfl⟩)))
      · rintro x hx
        cases hx
        exact ⟨⟨⟨by decide, by decide, _, _, .num .int, hg, h1, rfl, ⟨rfl, rfl, rfl⟩⟩,
          .inr (.inr (.inl (.inr (.inl ⟨_, rfl⟩))))⟩, trivial, trivial⟩
    · rintro x hx
      cases hx
      exact ⟨⟨⟨by decide, by decide, _, .obj .int, hv, rfl, ⟨rfl, rfl⟩⟩, trivial⟩, trivial⟩

end Sample

end Dredd
