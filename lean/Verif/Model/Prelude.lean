/-
What the code in the regular preludes does when it runs:
mutate_ast_consumer.cc 253-345 (C++) and 383-440 (C).  The texts are in
`Model/PreludeText.lean`.
-/
import Verif.Model.Text

namespace Dredd

/-- Outcome of running C or C++ code: a result, an exception that leaves the code
(with the state it leaves behind), or undefined behaviour. (the code in
mutate_ast_consumer.cc 278-343, 403-438.) -/
inductive Out (σ α : Type)
  | ok (a : α)
  | threw (s : σ)
  | ub
deriving DecidableEq, Repr

/-- The values of `int` (32 bits, as on the platforms supported by clang). (`int
value`, mutate_ast_consumer.cc 307, 419.) -/
def inInt (v : Int) : Bool := decide (-2147483648 ≤ v) && decide (v ≤ 2147483647)

/-- `isspace` in the "C" locale. (inside `stoi` and `atoi`, mutate_ast_consumer.cc
307, 419.) -/
def isSpaceC (c : Char) : Bool :=
  c == ' ' || c == '\t' || c == '\n' || c.toNat == 11 || c.toNat == 12 || c == '\r'

/-- `isdigit`. (inside `stoi` and `atoi`, mutate_ast_consumer.cc 307, 419.) -/
def isDigitC (c : Char) : Bool := decide ('0'.toNat ≤ c.toNat) && decide (c.toNat ≤ '9'.toNat)

/-- Value of a string of decimal digits. (inside `stoi` and `atoi`,
mutate_ast_consumer.cc 307, 419.) -/
def digitsVal (ds : Text) : Nat := ds.foldl (fun a c => 10 * a + (c.toNat - '0'.toNat)) 0

/-- Common part of `strtol`, `std::stoi` and `atoi` (C17 7.22.1): skip white space,
optional sign, then as many digits as possible. `none` if there is no digit.
(mutate_ast_consumer.cc 307, 419.) -/
def scanInt (t : Text) : Option Int :=
  let t := t.dropWhile isSpaceC
  let (neg, t) : Bool × Text :=
    match t with
    | '-' :: r => (true, r)
    | '+' :: r => (false, r)
    | r => (false, r)
  let ds := t.takeWhile isDigitC
  if ds.isEmpty then none
  else some (if neg then -(digitsVal ds : Int) else digitsVal ds)

/-- `std::stoi` (mutate_ast_consumer.cc 307): `none` if it throws
`invalid_argument` or `out_of_range`. -/
def stoi (t : Text) : Option Int :=
  match scanInt t with
  | none => none
  | some v => if inInt v then some v else none

/-- `atoi` (mutate_ast_consumer.cc 419): 0 if there is no number, undefined
(`none`) if the number is not representable. -/
def atoi (t : Text) : Option Int :=
  match scanInt t with
  | none => some 0
  | some v => if inInt v then some v else none

/-- The thread-local variables of the prelude: `initialized`, `enabled_bitset`,
`__dredd_some_mutation_enabled` (mutate_ast_consumer.cc 278-284 and
403-407). -/
structure Thread where
  initialized : Bool
  bits : List (BitVec 64)
  some_ : Bool
deriving DecidableEq, Repr

/-- The initial values of the thread-local variables; the array has
`(n + 63) / 64` words (mutate_ast_consumer.cc 262, 389). -/
def Thread.start (n : Nat) : Thread :=
  ⟨false, List.replicate ((n + 63) / 64) 0#64, true⟩

/-- What the parsing loop changes: the bits and the local variable
`some_mutation_enabled`. (mutate_ast_consumer.cc 283-287, 406-409.) -/
structure Parse where
  bits : List (BitVec 64)
  some_ : Bool
deriving DecidableEq, Repr

/-- The statements for one value: `local_value = value - first` (a signed
subtraction, undefined on overflow), range test, setting the bit
(mutate_ast_consumer.cc 308-323, 420-427).  An index outside the array is
undefined. -/
def enableValue (first n : Nat) (p : Parse) (v : Int) : Out Parse Parse :=
  let lv := v - first
  if !inInt lv then .ub
  else if 0 ≤ lv ∧ lv < n then
    let k := lv.toNat
    match p.bits[k / 64]? with
    | none => .ub
    | some w => .ok ⟨p.bits.set (k / 64) (w ||| (1#64 <<< (k % 64))), true⟩
  else .ok p

/-- One round of the C++ parsing loop (mutate_ast_consumer.cc 305-324): an empty
token is skipped. -/
def tokenCpp (first n : Nat) (p : Parse) (token : Text) : Out Parse Parse :=
  if token.isEmpty then .ok p
  else
    match stoi token with
    | none => .threw p
    | some v => enableValue first n p v

/-- The C++ parsing loop (mutate_ast_consumer.cc 293-331): `contents` up to the
first comma is the token; without a comma this is the last token; otherwise the
token and the comma are erased. -/
def parseCpp (first n : Nat) (p : Parse) (contents : Text) : Out Parse Parse :=
  match tokenCpp first n p (contents.takeWhile (· ≠ ',')) with
  | .ok p' =>
    match _h : contents.dropWhile (· ≠ ',') with
    | [] => .ok p'
    | _ :: rest => parseCpp first n p' rest
  | r => r
termination_by contents.length
decreasing_by
  have h1 : (contents.dropWhile (· ≠ ',')).length ≤ contents.length :=
    (List.dropWhile_sublist _).length_le
  rw [_h] at h1
  simp only [List.length_cons] at h1
  omega

/-- `strtok(s, ",")` (mutate_ast_consumer.cc 417, 428): skip commas, then the
token reaches to the next comma.  Returns the token and what `strtok` remembers
for the next call. -/
def strtok (s : Text) : Option (Text × Text) :=
  match s.dropWhile (· = ',') with
  | [] => none
  | s => some (s.takeWhile (· ≠ ','), (s.dropWhile (· ≠ ',')).drop 1)

theorem strtok_shorter {s tok rest : Text} (h : strtok s = some (tok, rest)) :
    rest.length < s.length := by
  unfold strtok at h
  split at h
  · simp at h
  · rename_i hne
    simp only [Option.some.injEq, Prod.mk.injEq] at h
    obtain ⟨_, rfl⟩ := h
    have h1 : (s.dropWhile (· = ',')).length ≤ s.length := (List.dropWhile_sublist _).length_le
    have h2 : ((s.dropWhile (· = ',')).dropWhile (· ≠ ',')).length
        ≤ (s.dropWhile (· = ',')).length := (List.dropWhile_sublist _).length_le
    have h3 : 0 < (s.dropWhile (· = ',')).length := List.length_pos_iff.mpr (by simpa using hne)
    simp only [List.length_drop]
    omega

/-- One round of the C parsing loop (mutate_ast_consumer.cc 419-427). -/
def tokenC (first n : Nat) (p : Parse) (token : Text) : Out Parse Parse :=
  match atoi token with
  | none => .ub
  | some v => enableValue first n p v

/-- The C parsing loop (mutate_ast_consumer.cc 413-430). -/
def parseC (first n : Nat) (p : Parse) (s : Text) : Out Parse Parse :=
  match _h : strtok s with
  | none => .ok p
  | some (token, rest) =>
    match tokenC first n p token with
    | .ok p' => parseC first n p' rest
    | r => r
termination_by s.length
decreasing_by exact strtok_shorter _h

/-- The parsing of the value of the environment variable. (mutate_ast_consumer.cc
288-332, 410-431.) -/
def parseEnv (cpp : Bool) (first n : Nat) (p : Parse) : Option Text → Out Parse Parse
  | none => .ok p
  | some s => if cpp then parseCpp first n p s else parseC first n p s

/-- The `if (!initialized)` block (mutate_ast_consumer.cc 285-337, 408-434).
`env` is the value of `DREDD_ENABLED_MUTATION`. -/
def initThread (cpp : Bool) (first n : Nat) (env : Option Text) (th : Thread) :
    Out Thread Thread :=
  match parseEnv cpp first n ⟨th.bits, false⟩ env with
  | .ok p => .ok ⟨true, p.bits, p.some_⟩
  | .threw p => .threw { th with bits := p.bits }
  | .ub => .ub

/-- `__dredd_enabled_mutation` (mutate_ast_consumer.cc 279-343, 404-438): the
answer and the new values of the thread's variables. -/
def enabledMutation (cpp : Bool) (first n : Nat) (env : Option Text) (th : Thread) (i : Nat) :
    Out Thread (Thread × Bool) :=
  match (if th.initialized then .ok th else initThread cpp first n env th : Out Thread Thread) with
  | .ok th =>
    match th.bits[i / 64]? with
    | none => .ub
    | some w => .ok (th, decide (w &&& (1#64 <<< (i % 64)) ≠ 0#64))
  | .threw s => .threw s
  | .ub => .ub

end Dredd
