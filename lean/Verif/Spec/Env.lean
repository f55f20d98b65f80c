/-
Specification of the environment variable: a comma-separated list of decimal
integers, with empty entries allowed.
-/
import Verif.Model.Text

namespace Dredd

/-- Value of a string of decimal digits, most significant first. -/
def decVal : Text → Nat
  | [] => 0
  | c :: cs => (c.toNat - 48) * 10 ^ cs.length + decVal cs

/-- A decimal digit. -/
def IsDigit (c : Char) : Prop := 48 ≤ c.toNat ∧ c.toNat ≤ 57

/-- A white-space character. -/
def IsSpace (c : Char) : Prop := c.toNat = 32 ∨ (9 ≤ c.toNat ∧ c.toNat ≤ 13)

instance (c : Char) : Decidable (IsDigit c) := inferInstanceAs (Decidable (_ ∧ _))
instance (c : Char) : Decidable (IsSpace c) := inferInstanceAs (Decidable (_ ∨ _))

/-- `t` is a decimal integer with value `v`: white space, an optional sign, and
at least one digit. -/
def Numeral (t : Text) (v : Int) : Prop :=
  ∃ ws ds, (∀ c ∈ ws, IsSpace c) ∧ ds ≠ [] ∧ (∀ c ∈ ds, IsDigit c) ∧
    ((t = ws ++ ds ∧ v = decVal ds) ∨ (t = ws ++ '+' :: ds ∧ v = decVal ds) ∨
     (t = ws ++ '-' :: ds ∧ v = -(decVal ds : Int)))

/-- The entries are numerals for these values, or empty. -/
inductive Entries : List Text → List Int → Prop
  | nil : Entries [] []
  | empty {ts vs} : Entries ts vs → Entries ([] :: ts) vs
  | num {t v ts vs} : Numeral t v → -2147483648 ≤ v → v ≤ 2147483647 → Entries ts vs →
      Entries (t :: ts) (v :: vs)

/-- Entries separated by commas. -/
def joinComma : List Text → Text
  | [] => []
  | [t] => t
  | t :: u :: ts => t ++ ',' :: joinComma (u :: ts)

/-- The value of the environment variable is a list of these integers; unset
means none. -/
def EnvLists (env : Option Text) (vs : List Int) : Prop :=
  (env = none ∧ vs = []) ∨ ∃ ts, ts ≠ [] ∧ env = some (joinComma ts) ∧ Entries ts vs

/-- `t` starts with a decimal integer of value `v` that is not followed by
another digit. -/
def Leading (t : Text) (v : Int) : Prop :=
  ∃ pre rest, t = pre ++ rest ∧ Numeral pre v ∧ ∀ c, rest.head? = some c → ¬ IsDigit c

/-- The text between commas. -/
def splitComma : Text → List Text
  | [] => [[]]
  | c :: cs =>
    if c = ',' then [] :: splitComma cs
    else
      match splitComma cs with
      | [] => [[c]]
      | t :: ts => (c :: t) :: ts

end Dredd
