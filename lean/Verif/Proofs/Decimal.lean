/-
Decimal notation.
-/
import Verif.Model.Text
import Verif.Spec.Env

namespace Dredd

theorem decVal_append (a b : Text) : decVal (a ++ b) = decVal a * 10 ^ b.length + decVal b := by
  induction a with
  | nil => simp [decVal]
  | cons c a ih =>
    simp only [List.cons_append, decVal, ih, List.length_append, Nat.pow_add, Nat.add_mul,
      Nat.mul_assoc, Nat.add_assoc]

theorem digitChar_val (d : Nat) (h : d < 10) :
    IsDigit (Nat.digitChar d) ∧ (Nat.digitChar d).toNat - 48 = d := by
  have : d = 0 ∨ d = 1 ∨ d = 2 ∨ d = 3 ∨ d = 4 ∨ d = 5 ∨ d = 6 ∨ d = 7 ∨ d = 8 ∨ d = 9 := by omega
  unfold IsDigit
  rcases this with rfl | rfl | rfl | rfl | rfl | rfl | rfl | rfl | rfl | rfl <;> decide

theorem natDec_spec (n : Nat) :
    natDec n ≠ [] ∧ (∀ c ∈ natDec n, IsDigit c) ∧ decVal (natDec n) = n := by
  induction n using Nat.strongRecOn with
  | _ n ih =>
    unfold natDec at *
    by_cases h : n < 10
    · rw [Nat.toDigits_of_lt_base h]
      have := digitChar_val n h
      refine ⟨by simp, by simpa using this.1, ?_⟩
      simpa [decVal] using this.2
    · have hq : n / 10 < n := Nat.div_lt_self (by omega) (by omega)
      obtain ⟨h1, h2, h3⟩ := ih (n / 10) hq
      have hd := digitChar_val (n % 10) (Nat.mod_lt _ (by omega))
      rw [Nat.toDigits_of_base_le (by omega) (by omega)]
      refine ⟨by simp, ?_, ?_⟩
      · intro c hc
        simp only [List.mem_append, List.mem_singleton] at hc
        rcases hc with hc | rfl
        · exact h2 c hc
        · exact hd.1
      · rw [decVal_append, h3]
        simp only [decVal, hd.2, List.length_cons, List.length_nil]
        omega

theorem natDec_numeral (n : Nat) : Numeral (natDec n) n :=
  ⟨[], natDec n, by simp, (natDec_spec n).1, (natDec_spec n).2.1,
    Or.inl ⟨rfl, by rw [(natDec_spec n).2.2]⟩⟩

theorem natDec_inj {m n : Nat} (h : natDec m = natDec n) : m = n := by
  rw [← (natDec_spec m).2.2, h, (natDec_spec n).2.2]

end Dredd
