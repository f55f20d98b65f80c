/-
Facts about integer arithmetic with small constants.
-/
import Verif.Spec.Integer

namespace Dredd

variable {P : Platform} {l : Lang}

theorem Platform.two_le (P : Platform) (t : BTy) : (2 : Int) ≤ 2 ^ (P.width t - 1) := by
  have h := P.width_gt t
  obtain ⟨k, hk⟩ : ∃ k, P.width t - 1 = k + 1 := ⟨P.width t - 2, by omega⟩
  rw [hk, Int.pow_succ]
  have : (0 : Int) < 2 ^ k := Int.pow_pos (by decide)
  omega

theorem Platform.four_le (P : Platform) (t : BTy) : (4 : Int) ≤ 2 ^ P.width t := by
  have h := P.width_gt t
  obtain ⟨k, hk⟩ : ∃ k, P.width t = k + 2 := ⟨P.width t - 2, by omega⟩
  rw [hk, Int.pow_succ, Int.pow_succ]
  have : (0 : Int) < 2 ^ k := Int.pow_pos (by decide)
  omega

theorem Platform.holds_zero (P : Platform) (l : Lang) (t : BTy) : P.Holds l t 0 := by
  have := P.two_le t
  have := P.four_le t
  unfold Platform.Holds Platform.lo Platform.hi
  split
  · omega
  · split <;> omega

theorem Platform.holds_one (P : Platform) (l : Lang) (t : BTy) : P.Holds l t 1 := by
  have := P.two_le t
  have := P.four_le t
  unfold Platform.Holds Platform.lo Platform.hi
  split
  · omega
  · split <;> omega

theorem BTy.not_bool_of_signed {t : BTy} (h : t.isSigned l = true) : t.isBool = false := by
  cases t <;> simp [BTy.isSigned, BTy.isBool] at *

theorem Platform.holds_minusOne (P : Platform) (t : BTy) :
    P.Holds l t (-1) ↔ t.isSigned l = true := by
  have := P.two_le t
  have := P.four_le t
  unfold Platform.Holds Platform.lo Platform.hi
  constructor
  · intro h
    split at h
    · omega
    · split at h
      · assumption
      · omega
  · intro h
    rw [BTy.not_bool_of_signed h, h]
    simp
    omega

theorem Platform.conv_holds {t : BTy} {v : Int} (h : P.Holds l t v) : P.conv l t v = v := by
  unfold Platform.conv
  split
  · rename_i hb
    unfold Platform.Holds Platform.lo Platform.hi at h
    rw [hb] at h
    simp at h
    split <;> omega
  · simp [h]

theorem Platform.result_holds {t : BTy} {v : Int} (h : P.Holds l t v) :
    P.result l t v = some v := by
  unfold Platform.result
  split
  · simp [h]
  · rw [Platform.conv_holds h]

theorem Platform.result_eq {t : BTy} {v r : Int} (h : P.result l t v = some r) :
    r = P.conv l t v := by
  unfold Platform.result at h
  split at h
  · split at h
    · rw [Platform.conv_holds (by assumption)]
      exact (Option.some.inj h).symm
    · cases h
  · exact (Option.some.inj h).symm

/-- A value of a type is what its bit pattern stands for. -/
theorem Platform.ofBits_bits {t : BTy} {v : Int} (h : P.Holds l t v) (hb : t.isBool = false) :
    P.ofBits l t (P.bits t v) = v := by
  unfold Platform.Holds Platform.lo Platform.hi at h
  rw [hb] at h
  have h4 := P.width_gt t
  unfold Platform.ofBits Platform.bits
  split
  · rename_i hs
    rw [hs] at h
    simp at h
    rw [BitVec.toInt_ofInt]
    have e : ((2 ^ P.width t : Nat) : Int) = 2 * 2 ^ (P.width t - 1) := by
      have : P.width t = (P.width t - 1) + 1 := by omega
      rw [this, Nat.pow_succ]
      simp
      omega
    apply Int.bmod_eq_of_le_mul_two
    · rw [e]; omega
    · rw [e]; omega
  · rename_i hs
    simp [hs] at h
    rw [BitVec.toNat_ofInt]
    have : v % ((2 ^ P.width t : Nat) : Int) = v := by
      apply Int.emod_eq_of_lt h.1
      simp
      omega
    rw [this]
    omega

theorem Platform.bits_ofBits {t : BTy} (x : BitVec (P.width t)) :
    P.bits t (P.ofBits l t x) = x := by
  unfold Platform.ofBits Platform.bits
  split <;> simp

theorem Platform.holds_ofBits {t : BTy} (x : BitVec (P.width t)) (hb : t.isBool = false) :
    P.Holds l t (P.ofBits l t x) := by
  have h4 := P.width_gt t
  unfold Platform.Holds Platform.lo Platform.hi Platform.ofBits
  simp only [hb, Bool.false_eq_true, if_false]
  by_cases hs : t.isSigned l = true
  · have h1 := BitVec.le_toInt x
    have h2 := BitVec.toInt_lt (x := x)
    simp only [hs, if_true]
    omega
  · have h1 := x.isLt
    simp only [hs, Bool.false_eq_true, if_false]
    have h2 : ((2 ^ P.width t : Nat) : Int) = 2 ^ P.width t := by simp
    omega

theorem Platform.flip_signed {t : BTy} {v : Int} (h : P.Holds l t v) (hs : t.isSigned l = true) :
    P.flip l t v = -v - 1 := by
  unfold Platform.flip
  have h1 := Platform.ofBits_bits h (BTy.not_bool_of_signed hs)
  unfold Platform.ofBits at h1 ⊢
  rw [hs] at h1 ⊢
  simp only [if_true] at h1 ⊢
  rw [BitVec.toInt_eq_toNat_cond] at h1 ⊢
  have h2 := (P.bits t v).isLt
  rw [BitVec.toNat_not]
  have h3 : 2 ^ P.width t = 2 * 2 ^ (P.width t - 1) := by
    have := P.width_gt t
    obtain ⟨k, hk⟩ : ∃ k, P.width t = k + 1 := ⟨P.width t - 1, by omega⟩
    rw [hk, Nat.pow_succ, Nat.add_sub_cancel, Nat.mul_comm]
  generalize (P.bits t v).toNat = n at *
  generalize 2 ^ (P.width t - 1) = M at *
  generalize 2 ^ P.width t = N at *
  subst h3
  split at h1 <;> split <;> omega

theorem Platform.flip_flip {t : BTy} {v : Int} (h : P.Holds l t v) (hb : t.isBool = false) :
    P.flip l t (P.flip l t v) = v := by
  unfold Platform.flip
  rw [Platform.bits_ofBits, BitVec.not_not, Platform.ofBits_bits h hb]

theorem Platform.holds_flip {t : BTy} (v : Int) (hb : t.isBool = false) :
    P.Holds l t (P.flip l t v) := Platform.holds_ofBits _ hb

theorem Platform.holds_conv (P : Platform) (l : Lang) (t : BTy) (v : Int) :
    P.Holds l t (P.conv l t v) := by
  unfold Platform.conv
  split
  · split
    · exact P.holds_zero l t
    · exact P.holds_one l t
  · rename_i hb
    split
    · assumption
    · have hw := P.width_gt t
      split
      · rename_i hs
        have e : ((2 ^ P.width t : Nat) : Int) = 2 * 2 ^ (P.width t - 1) := by
          have : P.width t = (P.width t - 1) + 1 := by omega
          rw [this, Nat.pow_succ]
          simp
          omega
        have h1 := Int.le_bmod (x := v) (m := 2 ^ P.width t) (Nat.two_pow_pos _)
        have h2 := Int.bmod_lt (x := v) (m := 2 ^ P.width t) (Nat.two_pow_pos _)
        rw [e] at h1 h2
        unfold Platform.Holds Platform.lo Platform.hi
        simp only [hb, hs, if_true, Bool.false_eq_true, if_false]
        omega
      · rename_i hs
        have hp : (0 : Int) < 2 ^ P.width t := Int.pow_pos (by decide)
        have h1 := Int.emod_nonneg v (b := 2 ^ P.width t) (by omega)
        have h2 := Int.emod_lt_of_pos v hp
        unfold Platform.Holds Platform.lo Platform.hi
        simp only [hb, hs, Bool.false_eq_true, if_false]
        omega

end Dredd
