/-
Helper lemmas about the regular preludes.
-/
import Verif.Model.Prelude
import Verif.Spec.Env

namespace Dredd

theorem toNat_eq_iff (c d : Char) : c = d ↔ c.toNat = d.toNat := by
  constructor
  · rintro rfl; rfl
  · intro h; exact Char.toNat_inj.mp h

theorem isDigitC_iff (c : Char) : isDigitC c = true ↔ IsDigit c := by
  simp [isDigitC, IsDigit]

theorem isSpaceC_iff (c : Char) : isSpaceC c = true ↔ IsSpace c := by
  simp only [isSpaceC, IsSpace, Bool.or_eq_true, beq_iff_eq, toNat_eq_iff]
  have h1 : ' '.toNat = 32 := rfl
  have h2 : '\t'.toNat = 9 := rfl
  have h3 : '\n'.toNat = 10 := rfl
  have h4 : '\r'.toNat = 13 := rfl
  rw [h1, h2, h3, h4]
  omega

theorem digitsVal_go (ds : Text) (a : Nat) :
    ds.foldl (fun a c => 10 * a + (c.toNat - '0'.toNat)) a = a * 10 ^ ds.length + decVal ds := by
  induction ds generalizing a with
  | nil => simp [decVal]
  | cons c cs ih =>
    rw [List.foldl_cons, ih]
    have h : '0'.toNat = 48 := rfl
    rw [h]
    simp only [decVal, List.length_cons, Nat.pow_succ, Nat.add_mul]
    rw [Nat.mul_comm (10 ^ cs.length) 10, ← Nat.mul_assoc, Nat.mul_comm a 10, Nat.add_assoc]

theorem digitsVal_eq (ds : Text) : digitsVal ds = decVal ds := by
  unfold digitsVal
  rw [digitsVal_go]
  simp

theorem dropWhile_all {α} (p : α → Bool) (l r : List α) (h : ∀ x ∈ l, p x = true) :
    (l ++ r).dropWhile p = r.dropWhile p := by
  induction l with
  | nil => rfl
  | cons a l ih =>
    simp only [List.cons_append, List.dropWhile_cons, h a (by simp), if_true]
    exact ih fun x hx => h x (by simp [hx])

theorem takeWhile_all {α} (p : α → Bool) (l r : List α) (h : ∀ x ∈ l, p x = true) :
    (l ++ r).takeWhile p = l ++ r.takeWhile p := by
  induction l with
  | nil => rfl
  | cons a l ih =>
    simp only [List.cons_append, List.takeWhile_cons, h a (by simp), if_true, List.cons.injEq,
      true_and]
    exact ih fun x hx => h x (by simp [hx])

theorem digit_not_space (c : Char) (h : IsDigit c) : isSpaceC c = false := by
  have : ¬ IsSpace c := by unfold IsSpace IsDigit at *; omega
  cases hc : isSpaceC c
  · rfl
  · exact absurd ((isSpaceC_iff c).mp hc) this

theorem scanInt_numeral (t : Text) (v : Int) (h : Numeral t v) : scanInt t = some v := by
  obtain ⟨ws, ds, hws, hne, hds, h⟩ := h
  have hws' : ∀ c ∈ ws, isSpaceC c = true := fun c hc => (isSpaceC_iff c).mpr (hws c hc)
  have hds' : ∀ c ∈ ds, isDigitC c = true := fun c hc => (isDigitC_iff c).mpr (hds c hc)
  have htw : ds.takeWhile isDigitC = ds := by
    have := takeWhile_all isDigitC ds [] hds'
    simpa using this
  have hemp : ds.isEmpty = false := by cases ds <;> simp_all
  rcases h with ⟨rfl, rfl⟩ | ⟨rfl, rfl⟩ | ⟨rfl, rfl⟩
  · obtain ⟨d, ds', rfl⟩ := List.exists_cons_of_ne_nil hne
    have hd := hds d (by simp)
    have hdrop : (ws ++ d :: ds').dropWhile isSpaceC = d :: ds' := by
      rw [dropWhile_all _ _ _ hws', List.dropWhile_cons, digit_not_space d hd]
      rfl
    have hm : d ≠ '-' ∧ d ≠ '+' := by
      constructor <;> (rintro rfl; simp [IsDigit] at hd)
    unfold scanInt
    rw [hdrop]
    dsimp only
    split
    · rename_i h; simp at h; exact absurd h.1 hm.1
    · rename_i h; simp at h; exact absurd h.1 hm.2
    · simp only [htw, hemp, digitsVal_eq, Bool.false_eq_true, if_false]
  · have hdrop : (ws ++ '+' :: ds).dropWhile isSpaceC = '+' :: ds := by
      rw [dropWhile_all _ _ _ hws', List.dropWhile_cons]
      rfl
    unfold scanInt
    rw [hdrop]
    simp [htw, hne, digitsVal_eq]
  · have hdrop : (ws ++ '-' :: ds).dropWhile isSpaceC = '-' :: ds := by
      rw [dropWhile_all _ _ _ hws', List.dropWhile_cons]
      rfl
    unfold scanInt
    rw [hdrop]
    simp [htw, hne, digitsVal_eq]

theorem numeral_no_comma (t : Text) (v : Int) (h : Numeral t v) : ∀ c ∈ t, c ≠ ',' := by
  obtain ⟨ws, ds, hws, hne, hds, h⟩ := h
  have h1 : ∀ c ∈ ws, c ≠ ',' := by
    rintro c hc rfl
    have := hws _ hc
    simp [IsSpace] at this
  have h2 : ∀ c ∈ ds, c ≠ ',' := by
    rintro c hc rfl
    have := hds _ hc
    simp [IsDigit] at this
  rcases h with ⟨rfl, _⟩ | ⟨rfl, _⟩ | ⟨rfl, _⟩
  · intro c hc
    simp only [List.mem_append] at hc
    rcases hc with hc | hc
    · exact h1 c hc
    · exact h2 c hc
  · intro c hc
    simp only [List.mem_append, List.mem_cons] at hc
    rcases hc with hc | rfl | hc
    · exact h1 c hc
    · decide
    · exact h2 c hc
  · intro c hc
    simp only [List.mem_append, List.mem_cons] at hc
    rcases hc with hc | rfl | hc
    · exact h1 c hc
    · decide
    · exact h2 c hc

theorem numeral_ne_nil (t : Text) (v : Int) (h : Numeral t v) : t ≠ [] := by
  obtain ⟨ws, ds, _, hne, _, h⟩ := h
  rcases h with ⟨rfl, _⟩ | ⟨rfl, _⟩ | ⟨rfl, _⟩ <;> simp [hne]

theorem stoi_numeral (t v) (h : Numeral t v) (h1 : -2147483648 ≤ v) (h2 : v ≤ 2147483647) :
    stoi t = some v := by
  simp [stoi, scanInt_numeral t v h, inInt, h1, h2]

theorem atoi_numeral (t v) (h : Numeral t v) (h1 : -2147483648 ≤ v) (h2 : v ≤ 2147483647) :
    atoi t = some v := by
  simp [atoi, scanInt_numeral t v h, inInt, h1, h2]

/-- Enabling several values one after another. -/
def enableAll (first n : Nat) : Parse → List Int → Out Parse Parse
  | p, [] => .ok p
  | p, v :: vs =>
    match enableValue first n p v with
    | .ok p' => enableAll first n p' vs
    | r => r

theorem enableValue_not_threw (first n p v s) : enableValue first n p v ≠ .threw s := by
  unfold enableValue
  simp only
  split
  · simp
  · split
    · split <;> simp
    · simp

theorem parseCpp_last (first n p) (t : Text) (h : ∀ c ∈ t, c ≠ ',') :
    parseCpp first n p t = tokenCpp first n p t := by
  have htw : t.takeWhile (· ≠ ',') = t := by
    have := takeWhile_all (· ≠ ',') t [] (by simpa using h)
    simpa using this
  have hdw : t.dropWhile (· ≠ ',') = [] := by
    have := dropWhile_all (· ≠ ',') t [] (by simpa using h)
    simpa using this
  rw [parseCpp, htw]
  cases hA : tokenCpp first n p t with
  | ok p' =>
    dsimp only
    split
    · rfl
    · rename_i h'; rw [hdw] at h'; simp at h'
  | threw s => rfl
  | ub => rfl

theorem parseCpp_more (first n p) (t rest : Text) (h : ∀ c ∈ t, c ≠ ',') :
    parseCpp first n p (t ++ ',' :: rest) =
      match tokenCpp first n p t with
      | .ok p' => parseCpp first n p' rest
      | r => r := by
  have htw : (t ++ ',' :: rest).takeWhile (· ≠ ',') = t := by
    have := takeWhile_all (· ≠ ',') t (',' :: rest) (by simpa using h)
    simpa using this
  have hdw : (t ++ ',' :: rest).dropWhile (· ≠ ',') = ',' :: rest := by
    have := dropWhile_all (· ≠ ',') t (',' :: rest) (by simpa using h)
    simpa using this
  rw [parseCpp, htw]
  cases hA : tokenCpp first n p t with
  | ok p' =>
    dsimp only
    split
    · rename_i h'; rw [hdw] at h'; simp at h'
    · rename_i h'
      rw [hdw] at h'
      simp only [List.cons.injEq] at h'
      obtain ⟨_, rfl⟩ := h'
      rfl
  | threw s => rfl
  | ub => rfl

theorem tokenCpp_nil (first n p) : tokenCpp first n p [] = .ok p := rfl

theorem tokenCpp_numeral (first n p t v) (hn : Numeral t v) (h1 : -2147483648 ≤ v)
    (h2 : v ≤ 2147483647) : tokenCpp first n p t = enableValue first n p v := by
  have hemp : t.isEmpty = false := by
    have := numeral_ne_nil t v hn
    cases t <;> simp_all
  simp [tokenCpp, hemp, stoi_numeral t v hn h1 h2]

theorem tokenC_numeral (first n p t v) (hn : Numeral t v) (h1 : -2147483648 ≤ v)
    (h2 : v ≤ 2147483647) : tokenC first n p t = enableValue first n p v := by
  simp [tokenC, atoi_numeral t v hn h1 h2]

theorem enableAll_one (first n p v) : enableAll first n p [v] = enableValue first n p v := by
  simp only [enableAll]
  cases enableValue first n p v <;> rfl

theorem parseCpp_entries (first n) (ts : List Text) (vs : List Int) (h : Entries ts vs)
    (hne : ts ≠ []) (p : Parse) :
    parseCpp first n p (joinComma ts) = enableAll first n p vs := by
  induction h generalizing p with
  | nil => exact absurd rfl hne
  | @empty ts vs h ih =>
    cases ts with
    | nil =>
      cases h
      rw [joinComma, parseCpp_last _ _ _ _ (by simp), tokenCpp_nil]
      rfl
    | cons u ts =>
      have := parseCpp_more first n p [] (joinComma (u :: ts)) (by simp)
      rw [tokenCpp_nil] at this
      rw [joinComma, this]
      exact ih (by simp) p
  | @num t v ts vs hn h1 h2 h ih =>
    cases ts with
    | nil =>
      cases h
      rw [joinComma, parseCpp_last _ _ _ _ (numeral_no_comma t v hn),
        tokenCpp_numeral _ _ _ _ _ hn h1 h2, enableAll_one]
    | cons u ts =>
      rw [joinComma, parseCpp_more _ _ _ _ _ (numeral_no_comma t v hn),
        tokenCpp_numeral _ _ _ _ _ hn h1 h2, enableAll]
      cases enableValue first n p v with
      | ok p' => exact ih (by simp) _
      | threw s => rfl
      | ub => rfl

theorem strtok_tok (t rest : Text) (h : ∀ c ∈ t, c ≠ ',') (hne : t ≠ []) :
    strtok (t ++ ',' :: rest) = some (t, rest) ∧ strtok t = some (t, []) := by
  obtain ⟨c, t', rfl⟩ := List.exists_cons_of_ne_nil hne
  have hc : c ≠ ',' := h c (by simp)
  have hd : ∀ r, (c :: t' ++ r).dropWhile (fun x => decide (x = ',')) = c :: t' ++ r := by
    intro r
    simp [hc]
  have htw : ∀ r, (c :: t' ++ r).takeWhile (· ≠ ',') = c :: t' ++ r.takeWhile (· ≠ ',') :=
    fun r => takeWhile_all (· ≠ ',') (c :: t') r (by simpa using h)
  have hdw : ∀ r, (c :: t' ++ r).dropWhile (· ≠ ',') = r.dropWhile (· ≠ ',') :=
    fun r => dropWhile_all (· ≠ ',') (c :: t') r (by simpa using h)
  constructor
  · unfold strtok
    rw [hd]
    simp only [List.cons_append]
    have h1 := htw (',' :: rest)
    have h2 := hdw (',' :: rest)
    simp only [List.cons_append] at h1 h2
    rw [h1, h2]
    simp
  · have hd' := hd []
    have h1 := htw []
    have h2 := hdw []
    simp only [List.append_nil, List.takeWhile_nil, List.dropWhile_nil] at hd' h1 h2
    unfold strtok
    rw [hd']
    simp only
    rw [h1, h2]
    rfl

theorem strtok_comma (rest : Text) : strtok (',' :: rest) = strtok rest := by
  simp [strtok]

theorem parseC_none (first n p) (s : Text) (h : strtok s = none) :
    parseC first n p s = .ok p := by
  rw [parseC]
  split
  · rfl
  · rename_i h'; rw [h] at h'; simp at h'

theorem parseC_some (first n p) (s t rest : Text) (h : strtok s = some (t, rest)) :
    parseC first n p s =
      match tokenC first n p t with
      | .ok p' => parseC first n p' rest
      | r => r := by
  rw [parseC]
  split
  · rename_i h'; rw [h] at h'; simp at h'
  · rename_i h'
    rw [h] at h'
    simp only [Option.some.injEq, Prod.mk.injEq] at h'
    obtain ⟨rfl, rfl⟩ := h'
    rfl

theorem parseC_comma (first n p) (rest : Text) :
    parseC first n p (',' :: rest) = parseC first n p rest := by
  have hs := strtok_comma rest
  cases h : strtok rest with
  | none =>
    rw [h] at hs
    rw [parseC_none _ _ _ _ hs, parseC_none _ _ _ _ h]
  | some tr =>
    rw [h] at hs
    rw [parseC_some _ _ _ _ _ _ hs, parseC_some _ _ _ _ _ _ h]

theorem parseC_nil (first n p) : parseC first n p [] = .ok p :=
  parseC_none _ _ _ _ rfl

theorem parseC_entries (first n) (ts : List Text) (vs : List Int) (h : Entries ts vs)
    (p : Parse) : parseC first n p (joinComma ts) = enableAll first n p vs := by
  induction h generalizing p with
  | nil => exact parseC_nil _ _ _
  | @empty ts vs h ih =>
    cases ts with
    | nil =>
      cases h
      exact parseC_nil _ _ _
    | cons u ts =>
      rw [joinComma, List.nil_append, parseC_comma]
      exact ih p
  | @num t v ts vs hn h1 h2 h ih =>
    cases ts with
    | nil =>
      have hs := strtok_tok t [] (numeral_no_comma t v hn) (numeral_ne_nil t v hn)
      cases h
      rw [joinComma, parseC_some _ _ _ _ _ _ hs.2, tokenC_numeral _ _ _ _ _ hn h1 h2, enableAll]
      cases enableValue first n p v with
      | ok p' => exact parseC_nil _ _ _
      | threw s => rfl
      | ub => rfl
    | cons u ts =>
      have hs := strtok_tok t (joinComma (u :: ts)) (numeral_no_comma t v hn)
        (numeral_ne_nil t v hn)
      rw [joinComma, parseC_some _ _ _ _ _ _ hs.1, tokenC_numeral _ _ _ _ _ hn h1 h2, enableAll]
      cases enableValue first n p v with
      | ok p' => exact ih _
      | threw s => rfl
      | ub => rfl

/-! ### Bits -/

/-- Bit `i` of an array of words. -/
def getBit (bits : List (BitVec 64)) (i : Nat) : Bool := (bits.getD (i / 64) 0#64).getLsbD (i % 64)

theorem and_bit (w : BitVec 64) (k : Nat) (hk : k < 64) :
    decide (w &&& (1#64 <<< k) ≠ 0#64) = w.getLsbD k := by
  cases h : w.getLsbD k
  · simp only [ne_eq, decide_eq_false_iff_not, Decidable.not_not]
    apply BitVec.eq_of_getLsbD_eq
    intro i hi
    simp only [BitVec.getLsbD_and, BitVec.getLsbD_shiftLeft, BitVec.getLsbD_zero]
    by_cases hik : i = k
    · subst hik; simp [h]
    · by_cases h2 : i < k
      · simp [h2]
      · have : i - k ≠ 0 := by omega
        simp [BitVec.getLsbD_one, this]
  · simp only [ne_eq, decide_eq_true_eq]
    intro h0
    have := congrArg (fun v => v.getLsbD k) h0
    simp only [BitVec.getLsbD_and, h, BitVec.getLsbD_shiftLeft, BitVec.getLsbD_zero, hk] at this
    simp at this

theorem getLsbD_or_bit (w : BitVec 64) (k j : Nat) (hk : k < 64) (hj : j < 64) :
    (w ||| (1#64 <<< k)).getLsbD j = (w.getLsbD j || decide (j = k)) := by
  simp only [BitVec.getLsbD_or, BitVec.getLsbD_shiftLeft]
  by_cases hjk : j = k
  · subst hjk; simp [hj]
  · by_cases h2 : j < k
    · simp [h2, hjk]
    · have : j - k ≠ 0 := by omega
      simp [BitVec.getLsbD_one, this, hjk]

theorem getBit_set (bits : List (BitVec 64)) (k i : Nat) (w : BitVec 64)
    (hw : bits[k / 64]? = some w) :
    getBit (bits.set (k / 64) (w ||| (1#64 <<< (k % 64)))) i = (getBit bits i || decide (i = k)) := by
  unfold getBit
  have hlen : k / 64 < bits.length := by
    rw [List.getElem?_eq_some_iff] at hw; exact hw.1
  by_cases h : i / 64 = k / 64
  · rw [h]
    have : (bits.set (k / 64) (w ||| (1#64 <<< (k % 64)))).getD (k / 64) 0#64
        = w ||| (1#64 <<< (k % 64)) := by
      simp [List.getD, hlen]
    rw [this, getLsbD_or_bit _ _ _ (Nat.mod_lt _ (by omega)) (Nat.mod_lt _ (by omega))]
    have h3 : bits.getD (k / 64) 0#64 = w := by simp [List.getD, hw]
    rw [h3]
    congr 1
    rw [decide_eq_decide]
    omega
  · have : (bits.set (k / 64) (w ||| (1#64 <<< (k % 64)))).getD (i / 64) 0#64
        = bits.getD (i / 64) 0#64 := by
      simp [List.getD, Ne.symm h]
    rw [this]
    have : i ≠ k := by rintro rfl; exact h rfl
    simp [this]

/-- The subtraction does not overflow for these values. -/
def NoOverflow (first : Nat) (vs : List Int) : Prop :=
  ∀ v ∈ vs, -2147483648 ≤ v - first

theorem enableAll_ok (first n : Nat) (vs : List Int) (p : Parse)
    (hlen : p.bits.length = (n + 63) / 64)
    (hr : ∀ v ∈ vs, v ≤ 2147483647) (ho : NoOverflow first vs) :
    ∃ p', enableAll first n p vs = .ok p' ∧ p'.bits.length = (n + 63) / 64 ∧
      (∀ i, i < n → getBit p'.bits i = (getBit p.bits i || decide ((first + i : Int) ∈ vs))) ∧
      (p'.some_ = true ↔ p.some_ = true ∨ ∃ v ∈ vs, (first : Int) ≤ v ∧ v < first + n) := by
  induction vs generalizing p with
  | nil => exact ⟨p, rfl, hlen, by simp, by simp⟩
  | cons v vs ih =>
    have hv := hr v (by simp)
    have hov := ho v (by simp)
    have hin : inInt (v - first) = true := by simp [inInt]; omega
    simp only [enableAll, enableValue, hin]
    simp only [Bool.not_true, Bool.false_eq_true, if_false]
    by_cases hc : 0 ≤ v - (first : Int) ∧ v - (first : Int) < n
    · rw [if_pos hc]
      have hk : (v - first).toNat < n := by omega
      have hk64 : (v - first).toNat / 64 < p.bits.length := by omega
      obtain ⟨w, hw⟩ : ∃ w, p.bits[(v - first).toNat / 64]? = some w :=
        ⟨_, List.getElem?_eq_getElem hk64⟩
      simp only [hw]
      obtain ⟨p', h1, h2, h3, h4⟩ := ih
        ⟨p.bits.set ((v - first).toNat / 64) (w ||| 1#64 <<< ((v - first).toNat % 64)), true⟩
        (by simp [hlen]) (fun x hx => hr x (by simp [hx])) (fun x hx => ho x (by simp [hx]))
      refine ⟨p', h1, h2, ?_, ?_⟩
      · intro i hi
        rw [h3 i hi, getBit_set _ _ _ _ hw, Bool.or_assoc]
        congr 1
        rw [Bool.eq_iff_iff]
        simp only [Bool.or_eq_true, decide_eq_true_eq, List.mem_cons]
        constructor
        · rintro (h | h)
          · left; omega
          · exact Or.inr h
        · rintro (h | h)
          · left; omega
          · exact Or.inr h
      · rw [h4]
        simp only [true_or, true_iff]
        exact Or.inr ⟨v, by simp, by omega, by omega⟩
    · rw [if_neg hc]
      obtain ⟨p', h1, h2, h3, h4⟩ := ih p hlen (fun x hx => hr x (by simp [hx]))
        (fun x hx => ho x (by simp [hx]))
      refine ⟨p', h1, h2, ?_, ?_⟩
      · intro i hi
        rw [h3 i hi]
        congr 1
        rw [decide_eq_decide]
        simp only [List.mem_cons]
        constructor
        · exact Or.inr
        · rintro (h | h)
          · omega
          · exact h
      · rw [h4]
        constructor
        · rintro (h | ⟨x, hx, hx'⟩)
          · exact Or.inl h
          · exact Or.inr ⟨x, by simp [hx], hx'⟩
        · rintro (h | ⟨x, hx, hx'⟩)
          · exact Or.inl h
          · simp only [List.mem_cons] at hx
            rcases hx with rfl | hx
            · exact absurd ⟨by omega, by omega⟩ hc
            · exact Or.inr ⟨x, hx, hx'⟩

theorem enableAll_overflow (first n : Nat) (vs : List Int) (p : Parse)
    (hlen : p.bits.length = (n + 63) / 64)
    (hr : ∀ v ∈ vs, v ≤ 2147483647) (ho : ¬ NoOverflow first vs) :
    enableAll first n p vs = .ub := by
  induction vs generalizing p with
  | nil => exact absurd (by simp [NoOverflow]) ho
  | cons v vs ih =>
    have hv := hr v (by simp)
    by_cases hov : -2147483648 ≤ v - (first : Int)
    · have ho' : ¬ NoOverflow first vs := by
        intro h; apply ho
        intro x hx
        simp only [List.mem_cons] at hx
        rcases hx with rfl | hx
        · exact hov
        · exact h x hx
      obtain ⟨p', h1, h2, _, _⟩ := enableAll_ok first n [v] p hlen (by simpa using hv)
        (by simpa [NoOverflow] using hov)
      have h1' : enableValue first n p v = .ok p' := by
        simp only [enableAll] at h1
        split at h1
        · rename_i h; simp only [Out.ok.injEq] at h1; rw [h, h1]
        · exact h1
      simp only [enableAll, h1']
      exact ih p' h2 (fun x hx => hr x (by simp [hx])) ho'
    · have hin : inInt (v - first) = false := by simp [inInt]; omega
      simp [enableAll, enableValue, hin]

theorem entries_range (ts vs) (h : Entries ts vs) :
    ∀ v ∈ vs, -2147483648 ≤ v ∧ v ≤ 2147483647 := by
  induction h with
  | nil => simp
  | empty _ ih => exact ih
  | num _ h1 h2 _ ih =>
    intro v hv
    simp only [List.mem_cons] at hv
    rcases hv with rfl | hv
    · exact ⟨h1, h2⟩
    · exact ih v hv

theorem initThread_eq (cpp : Bool) (first n : Nat) (env : Option Text) (vs : List Int)
    (h : EnvLists env vs) (th : Thread) :
    initThread cpp first n env th =
      match enableAll first n ⟨th.bits, false⟩ vs with
      | .ok p => .ok ⟨true, p.bits, p.some_⟩
      | .threw p => .threw { th with bits := p.bits }
      | .ub => .ub := by
  have hp : parseEnv cpp first n ⟨th.bits, false⟩ env
      = enableAll first n ⟨th.bits, false⟩ vs := by
    rcases h with ⟨rfl, rfl⟩ | ⟨ts, hne, rfl, he⟩
    · rfl
    · cases cpp
      · exact parseC_entries first n ts vs he _
      · exact parseCpp_entries first n ts vs he hne _
  rw [initThread, hp]
  cases enableAll first n ⟨th.bits, false⟩ vs <;> rfl

theorem envLists_range (env vs) (h : EnvLists env vs) :
    ∀ v ∈ vs, -2147483648 ≤ v ∧ v ≤ 2147483647 := by
  rcases h with ⟨_, rfl⟩ | ⟨ts, _, _, he⟩
  · simp
  · exact entries_range ts vs he

theorem getBit_replicate (k i : Nat) : getBit (List.replicate k 0#64) i = false := by
  unfold getBit
  have : (List.replicate k 0#64).getD (i / 64) 0#64 = 0#64 := by
    simp only [List.getD, List.getElem?_replicate]
    split <;> rfl
  rw [this]; simp

/-- The state of a thread that has made its decision according to `vs`. -/
structure Decided (first n : Nat) (vs : List Int) (th : Thread) : Prop where
  init : th.initialized = true
  len : th.bits.length = (n + 63) / 64
  bit : ∀ i, i < n → getBit th.bits i = decide ((first + i : Int) ∈ vs)
  flag : th.some_ = true ↔ ∃ v ∈ vs, (first : Int) ≤ v ∧ v < first + n

theorem query_decided (cpp : Bool) (first n : Nat) (env : Option Text) (vs : List Int)
    (th : Thread) (h : Decided first n vs th) (i : Nat) (hi : i < n) :
    enabledMutation cpp first n env th i = .ok (th, decide ((first + i : Int) ∈ vs)) := by
  have hlt : i / 64 < th.bits.length := by rw [h.len]; omega
  have hw : th.bits[i / 64]? = some th.bits[i / 64] := List.getElem?_eq_getElem hlt
  simp only [enabledMutation, h.init, if_true, hw]
  rw [and_bit _ _ (Nat.mod_lt _ (by omega)), ← h.bit i hi]
  simp [getBit, List.getD, hw]

theorem init_start (cpp : Bool) (first n : Nat) (env : Option Text) (vs : List Int)
    (h : EnvLists env vs) (ho : NoOverflow first vs) :
    ∃ th, initThread cpp first n env (Thread.start n) = .ok th ∧ Decided first n vs th := by
  rw [initThread_eq cpp first n env vs h]
  obtain ⟨p', h1, h2, h3, h4⟩ := enableAll_ok first n vs
    ⟨(Thread.start n).bits, false⟩ (by simp [Thread.start])
    (fun v hv => (envLists_range env vs h v hv).2) ho
  rw [h1]
  refine ⟨_, rfl, rfl, h2, ?_, ?_⟩
  · intro i hi
    rw [h3 i hi]
    simp [Thread.start, getBit_replicate]
  · simp only [h4]
    simp

theorem query_start (cpp : Bool) (first n : Nat) (env : Option Text) (vs : List Int)
    (h : EnvLists env vs) (ho : NoOverflow first vs) (i : Nat) (hi : i < n) :
    ∃ th, enabledMutation cpp first n env (Thread.start n) i
      = .ok (th, decide ((first + i : Int) ∈ vs)) ∧ Decided first n vs th := by
  obtain ⟨th, h1, h2⟩ := init_start cpp first n env vs h ho
  refine ⟨th, ?_, h2⟩
  have h3 := query_decided cpp first n env vs th h2 i hi
  simp only [enabledMutation, h2.init, if_true] at h3
  simp only [enabledMutation, Thread.start, Bool.false_eq_true, if_false]
  simp only [Thread.start] at h1
  rw [h1]
  exact h3

end Dredd
