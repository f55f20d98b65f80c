/-
Parsing of arbitrary values of the environment variable.
-/
import Verif.Proofs.Prelude

namespace Dredd

theorem takeWhile_stop {α} (p : α → Bool) (l r : List α) (h : ∀ x ∈ l, p x = true)
    (hr : ∀ c, r.head? = some c → p c = false) : (l ++ r).takeWhile p = l := by
  rw [takeWhile_all p l r h]
  cases r with
  | nil => simp
  | cons c r => simp [hr c rfl]

theorem not_isDigitC {c : Char} (h : ¬ IsDigit c) : isDigitC c = false := by
  cases hc : isDigitC c
  · rfl
  · exact absurd ((isDigitC_iff c).mp hc) h

theorem scanInt_leading (t : Text) (v : Int) (h : Leading t v) : scanInt t = some v := by
  obtain ⟨pre, rest, rfl, ⟨ws, ds, hws, hne, hds, h⟩, hrest⟩ := h
  have hws' : ∀ c ∈ ws, isSpaceC c = true := fun c hc => (isSpaceC_iff c).mpr (hws c hc)
  have hds' : ∀ c ∈ ds, isDigitC c = true := fun c hc => (isDigitC_iff c).mpr (hds c hc)
  have htw : (ds ++ rest).takeWhile isDigitC = ds :=
    takeWhile_stop _ _ _ hds' fun c hc => not_isDigitC (hrest c hc)
  have hemp : ds.isEmpty = false := by cases ds <;> simp_all
  rcases h with ⟨rfl, rfl⟩ | ⟨rfl, rfl⟩ | ⟨rfl, rfl⟩
  · obtain ⟨d, ds', rfl⟩ := List.exists_cons_of_ne_nil hne
    have hd := hds d (by simp)
    have hdrop : (ws ++ d :: ds' ++ rest).dropWhile isSpaceC = d :: ds' ++ rest := by
      rw [List.append_assoc, dropWhile_all _ _ _ hws', List.cons_append, List.dropWhile_cons,
        digit_not_space d hd]
      rfl
    have hm : d ≠ '-' ∧ d ≠ '+' := by
      constructor <;> (rintro rfl; simp [IsDigit] at hd)
    unfold scanInt
    rw [hdrop]
    dsimp only [List.cons_append]
    split
    · rename_i h; simp at h; exact absurd h.1 hm.1
    · rename_i h; simp at h; exact absurd h.1 hm.2
    · rw [← List.cons_append]
      simp only [htw, hemp, digitsVal_eq, Bool.false_eq_true, if_false]
  · have hdrop : (ws ++ '+' :: ds ++ rest).dropWhile isSpaceC = '+' :: (ds ++ rest) := by
      rw [List.append_assoc, dropWhile_all _ _ _ hws', List.cons_append, List.dropWhile_cons]
      rfl
    unfold scanInt
    rw [hdrop]
    simp [htw, hne, digitsVal_eq]
  · have hdrop : (ws ++ '-' :: ds ++ rest).dropWhile isSpaceC = '-' :: (ds ++ rest) := by
      rw [List.append_assoc, dropWhile_all _ _ _ hws', List.cons_append, List.dropWhile_cons]
      rfl
    unfold scanInt
    rw [hdrop]
    simp [htw, hne, digitsVal_eq]

theorem mem_takeWhile {α} (p : α → Bool) (l : List α) : ∀ x ∈ l.takeWhile p, p x = true := by
  induction l with
  | nil => simp
  | cons a l ih =>
    intro x hx
    by_cases h : p a = true
    · simp only [List.takeWhile_cons, h, if_true, List.mem_cons] at hx
      rcases hx with rfl | hx
      · exact h
      · exact ih x hx
    · simp [h] at hx

theorem head_dropWhile {α} (p : α → Bool) (l : List α) :
    ∀ c, (l.dropWhile p).head? = some c → p c = false := by
  induction l with
  | nil => simp
  | cons a l ih =>
    intro c hc
    by_cases h : p a = true
    · simp only [List.dropWhile_cons, h, if_true] at hc
      exact ih c hc
    · simp only [List.dropWhile_cons, h, Bool.false_eq_true, if_false, List.head?_cons,
        Option.some.injEq] at hc
      subst hc
      simpa using h

theorem scanInt_some (t : Text) (v : Int) (h : scanInt t = some v) : Leading t v := by
  have hsplit : t = t.takeWhile isSpaceC ++ t.dropWhile isSpaceC := List.takeWhile_append_dropWhile.symm
  have hws : ∀ c ∈ t.takeWhile isSpaceC, IsSpace c := fun c hc =>
    (isSpaceC_iff c).mp (mem_takeWhile _ _ c hc)
  have key : ∀ r : Text, (r.takeWhile isDigitC).isEmpty = false →
      (∀ c ∈ r.takeWhile isDigitC, IsDigit c) ∧ r.takeWhile isDigitC ≠ [] ∧
      r = r.takeWhile isDigitC ++ r.dropWhile isDigitC ∧
      ∀ c, (r.dropWhile isDigitC).head? = some c → ¬ IsDigit c := by
    intro r hr
    refine ⟨fun c hc => (isDigitC_iff c).mp (mem_takeWhile _ _ c hc), ?_,
      List.takeWhile_append_dropWhile.symm, ?_⟩
    · intro h0; rw [h0] at hr; simp at hr
    · intro c hc hd
      have := head_dropWhile isDigitC r c hc
      rw [(isDigitC_iff c).mpr hd] at this
      simp at this
  unfold scanInt at h
  dsimp only at h
  split at h
  · rename_i r heq
    dsimp only at h
    split at h
    · simp at h
    · rename_i hne
      obtain ⟨k1, k2, k3, k4⟩ := key r (by simpa using hne)
      simp only [if_true, Option.some.injEq] at h
      refine ⟨t.takeWhile isSpaceC ++ '-' :: r.takeWhile isDigitC, r.dropWhile isDigitC, ?_,
        ⟨_, _, hws, k2, k1, Or.inr (Or.inr ⟨rfl, ?_⟩)⟩, k4⟩
      · rw [List.append_assoc, List.cons_append, ← k3, ← heq]; exact hsplit
      · rw [← h, digitsVal_eq]
  · rename_i r heq
    dsimp only at h
    split at h
    · simp at h
    · rename_i hne
      obtain ⟨k1, k2, k3, k4⟩ := key r (by simpa using hne)
      simp only [Bool.false_eq_true, if_false, Option.some.injEq] at h
      refine ⟨t.takeWhile isSpaceC ++ '+' :: r.takeWhile isDigitC, r.dropWhile isDigitC, ?_,
        ⟨_, _, hws, k2, k1, Or.inr (Or.inl ⟨rfl, ?_⟩)⟩, k4⟩
      · rw [List.append_assoc, List.cons_append, ← k3, ← heq]; exact hsplit
      · rw [← h, digitsVal_eq]
  · dsimp only at h
    split at h
    · simp at h
    · rename_i hne
      obtain ⟨k1, k2, k3, k4⟩ := key (t.dropWhile isSpaceC) (by simpa using hne)
      simp only [Bool.false_eq_true, if_false, Option.some.injEq] at h
      refine ⟨t.takeWhile isSpaceC ++ (t.dropWhile isSpaceC).takeWhile isDigitC,
        (t.dropWhile isSpaceC).dropWhile isDigitC, ?_,
        ⟨_, _, hws, k2, k1, Or.inl ⟨rfl, ?_⟩⟩, k4⟩
      · rw [List.append_assoc, ← k3]; exact hsplit
      · rw [← h, digitsVal_eq]

theorem scanInt_iff (t : Text) (v : Int) : scanInt t = some v ↔ Leading t v :=
  ⟨scanInt_some t v, scanInt_leading t v⟩

theorem stoi_iff (t : Text) (v : Int) :
    stoi t = some v ↔ Leading t v ∧ -2147483648 ≤ v ∧ v ≤ 2147483647 := by
  rw [← scanInt_iff]
  unfold stoi
  cases h : scanInt t with
  | none => simp
  | some w =>
    simp only [inInt, Bool.and_eq_true, decide_eq_true_eq, Option.some.injEq]
    split
    · simp only [Option.some.injEq]
      constructor
      · rintro rfl; exact ⟨rfl, by assumption⟩
      · rintro ⟨h, _⟩; exact h
    · rename_i hr
      simp only [reduceCtorEq, false_iff]
      rintro ⟨rfl, h1, h2⟩
      exact hr ⟨h1, h2⟩

/-- Handle tokens one after another. -/
def tokFold (f : Parse → Text → Out Parse Parse) : Parse → List Text → Out Parse Parse
  | p, [] => .ok p
  | p, t :: ts =>
    match f p t with
    | .ok p' => tokFold f p' ts
    | r => r

theorem splitComma_ne_nil (s : Text) : splitComma s ≠ [] := by
  cases s with
  | nil => simp [splitComma]
  | cons c cs =>
    simp only [splitComma]
    split
    · simp
    · split <;> simp

theorem splitComma_join (s : Text) : joinComma (splitComma s) = s := by
  induction s with
  | nil => rfl
  | cons c cs ih =>
    simp only [splitComma]
    have hne := splitComma_ne_nil cs
    split
    · rename_i h
      subst h
      cases hsp : splitComma cs with
      | nil => exact absurd hsp hne
      | cons t ts => rw [hsp] at ih; simp [joinComma, ih]
    · split
      · rename_i h; exact absurd h hne
      · rename_i t ts hsp
        rw [hsp] at ih
        cases ts with
        | nil => simpa [joinComma] using ih
        | cons u ts => simpa [joinComma] using ih

theorem splitComma_no_comma (s : Text) : ∀ t ∈ splitComma s, ∀ c ∈ t, c ≠ ',' := by
  induction s with
  | nil => simp [splitComma]
  | cons c cs ih =>
    simp only [splitComma]
    split
    · intro t ht
      simp only [List.mem_cons] at ht
      rcases ht with rfl | ht
      · simp
      · exact ih t ht
    · rename_i hc
      split
      · simpa using hc
      · rename_i u ts hsp
        rw [hsp] at ih
        intro t ht
        simp only [List.mem_cons] at ht
        rcases ht with rfl | ht
        · intro d hd
          simp only [List.mem_cons] at hd
          rcases hd with rfl | hd
          · exact hc
          · exact ih u (by simp) d hd
        · exact ih t (by simp [ht])

theorem parseCpp_join (first n) (ts : List Text) (hne : ts ≠ [])
    (h : ∀ t ∈ ts, ∀ c ∈ t, c ≠ ',') (p : Parse) :
    parseCpp first n p (joinComma ts) = tokFold (tokenCpp first n) p ts := by
  induction ts generalizing p with
  | nil => exact absurd rfl hne
  | cons t ts ih =>
    cases ts with
    | nil =>
      rw [joinComma, parseCpp_last _ _ _ _ (h t (by simp)), tokFold]
      cases tokenCpp first n p t <;> rfl
    | cons u ts =>
      rw [joinComma, parseCpp_more _ _ _ _ _ (h t (by simp)), tokFold]
      cases tokenCpp first n p t with
      | ok p' => exact ih (by simp) (fun t ht => h t (by simp [ht])) p'
      | threw s => rfl
      | ub => rfl

/-- In C empty tokens are skipped by `strtok`. -/
def skipEmpty (f : Parse → Text → Out Parse Parse) (p : Parse) (t : Text) : Out Parse Parse :=
  if t.isEmpty then .ok p else f p t

theorem parseC_join (first n) (ts : List Text) (h : ∀ t ∈ ts, ∀ c ∈ t, c ≠ ',') (p : Parse) :
    parseC first n p (joinComma ts) = tokFold (skipEmpty (tokenC first n)) p ts := by
  induction ts generalizing p with
  | nil => exact parseC_nil _ _ _
  | cons t ts ih =>
    have ih := ih fun t ht => h t (by simp [ht])
    by_cases ht : t = []
    · subst ht
      cases ts with
      | nil => simp [joinComma, tokFold, skipEmpty, parseC_nil]
      | cons u ts =>
        rw [joinComma, List.nil_append, parseC_comma, ih]
        simp [tokFold, skipEmpty]
    · have hemp : t.isEmpty = false := by cases t <;> simp_all
      have hsk : skipEmpty (tokenC first n) p t = tokenC first n p t := by simp [skipEmpty, hemp]
      cases ts with
      | nil =>
        have hs := strtok_tok t [] (h t (by simp)) ht
        rw [joinComma, parseC_some _ _ _ _ _ _ hs.2, tokFold, hsk]
        cases tokenC first n p t with
        | ok p' => exact parseC_nil _ _ _
        | threw s => rfl
        | ub => rfl
      | cons u ts =>
        have hs := strtok_tok t (joinComma (u :: ts)) (h t (by simp)) ht
        rw [joinComma, parseC_some _ _ _ _ _ _ hs.1, tokFold, hsk]
        cases tokenC first n p t with
        | ok p' => exact ih p'
        | threw s => rfl
        | ub => rfl

theorem parseCpp_split (first n p s) :
    parseCpp first n p s = tokFold (tokenCpp first n) p (splitComma s) := by
  conv => lhs; rw [← splitComma_join s]
  exact parseCpp_join _ _ _ (splitComma_ne_nil s) (splitComma_no_comma s) p

theorem parseC_split (first n p s) :
    parseC first n p s = tokFold (skipEmpty (tokenC first n)) p (splitComma s) := by
  conv => lhs; rw [← splitComma_join s]
  exact parseC_join _ _ _ (splitComma_no_comma s) p

theorem stoi_nil : stoi [] = none := rfl

theorem tokFold_cpp_ok (first n) (ts : List Text) (p p' : Parse)
    (h : tokFold (tokenCpp first n) p ts = .ok p') :
    (∀ t ∈ ts, t ≠ [] → ∃ v, stoi t = some v) ∧
      enableAll first n p (ts.filterMap stoi) = .ok p' := by
  induction ts generalizing p with
  | nil => exact ⟨by simp, h⟩
  | cons t ts ih =>
    simp only [tokFold] at h
    by_cases ht : t = []
    · subst ht
      rw [tokenCpp_nil] at h
      obtain ⟨h1, h2⟩ := ih p h
      refine ⟨?_, by rw [List.filterMap_cons_none stoi_nil]; exact h2⟩
      intro t ht hne
      simp only [List.mem_cons] at ht
      rcases ht with rfl | ht
      · exact absurd rfl hne
      · exact h1 t ht hne
    · have hemp : t.isEmpty = false := by cases t <;> simp_all
      cases hs : stoi t with
      | none => simp [tokenCpp, hemp, hs] at h
      | some v =>
        have htok : tokenCpp first n p t = enableValue first n p v := by
          simp [tokenCpp, hemp, hs]
        rw [htok] at h
        rw [List.filterMap_cons_some hs, enableAll]
        cases he : enableValue first n p v with
        | threw s => rw [he] at h; simp at h
        | ub => rw [he] at h; simp at h
        | ok q =>
          rw [he] at h
          obtain ⟨h1, h2⟩ := ih q h
          refine ⟨?_, h2⟩
          intro t' ht' hne
          simp only [List.mem_cons] at ht'
          rcases ht' with rfl | ht'
          · exact ⟨v, hs⟩
          · exact h1 t' ht' hne

theorem enableValue_len (first n p q v) (h : enableValue first n p v = .ok q) :
    q.bits.length = p.bits.length := by
  unfold enableValue at h
  dsimp only at h
  split at h
  · simp at h
  · split at h
    · split at h
      · simp at h
      · simp only [Out.ok.injEq] at h
        subst h
        simp
    · simp only [Out.ok.injEq] at h
      subst h; rfl

theorem tokFold_cpp_throws (first n : Nat) (ts : List Text) (p : Parse)
    (hlen : p.bits.length = (n + 63) / 64)
    (ho : ∀ t ∈ ts, ∀ v, stoi t = some v → -2147483648 ≤ v - (first : Int))
    (hbad : ∃ t ∈ ts, t ≠ [] ∧ stoi t = none) :
    ∃ q, tokFold (tokenCpp first n) p ts = .threw q := by
  induction ts generalizing p with
  | nil => obtain ⟨t, ht, _⟩ := hbad; simp at ht
  | cons t ts ih =>
    have ho' : ∀ t ∈ ts, ∀ v, stoi t = some v → -2147483648 ≤ v - (first : Int) :=
      fun t ht => ho t (by simp [ht])
    simp only [tokFold]
    by_cases ht : t = []
    · subst ht
      rw [tokenCpp_nil]
      apply ih p hlen ho'
      obtain ⟨t, ht, hne, hn⟩ := hbad
      simp only [List.mem_cons] at ht
      rcases ht with rfl | ht
      · exact absurd rfl hne
      · exact ⟨t, ht, hne, hn⟩
    · have hemp : t.isEmpty = false := by cases t <;> simp_all
      cases hs : stoi t with
      | none => exact ⟨p, by simp [tokenCpp, hemp, hs]⟩
      | some v =>
        have htok : tokenCpp first n p t = enableValue first n p v := by
          simp [tokenCpp, hemp, hs]
        rw [htok]
        have hv := ((stoi_iff t v).mp hs).2
        obtain ⟨q, hq, hql, _⟩ := enableAll_ok first n [v] p hlen (by simpa using hv.2)
          (by simpa [NoOverflow] using ho t (by simp) v hs)
        rw [enableAll_one] at hq
        rw [hq]
        apply ih q hql ho'
        obtain ⟨t', ht', hne, hn⟩ := hbad
        simp only [List.mem_cons] at ht'
        rcases ht' with rfl | ht'
        · rw [hs] at hn; simp at hn
        · exact ⟨t', ht', hne, hn⟩

/-- Value of a token in C, nothing for an empty one. -/
def cVal (t : Text) : Option Int := if t.isEmpty then none else atoi t

theorem tokFold_c_ok (first n) (ts : List Text) (p p' : Parse)
    (h : tokFold (skipEmpty (tokenC first n)) p ts = .ok p') :
    (∀ t ∈ ts, t ≠ [] → ∃ v, atoi t = some v) ∧
      enableAll first n p (ts.filterMap cVal) = .ok p' := by
  induction ts generalizing p with
  | nil => exact ⟨by simp, h⟩
  | cons t ts ih =>
    simp only [tokFold] at h
    by_cases ht : t = []
    · subst ht
      have : skipEmpty (tokenC first n) p [] = .ok p := rfl
      rw [this] at h
      obtain ⟨h1, h2⟩ := ih p h
      refine ⟨?_, by rw [List.filterMap_cons_none (by rfl)]; exact h2⟩
      intro t ht hne
      simp only [List.mem_cons] at ht
      rcases ht with rfl | ht
      · exact absurd rfl hne
      · exact h1 t ht hne
    · have hemp : t.isEmpty = false := by cases t <;> simp_all
      cases hs : atoi t with
      | none => simp [skipEmpty, tokenC, hemp, hs] at h
      | some v =>
        have htok : skipEmpty (tokenC first n) p t = enableValue first n p v := by
          simp [skipEmpty, tokenC, hemp, hs]
        rw [htok] at h
        rw [List.filterMap_cons_some (by simpa [cVal, hemp] using hs), enableAll]
        cases he : enableValue first n p v with
        | threw s => rw [he] at h; simp at h
        | ub => rw [he] at h; simp at h
        | ok q =>
          rw [he] at h
          obtain ⟨h1, h2⟩ := ih q h
          refine ⟨?_, h2⟩
          intro t' ht' hne
          simp only [List.mem_cons] at ht'
          rcases ht' with rfl | ht'
          · exact ⟨v, hs⟩
          · exact h1 t' ht' hne

/-- If enabling succeeds from the start state, the state is as decided. -/
theorem enableAll_decided (first n : Nat) (vs : List Int) (q : Parse)
    (hr : ∀ v ∈ vs, v ≤ 2147483647)
    (h : enableAll first n ⟨(Thread.start n).bits, false⟩ vs = .ok q) :
    Decided first n vs ⟨true, q.bits, q.some_⟩ := by
  by_cases ho : NoOverflow first vs
  · obtain ⟨p', h1, h2, h3, h4⟩ := enableAll_ok first n vs
      ⟨(Thread.start n).bits, false⟩ (by simp [Thread.start]) hr ho
    rw [h] at h1
    simp only [Out.ok.injEq] at h1
    subst h1
    refine ⟨rfl, h2, ?_, ?_⟩
    · intro i hi
      rw [h3 i hi]
      simp [Thread.start, getBit_replicate]
    · simp only [h4]
      simp
  · rw [enableAll_overflow first n vs _ (by simp [Thread.start]) hr ho] at h
    simp at h

theorem query_after_init (cpp first n env i r) :
    enabledMutation cpp first n env (Thread.start n) i = .ok r →
    ∃ p, parseEnv cpp first n ⟨(Thread.start n).bits, false⟩ env = .ok p ∧
      enabledMutation cpp first n env ⟨true, p.bits, p.some_⟩ i = .ok r := by
  intro h
  cases hp : parseEnv cpp first n ⟨(Thread.start n).bits, false⟩ env with
  | ok p =>
    refine ⟨p, rfl, ?_⟩
    have : initThread cpp first n env (Thread.start n) = .ok ⟨true, p.bits, p.some_⟩ := by
      rw [initThread, hp]
    unfold enabledMutation at h ⊢
    rw [this] at h
    exact h
  | threw s =>
    have : initThread cpp first n env (Thread.start n)
        = .threw { Thread.start n with bits := s.bits } := by
      rw [initThread, hp]
    unfold enabledMutation at h
    rw [this] at h
    simp [Thread.start] at h
  | ub =>
    have : initThread cpp first n env (Thread.start n) = .ub := by
      rw [initThread, hp]
    unfold enabledMutation at h
    rw [this] at h
    simp [Thread.start] at h

end Dredd
