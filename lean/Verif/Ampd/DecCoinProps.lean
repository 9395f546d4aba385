import Verif.Ampd.DecCoin

/-!
# C101: the gas price is what its text says
-/

namespace Amp.Ampd.DecCoin

variable {F : Type}

/-- what is assumed of the standard library: no text is no number; finite numbers are parsed as they are displayed, without letters; those that are
not negative are displayed beginning with a digit; text that begins with a digit and has no letters is not negative. -/
structure Lib.Std (L : Lib F) (nonneg : F → Prop) : Prop where
  empty : L.parse [] = none
  parse_text : ∀ x, L.finite x = true → L.parse (L.text x) = some x
  plain : ∀ x, L.finite x = true → ∀ c ∈ L.text x, L.alphabetic c = false
  digit : ∀ x, L.finite x = true → nonneg x → ∃ c t, L.text x = c :: t ∧ L.numeric c = true
  positive : ∀ c t x, L.numeric c = true → (∀ d ∈ c :: t, L.alphabetic d = false) → L.parse (c :: t) = some x → nonneg x

theorem find_append {p : Char → Bool} {a : Str} {c : Char} {t : Str} (ha : ∀ d ∈ a, p d = false) (hc : p c = true) :
    find p (a ++ c :: t) = some a.length := by
  induction a with
  | nil => simp [find, hc]
  | cons d a ih =>
    rw [List.cons_append, find, ha d (by simp), ih (fun e he => ha e (List.mem_cons_of_mem _ he))]
    simp

theorem find_some {p : Char → Bool} {s : Str} {i : Nat} (h : find p s = some i) :
    (∀ d ∈ s.take i, p d = false) ∧ ∃ c t, s.drop i = c :: t ∧ p c = true := by
  induction s generalizing i with
  | nil => simp [find] at h
  | cons c t ih =>
    rw [find] at h
    by_cases hc : p c
    · rw [if_pos hc] at h
      obtain rfl := Option.some.inj h
      exact ⟨by simp, c, t, rfl, hc⟩
    · rw [if_neg hc] at h
      cases hf : find p t with
      | none => rw [hf] at h; simp at h
      | some j =>
        rw [hf] at h
        simp only [Option.map_some, Option.some.injEq] at h
        subst h
        obtain ⟨h1, h2⟩ := ih hf
        refine ⟨?_, h2⟩
        intro d hd
        rw [List.take_succ_cons] at hd
        rcases List.mem_cons.mp hd with rfl | hd
        · simpa using hc
        · exact h1 d hd

theorem parseDenom_ok {s d : Str} (h : parseDenom s = .ok d) : d = s ∧ s ≠ [] ∧ s.all denomChar = true := by
  unfold parseDenom at h
  split at h
  · split at h
    · cases h
    · rename_i h1 h2; cases h; exact ⟨rfl, h2, h1⟩
  · cases h

theorem parseAmount_ok {L : Lib F} {s : Str} {x : F} (h : parseAmount L s = .ok x) : L.parse s = some x ∧ L.finite x = true := by
  unfold parseAmount at h
  cases hp : L.parse s with
  | none => rw [hp] at h; cases h
  | some y =>
    rw [hp] at h
    unfold finiteAmount at h
    dsimp only at h
    split at h
    · rename_i hf; cases h; exact ⟨rfl, hf⟩
    · cases h

/-- C101: a text is taken as a price exactly if it is a number without letters followed by a denomination that begins with a
letter; and these are amount and denomination. -/
theorem C101_text (L : Lib F) (s : Str) (c : DecCoin F) :
    ofText L s = .ok c ↔ ∃ a l t, s = a ++ l :: t ∧ c.denom = l :: t ∧ L.parse a = some c.amount ∧ L.finite c.amount = true ∧
      (∀ d ∈ a, L.alphabetic d = false) ∧ L.alphabetic l = true ∧ (l :: t).all denomChar = true ∧
      ∃ d r, s = d :: r ∧ L.numeric d = true := by
  constructor
  · intro h
    unfold ofText at h
    split at h
    · rename_i i hn ha
      obtain ⟨h1, l, t, h2, h3⟩ := find_some ha
      obtain ⟨-, d, r, h4, h5⟩ := find_some hn
      split at h
      · cases h
      · cases h
      · rename_i dn x hd hx
        cases h
        obtain ⟨rfl, -, hall⟩ := parseDenom_ok hd
        obtain ⟨hp, hf⟩ := parseAmount_ok hx
        exact ⟨s.take i, l, t, by rw [← h2, List.take_append_drop], h2, hp, hf, h1, h3, h2 ▸ hall, d, r, h4, h5⟩
    · cases h
  · rintro ⟨a, l, t, rfl, hd, hp, hf, h1, h2, h3, d, r, h4, h5⟩
    have hn : find L.numeric (a ++ l :: t) = some 0 := by rw [h4, find, if_pos h5]
    have e1 : parseDenom (l :: t) = .ok (l :: t) := by rw [parseDenom, if_pos h3, if_neg (by simp)]
    have e2 : parseAmount L a = .ok c.amount := by rw [parseAmount, hp]; simp [finiteAmount, hf]
    rw [ofText, hn, find_append h1 h2]
    simp only [List.drop_left, List.take_left, e1, e2]
    cases c
    simp only at hd
    subst hd
    rfl

/-- C101: what is written is read: a price that is not negative, in a denomination that begins with a letter. -/
theorem C101_round_partial (L : Lib F) {nonneg : F → Prop} (hL : L.Std nonneg) (c : DecCoin F) (hf : L.finite c.amount = true)
    (hn : nonneg c.amount) (hd : c.denom.all denomChar = true) (l : Char) (t : Str) (hl : c.denom = l :: t)
    (ha : L.alphabetic l = true) : ofText L (toText L c) = .ok c := by
  rw [C101_text]
  obtain ⟨d, r, h1, h2⟩ := hL.digit _ hf hn
  exact ⟨L.text c.amount, l, t, by rw [toText, hl], hl, hL.parse_text _ hf, hf, hL.plain _ hf, ha, hl ▸ hd,
    d, r ++ c.denom, by rw [toText, h1, List.cons_append], h2⟩

/-- C101: so a price that was read from a configuration is read from the configuration that is written back. -/
theorem C101_config (L : Lib F) {nonneg : F → Prop} (hL : L.Std nonneg) (s : Str) (c : DecCoin F) (h : ofText L s = .ok c) :
    ofText L (toText L c) = .ok c := by
  obtain ⟨a, l, t, rfl, hd, hp, hf, h1, h2, h3, d, r, h4, h5⟩ := (C101_text L s c).mp h
  have hn : nonneg c.amount := by
    cases a with
    | nil => rw [hL.empty] at hp; cases hp
    | cons x a =>
      cases h4
      exact hL.positive _ _ _ h5 h1 hp
  exact C101_round_partial L hL c hf hn (hd ▸ h3) l t hd h2

/-- C101: the other way to write a price, with amount and denomination apart, loses nothing. -/
theorem C101_proto (L : Lib F) {nonneg : F → Prop} (hL : L.Std nonneg) (x : F) (denom : Str) (c : DecCoin F)
    (h : new L x denom = .ok c) : ofProto L (toProto L c).1 (toProto L c).2 = .ok c := by
  unfold new at h
  split at h
  · cases h
  · cases h
  · rename_i y d hy hd
    cases h
    obtain ⟨rfl, h1, h2⟩ := parseDenom_ok hd
    unfold finiteAmount at hy
    split at hy
    · rename_i hf
      cases hy
      rw [ofProto, toProto, parseAmount, hL.parse_text _ hf]
      simp only [finiteAmount, hf, if_true, hd]
    · cases hy

/-! ### Cases -/

/-- whole numbers as amounts, all finite, and the letters and digits of ASCII -/
def exLib : Lib Int where
  parse := fun s =>
    match s with
    | '-' :: t => if isDigits t then some (- (Nat.ofDigitChars 10 t 0 : Int)) else none
    | t => if isDigits t then some (Nat.ofDigitChars 10 t 0 : Int) else none
  finite := fun _ => true
  text := fun x => match x with
    | .ofNat n => showNat n
    | .negSucc n => '-' :: showNat (n + 1)
  numeric := Char.isDigit
  alphabetic := Char.isAlpha

theorem not_alpha_of_digit {c : Char} (h : c.isDigit = true) : c.isAlpha = false := by
  simp only [Char.isDigit, Char.isAlpha, Char.isUpper, Char.isLower, Bool.and_eq_true, decide_eq_true_eq, Bool.or_eq_false_iff,
    Bool.and_eq_false_iff, decide_eq_false_iff_not, UInt32.le_iff_toNat_le, ge_iff_le] at h ⊢
  have h1 : '9'.val.toNat = 57 := rfl
  have h2 : 'A'.val.toNat = 65 := rfl
  have h3 : 'a'.val.toNat = 97 := rfl
  rw [h1] at h
  rw [h2, h3]
  omega

theorem exLib_std : exLib.Std (fun x => 0 ≤ x) where
  empty := by decide
  parse_text := by
    intro x _
    cases x with
    | ofNat n =>
      show exLib.parse (showNat n) = _
      have hne := showNat_ne_nil n
      obtain ⟨c, t, hc⟩ := List.exists_cons_of_ne_nil hne
      have hd : c.isDigit = true := showNat_isDigit (n := n) (by rw [hc]; simp)
      have hm : c ≠ '-' := by rintro rfl; revert hd; decide
      have e : exLib.parse (showNat n) = if isDigits (showNat n) then some (Nat.ofDigitChars 10 (showNat n) 0 : Int) else none := by
        rw [hc]
        simp only [exLib]
        split
        · rename_i h; exact absurd (List.cons.inj h).1 hm
        · rfl
      rw [e, if_pos (isDigits_showNat n)]
      exact congrArg some (congrArg Int.ofNat Nat.ofDigitChars_ten_toDigits)
    | negSucc n =>
      show (if isDigits (showNat (n + 1)) then some (- (Nat.ofDigitChars 10 (showNat (n + 1)) 0 : Int)) else none) = _
      rw [if_pos (isDigits_showNat _)]
      have : Nat.ofDigitChars 10 (showNat (n + 1)) 0 = n + 1 := Nat.ofDigitChars_ten_toDigits
      rw [this]
      rfl
  plain := by
    intro x _ c hc
    cases x with
    | ofNat n => exact not_alpha_of_digit (showNat_isDigit hc)
    | negSucc n =>
      rcases List.mem_cons.mp hc with rfl | hc
      · decide
      · exact not_alpha_of_digit (showNat_isDigit hc)
  digit := by
    intro x _ hx
    cases x with
    | ofNat n =>
      have hne := showNat_ne_nil n
      obtain ⟨c, t, hc⟩ := List.exists_cons_of_ne_nil hne
      exact ⟨c, t, hc, showNat_isDigit (n := n) (by rw [hc]; simp)⟩
    | negSucc n => exact absurd hx (by simp)
  positive := by
    intro c t x hc _ hp
    have hm : c ≠ '-' := by rintro rfl; revert hc; decide
    simp only [exLib] at hp
    split at hp
    · rename_i h; exact absurd (List.cons.inj h).1 hm
    · split at hp
      · cases hp; exact Int.natCast_nonneg _
      · cases hp

example : ofText exLib "100uaxl".toList = .ok ⟨"uaxl".toList, 100⟩ ∧ ofText exLib "10a0u/axl".toList = .ok ⟨"a0u/axl".toList, 10⟩ ∧
    ofText exLib "10a0u/-xl".toList = .error .parsingFailed ∧ ofText exLib "uaxl6".toList = .error .parsingFailed ∧
    new exLib 100 "ax~7".toList = .error .parsingFailed ∧ new exLib 100 [] = .error .denomIsEmpty ∧
    toText exLib ⟨"uaxl".toList, 100⟩ = "100uaxl".toList := by decide

/-- The full statement: every price that can be made is read as it was written. -/
def AllRound (L : Lib F) : Prop := ∀ x denom c, new L x denom = .ok c → ofText L (toText L c) = .ok c

/-- C101: this fails: "5" of the denomination "1x" is written as "51x", which is read as 51 of the denomination "x"; and
negative prices, which can be made, are not read at all. -/
theorem C101_not_round : ¬ AllRound exLib ∧
    (∃ c, new exLib 5 "1x".toList = .ok c ∧ ofText exLib (toText exLib c) = .ok ⟨"x".toList, 51⟩) ∧
    ∃ c, new exLib (-5) "uaxl".toList = .ok c ∧ ofText exLib (toText exLib c) = .error .parsingFailed := by
  refine ⟨fun h => ?_, ⟨⟨"1x".toList, 5⟩, by decide, by decide⟩, ⟨⟨"uaxl".toList, -5⟩, by decide, by decide⟩⟩
  exact absurd (h 5 "1x".toList ⟨"1x".toList, 5⟩ (by decide)) (by decide)

/-- a number in scientific notation is not understood: the exponent goes to the denomination -/
example : ofText exLib "1e5uaxl".toList = .ok ⟨"e5uaxl".toList, 1⟩ := by decide

end Amp.Ampd.DecCoin
