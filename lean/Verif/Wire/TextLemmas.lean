import Verif.Wire.JsonLemmas

/-!
# Texts that are JSON, and texts that are not
-/

namespace Amp.Wire

/-- what a value or the blank before it can begin with -/
def opens (c : Char) : Bool :=
  c = ' ' || c = '\n' || c = '\t' || c = '\r' || c = 'n' || c = 't' || c = 'f' || c = '-' || c.isDigit || c = '"' ||
    c = '[' || c = '{'

theorem fromStr_head (finite : Str → Bool) {c : Char} (h : opens c = false) (t : Str) :
    fromStr finite (c :: t) = none := by
  simp only [opens, Bool.or_eq_false_iff, decide_eq_false_iff_not] at h
  obtain ⟨⟨⟨⟨⟨⟨⟨⟨⟨⟨⟨h1, h2⟩, h3⟩, h4⟩, h5⟩, h6⟩, h7⟩, h8⟩, h9⟩, h10⟩, h11⟩, h12⟩ := h
  have hv : ∀ n d, parseValue finite n d (c :: t) = none := by
    intro n d
    cases n with
    | zero => rfl
    | succ n =>
      rw [parseValue, skipWs_of (by simp only [h1, h2, h3, h4, or_self, not_false_eq_true])]
      simp only [h5, h6, h7, h8, h9, h10, h11, h12, if_false, Bool.false_eq_true]
  rw [fromStr, hv]

/-- a word that is not one of the three words of JSON -/
theorem fromStr_word (finite : Str → Bool) {c : Char} {t : Str} (hc : c = 'n' ∨ c = 't' ∨ c = 'f')
    (h1 : ¬ "null".toList <+: c :: t) (h2 : ¬ "true".toList <+: c :: t) (h3 : ¬ "false".toList <+: c :: t) :
    fromStr finite (c :: t) = none := by
  have hp : ∀ (w : Str) (j : Json), ¬ c :: w <+: c :: t → ident w j t = none := by
    intro w j hw
    rw [ident, if_neg]
    intro hpre
    exact hw (by rw [List.isPrefixOf_iff_prefix] at hpre; exact List.cons_prefix_cons.mpr ⟨rfl, hpre⟩)
  have hv : ∀ n d, parseValue finite n d (c :: t) = none := by
    intro n d
    cases n with
    | zero => rfl
    | succ n =>
      rw [parseValue, skipWs_of (by rcases hc with rfl | rfl | rfl <;> decide)]
      rcases hc with rfl | rfl | rfl
      · simp only [if_true]; exact hp _ _ h1
      · dsimp only; rw [if_neg (by decide), if_pos rfl]; exact hp _ _ h2
      · dsimp only; rw [if_neg (by decide), if_neg (by decide), if_pos rfl]; exact hp _ _ h3
  rw [fromStr, hv]

/-- text that begins with a digit -/
theorem fromStr_digit (finite : Str → Bool) {c : Char} (hc : c.isDigit = true) (t : Str) :
    fromStr finite (c :: t) = match parseNumber finite false (c :: t) with
      | none => none
      | some (j, r) => if skipWs r = [] then some j else none := by
  have hd : ∀ x : Char, x.isDigit = false → c ≠ x := by
    intro x hx e; rw [e, hx] at hc; exact Bool.noConfusion hc
  have h1 := hd ' ' (by decide)
  have h2 := hd '\n' (by decide)
  have h3 := hd '\t' (by decide)
  have h4 := hd '\r' (by decide)
  have h5 := hd 'n' (by decide)
  have h6 := hd 't' (by decide)
  have h7 := hd 'f' (by decide)
  have h8 := hd '-' (by decide)
  have hv : ∀ n d, parseValue finite (n + 1) d (c :: t) = parseNumber finite false (c :: t) := by
    intro n d
    rw [parseValue, skipWs_of (by simp only [h1, h2, h3, h4, or_self, not_false_eq_true])]
    simp only [h5, h6, h7, h8, hc, if_false, if_true]
  rw [fromStr, show 2 * (c :: t).length + 2 = (2 * (c :: t).length + 1) + 1 from rfl, hv]
  cases parseNumber finite false (c :: t) <;> rfl

/-- `0x` and more is no JSON -/
theorem fromStr_0x (finite : Str → Bool) (t : Str) : fromStr finite ('0' :: 'x' :: t) = none := by
  rw [fromStr_digit finite (by decide)]
  have hi : intPart ('0' :: 'x' :: t) = some (['0'], 'x' :: t) := by
    rfl
  have hf : fracPart ('x' :: t) = some ([], 'x' :: t) := rfl
  have he : expPart ('x' :: t) = some ([], 'x' :: t) := rfl
  have hz : Nat.ofDigitChars 10 ['0'] 0 ≤ u64Max := by decide
  simp only [parseNumber, hi, hf, he, hz, and_self, if_true]
  rw [skipWs_of (by decide), if_neg (by simp)]

/-! ### Hexadecimal text -/

/-- digits and small letters up to f -/
def HexText (s : Str) : Prop := ∀ c ∈ s, c.isDigit = true ∨ c ∈ ['a', 'b', 'c', 'd', 'e', 'f']

/-- digits without leading zeros, as JSON wants them -/
def IntText (d : Str) : Prop := d ≠ [] ∧ (∀ c ∈ d, c.isDigit = true) ∧ (d = ['0'] ∨ d.head? ≠ some '0')

/-- Hexadecimal text that is a JSON number: digits without leading zeros, alone or followed by `e` and more digits. -/
def NumberText (s : Str) : Prop :=
  IntText s ∨ ∃ d x, s = d ++ 'e' :: x ∧ IntText d ∧ x ≠ [] ∧ ∀ c ∈ x, c.isDigit = true

theorem hexLetter_not {c : Char} (h : c ∈ ['a', 'b', 'c', 'd', 'e', 'f']) : c.isDigit = false ∧
    ¬(c = ' ' ∨ c = '\n' ∨ c = '\t' ∨ c = '\r') ∧ c ≠ '.' := by
  simp only [List.mem_cons, List.not_mem_nil, or_false] at h
  rcases h with rfl | rfl | rfl | rfl | rfl | rfl <;> decide

theorem digit_not {c : Char} (h : c.isDigit = true) : ¬(c = ' ' ∨ c = '\n' ∨ c = '\t' ∨ c = '\r') ∧ c ≠ '.' ∧
    c ≠ '+' ∧ c ≠ '-' := by
  refine ⟨?_, ?_, ?_, ?_⟩
  · rintro (rfl | rfl | rfl | rfl) <;> exact absurd h (by decide)
  all_goals rintro rfl; exact absurd h (by decide)

theorem hex_skipWs {s : Str} (h : HexText s) : skipWs s = s := by
  cases s with
  | nil => rfl
  | cons c t =>
    refine skipWs_of ?_ t
    rcases h c (List.mem_cons_self ..) with hd | hl
    · exact (digit_not hd).1
    · exact (hexLetter_not hl).2.1

theorem takeWhile_all {p : Char → Bool} {d rest : Str} (hd : ∀ c ∈ d, p c = true)
    (hr : ∀ c, rest.head? = some c → p c = false) :
    (d ++ rest).takeWhile p = d ∧ (d ++ rest).dropWhile p = rest := by
  induction d with
  | nil =>
    cases rest with
    | nil => exact ⟨rfl, rfl⟩
    | cons c t => simp [List.takeWhile_cons, List.dropWhile_cons, hr c rfl]
  | cons c t ih =>
    obtain ⟨h1, h2⟩ := ih (fun x hx => hd x (List.mem_cons_of_mem _ hx))
    simp only [List.cons_append, List.takeWhile_cons, List.dropWhile_cons, hd c (List.mem_cons_self ..), if_true, h1, h2,
      and_self]

theorem takeWhile_digit {s : Str} {c : Char} (h : c ∈ s.takeWhile Char.isDigit) : c.isDigit = true :=
  List.all_eq_true.mp (List.all_takeWhile (l := s)) c h

theorem intPart_of {d rest : Str} (hd : IntText d) (hr : ∀ c, rest.head? = some c → c.isDigit = false) :
    intPart (d ++ rest) = some (d, rest) := by
  obtain ⟨hne, hall, hz⟩ := hd
  cases d with
  | nil => exact absurd rfl hne
  | cons c t =>
    obtain ⟨h1, h2⟩ := takeWhile_all (d := t) (fun x hx => hall x (List.mem_cons_of_mem _ hx)) hr
    by_cases h0 : c = '0'
    · subst h0
      have ht : t = [] := by
        rcases hz with hz | hz
        · exact (List.cons.inj hz).2
        · exact absurd rfl hz
      subst ht
      rw [List.nil_append] at h1
      simp only [List.cons_append, List.nil_append, intPart, if_true, h1, List.isEmpty_nil]
    · simp only [List.cons_append, intPart, h0, if_false, hall c (List.mem_cons_self ..), if_true, h1, h2]

theorem intPart_some {s i r : Str} (h : intPart s = some (i, r)) : s = i ++ r ∧ IntText i ∧
    ∀ c, r.head? = some c → c.isDigit = false := by
  cases s with
  | nil => simp [intPart] at h
  | cons c t =>
    have hdrop : ∀ x, (t.dropWhile Char.isDigit).head? = some x → x.isDigit = false := by
      intro x hx
      have := List.head?_dropWhile_not Char.isDigit t
      rw [hx] at this
      simpa using this
    rw [intPart] at h
    split at h
    · rename_i h0
      split at h
      · rename_i he
        simp only [Option.some.injEq, Prod.mk.injEq] at h
        obtain ⟨rfl, rfl⟩ := h
        refine ⟨by rw [h0]; rfl, ⟨by simp, by simp, Or.inl rfl⟩, ?_⟩
        intro x hx
        cases t with
        | nil => simp at hx
        | cons y u =>
          simp only [List.head?_cons, Option.some.injEq] at hx
          subst hx
          cases hy : y.isDigit
          · rfl
          · simp [List.takeWhile_cons, hy] at he
      · simp at h
    · split at h
      · rename_i h0 hd
        simp only [Option.some.injEq, Prod.mk.injEq] at h
        obtain ⟨rfl, rfl⟩ := h
        refine ⟨by rw [List.cons_append, List.takeWhile_append_dropWhile], ⟨by simp, ?_, Or.inr (by simpa using h0)⟩, hdrop⟩
        intro x hx
        rcases List.mem_cons.mp hx with rfl | hx
        · exact hd
        · exact (takeWhile_digit hx)
      · simp at h

theorem hex_tail {a b : Str} (h : HexText (a ++ b)) : HexText b := fun c hc => h c (List.mem_append_right _ hc)

theorem fracPart_hex {s : Str} (h : HexText s) : fracPart s = some ([], s) := by
  cases s with
  | nil => rfl
  | cons c t =>
    rw [fracPart, if_neg]
    rcases h c (List.mem_cons_self ..) with hd | hl
    · exact (digit_not hd).2.1
    · exact (hexLetter_not hl).2.2

theorem expPart_hex {t : Str} (h : HexText t) : expPart ('e' :: t) =
    if (t.takeWhile Char.isDigit).isEmpty then none
    else some ('e' :: t.takeWhile Char.isDigit, t.dropWhile Char.isDigit) := by
  cases t with
  | nil => rfl
  | cons c u =>
    have : ¬ (c = '+' ∨ c = '-') := by
      rcases h c (List.mem_cons_self ..) with hd | hl
      · simp [(digit_not hd).2.2.1, (digit_not hd).2.2.2]
      · simp only [List.mem_cons, List.not_mem_nil, or_false] at hl
        rcases hl with rfl | rfl | rfl | rfl | rfl | rfl <;> decide
    simp only [expPart, true_or, if_true, this, if_false, List.nil_append]

/-- Hexadecimal text that is no number is not read as JSON. -/
theorem fromStr_hex_some {finite : Str → Bool} {s : Str} {j : Json} (hs : HexText s) (h : fromStr finite s = some j) :
    NumberText s ∧ ((∃ n, j = .nat n ∧ n ≤ u64Max ∧ IntText s ∧ n = Nat.ofDigitChars 10 s 0) ∨
      j = .number s ∧ finite s = true) := by
  cases s with
  | nil => simp [fromStr, parseValue, skipWs] at h
  | cons c t =>
    rcases hs c (List.mem_cons_self ..) with hd | hl
    · rw [fromStr_digit finite hd] at h
      cases hp : parseNumber finite false (c :: t) with
      | none => rw [hp] at h; simp at h
      | some p =>
        obtain ⟨j', r⟩ := p
        rw [hp] at h
        simp only at h
        split at h
        · rename_i hws
          simp only [Option.some.injEq] at h
          subst h
          cases hi : intPart (c :: t) with
          | none => simp [parseNumber, hi] at hp
          | some q =>
            obtain ⟨i, r1⟩ := q
            obtain ⟨e1, e2, e3⟩ := intPart_some hi
            rw [e1] at hs
            have hr1 := hex_tail hs
            simp only [parseNumber, hi, fracPart_hex hr1, List.nil_append, List.append_nil] at hp
            cases r1 with
            | nil =>
              rw [List.append_nil] at e1
              simp only [expPart, true_and, List.append_nil, Bool.false_eq_true, false_and, if_false, List.nil_append] at hp
              rw [e1]
              refine ⟨Or.inl e2, ?_⟩
              split at hp
              · rename_i hn
                simp only [Option.some.injEq, Prod.mk.injEq] at hp
                exact Or.inl ⟨_, hp.1.symm, hn, e2, rfl⟩
              · split at hp
                · rename_i hfin
                  simp only [Option.some.injEq, Prod.mk.injEq] at hp
                  exact Or.inr ⟨hp.1.symm, hfin⟩
                · simp at hp
            | cons x u =>
              by_cases hx : x = 'e'
              · subst hx
                have hu : HexText u := hex_tail (a := ['e']) hr1
                rw [expPart_hex hu] at hp
                split at hp
                · simp at hp
                · rename_i e r2 he
                  split at he
                  · simp at he
                  rename_i hemp
                  simp only [Option.some.injEq, Prod.mk.injEq] at he
                  obtain ⟨rfl, rfl⟩ := he
                  simp only [true_and, reduceCtorEq, false_and, Bool.false_eq_true, if_false, List.nil_append] at hp
                  split at hp
                  · rename_i hfin
                    simp only [Option.some.injEq, Prod.mk.injEq] at hp
                    obtain ⟨rfl, rfl⟩ := hp
                    have hdrop : HexText (u.dropWhile Char.isDigit) :=
                      fun c hc => hu c ((List.dropWhile_suffix _).mem hc)
                    rw [hex_skipWs hdrop] at hws
                    have hu2 : u.takeWhile Char.isDigit = u := by
                      have := List.takeWhile_append_dropWhile (p := Char.isDigit) (l := u)
                      rw [hws, List.append_nil] at this; exact this
                    rw [hu2] at hfin hemp
                    rw [e1, hu2]
                    exact ⟨Or.inr ⟨i, u, rfl, e2, by intro hnil; rw [hnil] at hemp; simp at hemp, fun c hc => by
                      rw [← hu2] at hc; exact takeWhile_digit hc⟩, Or.inr ⟨rfl, hfin⟩⟩
                  · simp at hp
              · exfalso
                have hl : x ∈ ['a', 'b', 'c', 'd', 'e', 'f'] := by
                  rcases hr1 x (List.mem_cons_self ..) with hd' | hl
                  · rw [e3 x rfl] at hd'; exact absurd hd' (by decide)
                  · exact hl
                have hx' : ¬(x = 'e' ∨ x = 'E') := by
                  rintro (h | h)
                  · exact hx h
                  · subst h; exact absurd hl (by decide)
                simp only [expPart, hx', if_false] at hp
                have hr : r = x :: u := by
                  repeat' split at hp
                  all_goals simp at hp
                  all_goals first | exact hp.2.symm | exact hp.2.2.symm
                rw [hr, skipWs_of (hexLetter_not hl).2.1] at hws
                simp at hws
        · simp at h
    · exfalso
      by_cases hf : c = 'f'
      · subst hf
        rw [fromStr_word finite (Or.inr (Or.inr rfl)) (by intro hp; exact absurd (List.cons_prefix_cons.mp hp).1 (by decide))
          (by intro hp; exact absurd (List.cons_prefix_cons.mp hp).1 (by decide))] at h
        · simp at h
        · intro hp
          have : 'l' ∈ 'f' :: t := hp.mem (by decide)
          rcases hs 'l' this with h1 | h1 <;> exact absurd h1 (by decide)
      · rw [fromStr_head finite] at h
        · simp at h
        · simp only [List.mem_cons, List.not_mem_nil, or_false] at hl
          rcases hl with rfl | rfl | rfl | rfl | rfl | rfl <;> first | decide | exact absurd rfl hf

/-- A number is read as such, if it is in range. -/
theorem fromStr_number {finite : Str → Bool} {s : Str} (h : NumberText s) (hfin : finite s = true) :
    ∃ j, fromStr finite s = some j ∧ ((∃ n, j = .nat n) ∨ j = .number s) := by
  have hd : ∀ {d : Str} (t : Str), IntText d → ∃ c u, d ++ t = c :: u ∧ c.isDigit = true := by
    intro d t hd
    cases d with
    | nil => exact absurd rfl hd.1
    | cons c u => exact ⟨c, u ++ t, rfl, hd.2.1 c (List.mem_cons_self ..)⟩
  rcases h with h | ⟨d, x, rfl, h1, h2, h3⟩
  · obtain ⟨c, u, e, hc⟩ := hd [] h
    rw [List.append_nil] at e
    have hi := intPart_of (rest := []) h (by intro c hc; simp at hc)
    rw [List.append_nil] at hi
    rw [e, fromStr_digit finite hc, ← e]
    simp only [parseNumber, hi, fracPart, expPart, true_and, List.nil_append, List.append_nil, Bool.false_eq_true, false_and,
      if_false, hfin, if_true]
    by_cases hn : Nat.ofDigitChars 10 s 0 ≤ u64Max
    · simp only [hn, if_true, skipWs]; exact ⟨_, rfl, Or.inl ⟨_, rfl⟩⟩
    · simp only [hn, if_false, skipWs, if_true]; exact ⟨_, rfl, Or.inr rfl⟩
  · obtain ⟨c, u, e, hc⟩ := hd ('e' :: x) h1
    have hi := intPart_of (rest := 'e' :: x) h1 (by
      intro c hc; simp only [List.head?_cons, Option.some.injEq] at hc; subst hc; decide)
    have hx : HexText x := fun c hc => Or.inl (h3 c hc)
    obtain ⟨t1, t2⟩ := takeWhile_all (rest := []) h3 (by intro c hc; simp at hc)
    rw [List.append_nil] at t1 t2
    have he : expPart ('e' :: x) = some ('e' :: x, []) := by
      rw [expPart_hex hx, t1, t2, if_neg]
      intro hem; exact h2 (List.isEmpty_iff.mp hem)
    have hfr : fracPart ('e' :: x) = some ([], 'e' :: x) := rfl
    rw [e, fromStr_digit finite hc, ← e]
    simp only [parseNumber, hi, hfr, he, reduceCtorEq, true_and, false_and, if_false, List.nil_append, List.append_nil,
      Bool.false_eq_true, hfin, if_true, skipWs]
    exact ⟨_, rfl, Or.inr rfl⟩

end Amp.Wire
