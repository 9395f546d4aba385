import Verif.Wire.Json

/-! # Reading back what was written as JSON -/

namespace Amp.Wire

/-! ### Strings -/

theorem escaped_small : ∀ n < 32, ∀ t : Str,
    escaped ('u' :: '0' :: '0' :: hexDigit (n / 16) :: hexDigit (n % 16) :: t) = some (Char.ofNat n, t) := by
  intro n hn t
  have h0 : hexVal '0' = some 0 := by decide
  have e : ∀ t : Str, escaped ('u' :: t) = unicodeEscape t := fun _ => rfl
  have e4 : hex4 ('0' :: '0' :: hexDigit (n / 16) :: hexDigit (n % 16) :: t) = some (n, t) := by
    simp only [hex4, h0, hexVal_hexDigit (n / 16) (by omega), hexVal_hexDigit (n % 16) (by omega), Option.some.injEq,
      Prod.mk.injEq, and_true]
    omega
  rw [e, unicodeEscape, e4]
  dsimp only
  rw [if_neg (by omega), if_neg (by omega)]

theorem parseChars_escape (c : Char) (n : Nat) (t : Str) :
    parseChars (n + 1) (escapeChar c ++ t) =
      match parseChars n t with
      | none => none
      | some (s, r) => some (c :: s, r) := by
  unfold escapeChar
  split
  · subst_vars; rfl
  split
  · subst_vars; rfl
  split
  · subst_vars; rfl
  split
  · subst_vars; rfl
  split
  · subst_vars; rfl
  split
  · subst_vars; rfl
  split
  · subst_vars; rfl
  split
  · rename_i h
    have := escaped_small c.toNat h t
    simp only [List.cons_append, List.nil_append, parseChars, this, Char.ofNat_toNat]
    rw [if_neg (by decide), if_pos trivial]
    cases parseChars n t <;> rfl
  · rename_i h1 h2 _ _ _ _ _ h3
    simp only [List.cons_append, List.nil_append, parseChars, h1, h2, h3, if_false]
    cases parseChars n t <;> rfl

theorem parseChars_render (s : Str) (n : Nat) (h : s.length < n) (rest : Str) :
    parseChars n (renderChars s ++ rest) = some (s, rest) := by
  induction s generalizing n with
  | nil =>
    cases n with
    | zero => simp at h
    | succ n => rfl
  | cons c t ih =>
    cases n with
    | zero => simp at h
    | succ n =>
      have e : renderChars (c :: t) ++ rest = escapeChar c ++ (renderChars t ++ rest) := by
        simp [renderChars]
      rw [e, parseChars_escape, ih n (by simp only [List.length_cons] at h; omega)]

theorem escapeChar_length (c : Char) : 1 ≤ (escapeChar c).length := by
  unfold escapeChar
  repeat' split
  all_goals simp

theorem renderChars_length (s : Str) : s.length < (renderChars s).length := by
  induction s with
  | nil => simp [renderChars]
  | cons c t ih =>
    have := escapeChar_length c
    simp only [renderChars, List.flatMap_cons, List.length_append, List.length_cons] at ih ⊢
    omega

/-! ### Numbers -/

/-- nothing that could belong to a number, nor white space -/
def Ends (rest : Str) : Prop := ∀ c, rest.head? = some c → c = ',' ∨ c = ']' ∨ c = '}'

theorem takeWhile_digits {s rest : Str} (hs : ∀ c ∈ s, c.isDigit = true) (hr : Ends rest) :
    (s ++ rest).takeWhile Char.isDigit = s ∧ (s ++ rest).dropWhile Char.isDigit = rest := by
  induction s with
  | nil =>
    cases rest with
    | nil => simp
    | cons c t =>
      have : c.isDigit = false := by rcases hr c rfl with rfl | rfl | rfl <;> decide
      simp [this]
  | cons c t ih =>
    obtain ⟨h1, h2⟩ := ih (fun c hc => hs c (List.mem_cons_of_mem _ hc))
    simp [hs c (by simp), h1, h2]

theorem showNat_head (n : Nat) (hn : 0 < n) : ∀ c t, showNat n = c :: t → c ≠ '0' := by
  induction n using Nat.strongRecOn with
  | ind n ih =>
    intro c t h
    by_cases h10 : n < 10
    · have : showNat n = [Nat.digitChar n] := Nat.toDigits_of_lt_base h10
      rw [this] at h
      simp only [List.cons.injEq] at h
      rw [← h.1]
      have : ∀ m < 10, 0 < m → Nat.digitChar m ≠ '0' := by decide
      exact this n h10 hn
    · have e : showNat n = showNat (n / 10) ++ [Nat.digitChar (n % 10)] :=
        Nat.toDigits_of_base_le (by omega) (by omega)
      cases h' : showNat (n / 10) with
      | nil => exact absurd h' (showNat_ne_nil _)
      | cons c' t' =>
        rw [e, h'] at h
        simp only [List.cons_append, List.cons.injEq] at h
        rw [← h.1]
        exact ih (n / 10) (by omega) (by omega) c' t' h'

theorem intPart_showNat (n : Nat) {rest : Str} (hr : Ends rest) :
    intPart (showNat n ++ rest) = some (showNat n, rest) := by
  by_cases h0 : n = 0
  · subst h0
    have : showNat 0 = ['0'] := rfl
    rw [this]
    have := (takeWhile_digits (s := []) (by simp) hr).1
    simp only [List.nil_append] at this
    simp [intPart, this]
  · cases h : showNat n with
    | nil => exact absurd h (showNat_ne_nil n)
    | cons c t =>
      have hc := showNat_head n (by omega) c t h
      have hd : ∀ x ∈ c :: t, x.isDigit = true := fun x hx => showNat_isDigit (n := n) (h ▸ hx)
      obtain ⟨h1, h2⟩ := takeWhile_digits (s := t) (fun x hx => hd x (List.mem_cons_of_mem _ hx)) hr
      simp only [intPart, List.cons_append, hc, if_false, hd c (by simp), if_true, h1, h2]

theorem fracPart_ends {rest : Str} (hr : Ends rest) : fracPart rest = some ([], rest) := by
  cases rest with
  | nil => rfl
  | cons c t => rcases hr c rfl with rfl | rfl | rfl <;> rfl

theorem expPart_ends {rest : Str} (hr : Ends rest) : expPart rest = some ([], rest) := by
  cases rest with
  | nil => rfl
  | cons c t => rcases hr c rfl with rfl | rfl | rfl <;> rfl

theorem parseNumber_showNat (finite : Str → Bool) {n : Nat} (hn : n ≤ u64Max) {rest : Str} (hr : Ends rest) :
    parseNumber finite false (showNat n ++ rest) = some (.nat n, rest) := by
  have e : Nat.ofDigitChars 10 (showNat n) 0 = n := Nat.ofDigitChars_ten_toDigits
  simp only [parseNumber, intPart_showNat n hr, fracPart_ends hr, expPart_ends hr, e, hn, and_self, if_true]

/-! ### Values -/

theorem skipWs_of {c : Char} (h : ¬(c = ' ' ∨ c = '\n' ∨ c = '\t' ∨ c = '\r')) (t : Str) :
    skipWs (c :: t) = c :: t := by
  rw [skipWs, if_neg h]

mutual
/-- what the contracts write: no numbers other than unsigned integers of 64 bits; nested less than `d` deep -/
def Json.Fits : Nat → Json → Prop
  | _, .null => True
  | _, .bool _ => True
  | _, .nat n => n ≤ u64Max
  | _, .number _ => False
  | _, .str _ => True
  | d, .arr l => 2 ≤ d ∧ Json.FitsAll (d - 1) l
  | d, .obj l => 2 ≤ d ∧ Json.FitsFields (d - 1) l
def Json.FitsAll : Nat → List Json → Prop
  | _, [] => True
  | d, j :: t => j.Fits d ∧ Json.FitsAll d t
def Json.FitsField : Nat → Str × Json → Prop
  | d, (_, v) => v.Fits d
def Json.FitsFields : Nat → List (Str × Json) → Prop
  | _, [] => True
  | d, p :: t => Json.FitsField d p ∧ Json.FitsFields d t
end

theorem render_head {d : Nat} {j : Json} (h : j.Fits d) : ∃ c t, j.render = c :: t ∧
    ¬(c = ' ' ∨ c = '\n' ∨ c = '\t' ∨ c = '\r') ∧ c ≠ ']' := by
  cases j with
  | null => exact ⟨'n', _, rfl, by decide, by decide⟩
  | bool b => cases b <;> exact ⟨_, _, rfl, by decide, by decide⟩
  | nat n =>
    cases h' : showNat n with
    | nil => exact absurd h' (showNat_ne_nil n)
    | cons c t =>
      have hd : c.isDigit = true := showNat_isDigit (n := n) (h' ▸ List.mem_cons_self ..)
      refine ⟨c, t, by simp only [Json.render, h'], ?_, ?_⟩
      · rintro (rfl | rfl | rfl | rfl) <;> simp at hd
      · rintro rfl; simp at hd
  | number t => exact absurd h (by simp [Json.Fits])
  | str s => exact ⟨'"', renderChars s, by simp only [Json.render, renderStr], by decide, by decide⟩
  | arr l =>
    cases l with
    | nil => exact ⟨'[', [']'], by simp only [Json.render], by decide, by decide⟩
    | cons a t => exact ⟨'[', a.render ++ Json.renderElems t, by simp only [Json.render], by decide, by decide⟩
  | obj l =>
    cases l with
    | nil => exact ⟨'{', ['}'], by simp only [Json.render], by decide, by decide⟩
    | cons a t =>
      exact ⟨'{', Json.renderField a ++ Json.renderFields t, by simp only [Json.render], by decide, by decide⟩

theorem ends_elems (t : List Json) (rest : Str) : Ends (Json.renderElems t ++ rest) := by
  cases t <;> intro c hc <;> simp only [Json.renderElems, List.cons_append, List.nil_append, List.head?_cons,
    Option.some.injEq] at hc <;> simp [← hc]

theorem ends_fields (t : List (Str × Json)) (rest : Str) : Ends (Json.renderFields t ++ rest) := by
  cases t <;> intro c hc <;> simp only [Json.renderFields, List.cons_append, List.nil_append, List.head?_cons,
    Option.some.injEq] at hc <;> simp [← hc]

theorem parseValue_nat (finite : Str → Bool) {m : Nat} (hm : m ≤ u64Max) (n d : Nat) {rest : Str} (hr : Ends rest) :
    parseValue finite (n + 1) d (showNat m ++ rest) = some (.nat m, rest) := by
  have key := parseNumber_showNat finite hm hr
  cases h' : showNat m with
  | nil => exact absurd h' (showNat_ne_nil m)
  | cons c t =>
    have hd : c.isDigit = true := showNat_isDigit (n := m) (h' ▸ List.mem_cons_self ..)
    have hne : ∀ x : Char, x.isDigit = false → c ≠ x := fun x hx he => by rw [he, hx] at hd; simp at hd
    rw [h'] at key
    rw [List.cons_append] at key ⊢
    rw [parseValue, skipWs_of (by
      rintro (rfl | rfl | rfl | rfl) <;> simp at hd)]
    simp only [hne 'n' (by decide), hne 't' (by decide), hne 'f' (by decide), hne '-' (by decide), hd, if_true, if_false]
    exact key

theorem parseValue_str (finite : Str → Bool) (s : Str) (n d : Nat) (rest : Str) :
    parseValue finite (n + 1) d (renderStr s ++ rest) = some (.str s, rest) := by
  have key := parseChars_render s ((renderChars s ++ rest).length + 1) (by
    have := renderChars_length s
    simp only [List.length_append]; omega) rest
  rw [renderStr, List.cons_append, parseValue, skipWs_of (by decide)]
  simp only [show ('"' : Char) ≠ 'n' by decide, show ('"' : Char) ≠ 't' by decide, show ('"' : Char) ≠ 'f' by decide,
    show ('"' : Char) ≠ '-' by decide, show ('"' : Char).isDigit = false by decide, if_false, if_true, key,
    Bool.false_eq_true]

mutual
theorem parse_render (finite : Str → Bool) : ∀ (j : Json) (d n : Nat) (rest : Str), j.Fits d → Ends rest →
    2 * j.render.length + 1 ≤ n → parseValue finite n d (j.render ++ rest) = some (j, rest)
  | .null, d, n, rest, hf, hr, hn => by
    cases n with
    | zero => omega
    | succ n => rfl
  | .bool b, d, n, rest, hf, hr, hn => by
    cases n with
    | zero => omega
    | succ n => cases b <;> rfl
  | .nat m, d, n, rest, hf, hr, hn => by
    cases n with
    | zero => omega
    | succ n =>
      simp only [Json.render]
      exact parseValue_nat finite (by simpa only [Json.Fits] using hf) n d hr
  | .number t, d, n, rest, hf, hr, hn => by exact absurd hf (by simp [Json.Fits])
  | .str s, d, n, rest, hf, hr, hn => by
    cases n with
    | zero => omega
    | succ n =>
      simp only [Json.render]
      exact parseValue_str finite s n d rest
  | .arr [], d, n, rest, hf, hr, hn => by
    cases n with
    | zero => omega
    | succ n =>
      simp only [Json.Fits] at hf
      have hd : ¬ d ≤ 1 := by omega
      simp only [Json.render, List.cons_append, List.nil_append]
      rw [parseValue, skipWs_of (by decide)]
      simp only [skipWs_of (c := ']') (by decide), show ('[' : Char) ≠ 'n' by decide, show ('[' : Char) ≠ 't' by decide, show ('[' : Char) ≠ 'f' by decide,
        show ('[' : Char) ≠ '-' by decide, show ('[' : Char).isDigit = false by decide, show ('[' : Char) ≠ '"' by decide,
        if_false, if_true, Bool.false_eq_true, hd]
  | .arr (j :: t), d, n, rest, hf, hr, hn => by
    cases n with
    | zero => omega
    | succ n =>
      simp only [Json.Fits, Json.FitsAll] at hf
      obtain ⟨hd, hj, ht⟩ := hf
      have hd : ¬ d ≤ 1 := by omega
      obtain ⟨c, u, hu, hc1, hc2⟩ := render_head hj
      have hlen : 2 * (j.render.length + (Json.renderElems t).length) + 2 ≤ n := by
        simp only [Json.render, List.length_cons, List.length_append] at hn
        omega
      have key := parse_elems finite t (d - 1) n rest ht j (fun n rest h1 h2 =>
        parse_render finite j (d - 1) n rest hj h1 h2) hlen
      simp only [Json.render, List.cons_append, List.append_assoc]
      rw [hu, List.cons_append] at key ⊢
      rw [parseValue, skipWs_of (by decide)]
      simp only [skipWs_of hc1, show ('[' : Char) ≠ 'n' by decide, show ('[' : Char) ≠ 't' by decide, show ('[' : Char) ≠ 'f' by decide,
        show ('[' : Char) ≠ '-' by decide, show ('[' : Char).isDigit = false by decide, show ('[' : Char) ≠ '"' by decide,
        if_false, if_true, Bool.false_eq_true, hd, hc2, key]
  | .obj [], d, n, rest, hf, hr, hn => by
    cases n with
    | zero => omega
    | succ n =>
      simp only [Json.Fits] at hf
      have hd : ¬ d ≤ 1 := by omega
      simp only [Json.render, List.cons_append, List.nil_append]
      rw [parseValue, skipWs_of (by decide)]
      simp only [skipWs_of (c := '}') (by decide), show ('{' : Char) ≠ 'n' by decide, show ('{' : Char) ≠ 't' by decide, show ('{' : Char) ≠ 'f' by decide,
        show ('{' : Char) ≠ '-' by decide, show ('{' : Char).isDigit = false by decide, show ('{' : Char) ≠ '"' by decide,
        show ('{' : Char) ≠ '[' by decide, if_false, if_true, Bool.false_eq_true, hd]
  | .obj (p :: t), d, n, rest, hf, hr, hn => by
    cases n with
    | zero => omega
    | succ n =>
      obtain ⟨k, v⟩ := p
      simp only [Json.Fits, Json.FitsFields] at hf
      obtain ⟨hd, hp, ht⟩ := hf
      have hd : ¬ d ≤ 1 := by omega
      have hlen : 2 * ((Json.renderField (k, v)).length + (Json.renderFields t).length) + 2 ≤ n := by
        simp only [Json.render, List.length_cons, List.length_append] at hn
        omega
      have key := parse_fields finite t (d - 1) n rest ht k v (parse_field finite (k, v) (d - 1) hp) hlen
      simp only [Json.render, List.cons_append, List.append_assoc]
      have hu : Json.renderField (k, v) = '"' :: (renderChars k ++ ':' :: v.render) := by
        simp only [Json.renderField, renderStr, List.cons_append]
      rw [hu, List.cons_append] at key ⊢
      rw [parseValue, skipWs_of (by decide)]
      simp only [skipWs_of (c := '"') (by decide), show ('{' : Char) ≠ 'n' by decide, show ('{' : Char) ≠ 't' by decide, show ('{' : Char) ≠ 'f' by decide,
        show ('{' : Char) ≠ '-' by decide, show ('{' : Char).isDigit = false by decide, show ('{' : Char) ≠ '"' by decide,
        show ('{' : Char) ≠ '[' by decide, show ('"' : Char) ≠ '}' by decide,
        if_false, if_true, Bool.false_eq_true, hd, key]
theorem parse_elems (finite : Str → Bool) : ∀ (t : List Json) (d n : Nat) (rest : Str), Json.FitsAll d t → ∀ j : Json,
    (∀ n rest, Ends rest → 2 * j.render.length + 1 ≤ n → parseValue finite n d (j.render ++ rest) = some (j, rest)) →
    2 * (j.render.length + (Json.renderElems t).length) + 2 ≤ n →
    parseElems finite n d (j.render ++ (Json.renderElems t ++ rest)) = some (j :: t, rest)
  | [], d, n, rest, hf, j, hj, hn => by
    cases n with
    | zero => omega
    | succ n =>
      rw [parseElems, hj n _ (ends_elems [] rest) (by omega)]
      simp only [Json.renderElems, List.cons_append, List.nil_append]
      rw [skipWs_of (by decide)]
      simp only [show (']' : Char) ≠ ',' by decide, if_false, if_true]
  | j' :: t, d, n, rest, hf, j, hj, hn => by
    cases n with
    | zero => omega
    | succ n =>
      simp only [Json.FitsAll] at hf
      have hlen : 2 * (j'.render.length + (Json.renderElems t).length) + 2 ≤ n := by
        simp only [Json.renderElems, List.length_cons, List.length_append] at hn
        omega
      have key := parse_elems finite t d n rest hf.2 j' (fun n rest h1 h2 =>
        parse_render finite j' d n rest hf.1 h1 h2) hlen
      rw [parseElems, hj n _ (ends_elems (j' :: t) rest) (by omega)]
      simp only [Json.renderElems, List.cons_append, List.append_assoc]
      rw [skipWs_of (by decide)]
      simp only [if_true, key]
theorem parse_field (finite : Str → Bool) : ∀ (p : Str × Json) (d : Nat), Json.FitsField d p → ∀ n rest, Ends rest →
    2 * p.2.render.length + 1 ≤ n → parseValue finite n d (p.2.render ++ rest) = some (p.2, rest)
  | (k, v), d, hf, n, rest, hr, hn => parse_render finite v d n rest (by simpa only [Json.FitsField] using hf) hr hn
theorem parse_fields (finite : Str → Bool) : ∀ (t : List (Str × Json)) (d n : Nat) (rest : Str), Json.FitsFields d t →
    ∀ (k : Str) (v : Json),
    (∀ n rest, Ends rest → 2 * v.render.length + 1 ≤ n → parseValue finite n d (v.render ++ rest) = some (v, rest)) →
    2 * ((Json.renderField (k, v)).length + (Json.renderFields t).length) + 2 ≤ n →
    parseFields finite n d (Json.renderField (k, v) ++ (Json.renderFields t ++ rest)) = some ((k, v) :: t, rest)
  | [], d, n, rest, hf, k, v, hv, hn => by
    cases n with
    | zero => omega
    | succ n =>
      have hlen : 2 * v.render.length + 1 ≤ n := by
        simp only [Json.renderField, List.length_cons, List.length_append] at hn
        omega
      have hk := parseChars_render k ((renderChars k ++ (':' :: (v.render ++ (Json.renderFields [] ++ rest)))).length + 1)
        (by have := renderChars_length k
            simp only [List.length_append]; omega) (':' :: (v.render ++ (Json.renderFields [] ++ rest)))
      simp only [Json.renderField, renderStr, List.cons_append, List.append_assoc]
      rw [parseFields, skipWs_of (by decide)]
      simp only [if_true, hk]
      rw [skipWs_of (by decide)]
      simp only [if_true, hv n _ (ends_fields [] rest) hlen]
      simp only [Json.renderFields, List.cons_append, List.nil_append]
      rw [skipWs_of (by decide)]
      simp only [show ('}' : Char) ≠ ',' by decide, if_false, if_true]
  | p :: t, d, n, rest, hf, k, v, hv, hn => by
    cases n with
    | zero => omega
    | succ n =>
      obtain ⟨k', v'⟩ := p
      simp only [Json.FitsFields] at hf
      have hlen : 2 * v.render.length + 1 ≤ n := by
        simp only [Json.renderField, List.length_cons, List.length_append] at hn
        omega
      have hlen' : 2 * ((Json.renderField (k', v')).length + (Json.renderFields t).length) + 2 ≤ n := by
        simp only [Json.renderFields, List.length_cons, List.length_append] at hn
        omega
      have key := parse_fields finite t d n rest hf.2 k' v' (parse_field finite (k', v') d hf.1) hlen'
      have hk := parseChars_render k
        ((renderChars k ++ (':' :: (v.render ++ (Json.renderFields ((k', v') :: t) ++ rest)))).length + 1)
        (by have := renderChars_length k
            simp only [List.length_append]; omega) (':' :: (v.render ++ (Json.renderFields ((k', v') :: t) ++ rest)))
      have e : Json.renderField (k, v) ++ (Json.renderFields ((k', v') :: t) ++ rest) =
          '"' :: (renderChars k ++ (':' :: (v.render ++ (Json.renderFields ((k', v') :: t) ++ rest)))) := by
        simp only [Json.renderField, renderStr, List.cons_append, List.append_assoc]
      rw [e, parseFields, skipWs_of (by decide)]
      simp only [if_true, hk]
      rw [skipWs_of (by decide)]
      simp only [if_true, hv n _ (ends_fields ((k', v') :: t) rest) hlen]
      simp only [Json.renderFields, List.cons_append, List.append_assoc]
      rw [skipWs_of (by decide)]
      simp only [if_true, key]
end

/-- what was written is read back -/
theorem fromStr_render (finite : Str → Bool) {j : Json} (h : j.Fits 128) : fromStr finite j.render = some j := by
  have key := parse_render finite j 128 (2 * j.render.length + 2) [] h (by intro c hc; simp at hc) (by omega)
  rw [List.append_nil] at key
  simp only [fromStr, key, skipWs, if_true]

end Amp.Wire
