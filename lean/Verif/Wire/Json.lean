import Verif.Base.Hex

/-!
# JSON text (`serde_json` 1.0, used by `packages/events/src/event.rs:53-62` and the `to_string` calls of the contracts)

`serde_json` is not part of `/repo`.  What is modelled here is `serde_json::to_string` for the values the contracts
write (compact, no white space) and `serde_json::from_str::<Value>` for any text: white space, escapes with surrogate
pairs, the grammar of numbers, the recursion limit of 128 and the rejection of trailing characters.

Simplification: numbers other than unsigned 64-bit integers keep their text.  Whether such a number is a finite `f64`
(otherwise `from_str` fails) is a parameter.
-/

namespace Amp.Wire

/-- `serde_json::Value` -/
inductive Json
  | null
  | bool (b : Bool)
  | nat (n : Nat)
  | number (text : Str)
  | str (s : Str)
  | arr (l : List Json)
  | obj (l : List (Str × Json))

/-! ### Writing -/

/-- `serde_json::ser::ESCAPE` and `CharEscape`: one character of a string -/
def escapeChar (c : Char) : Str :=
  if c = '"' then ['\\', '"']
  else if c = '\\' then ['\\', '\\']
  else if c = '\x08' then ['\\', 'b']
  else if c = '\x0c' then ['\\', 'f']
  else if c = '\n' then ['\\', 'n']
  else if c = '\r' then ['\\', 'r']
  else if c = '\t' then ['\\', 't']
  else if c.toNat < 32 then ['\\', 'u', '0', '0', hexDigit (c.toNat / 16), hexDigit (c.toNat % 16)]
  else [c]

/-- the characters of a string and the closing quote -/
def renderChars (s : Str) : Str := s.flatMap escapeChar ++ ['"']

/-- `serde_json::to_string` of a string -/
def renderStr (s : Str) : Str := '"' :: renderChars s

mutual
/-- `serde_json::to_string` (`CompactFormatter`) -/
def Json.render : Json → Str
  | .null => "null".toList
  | .bool true => "true".toList
  | .bool false => "false".toList
  | .nat n => showNat n
  | .number t => t
  | .str s => renderStr s
  | .arr [] => ['[', ']']
  | .arr (j :: t) => '[' :: (j.render ++ Json.renderElems t)
  | .obj [] => ['{', '}']
  | .obj (p :: t) => '{' :: (Json.renderField p ++ Json.renderFields t)
/-- the elements of an array after the first, and the bracket -/
def Json.renderElems : List Json → Str
  | [] => [']']
  | j :: t => ',' :: (j.render ++ Json.renderElems t)
/-- one entry of an object -/
def Json.renderField : Str × Json → Str
  | (k, v) => renderStr k ++ ':' :: v.render
/-- the entries of an object after the first, and the bracket -/
def Json.renderFields : List (Str × Json) → Str
  | [] => ['}']
  | p :: t => ',' :: (Json.renderField p ++ Json.renderFields t)
end

/-! ### Reading -/

/-- `parse_whitespace` -/
def skipWs : Str → Str
  | [] => []
  | c :: t => if c = ' ' ∨ c = '\n' ∨ c = '\t' ∨ c = '\r' then skipWs t else c :: t

/-- `decode_hex_escape`: four hexadecimal digits -/
def hex4 : Str → Option (Nat × Str)
  | a :: b :: c :: d :: r =>
    match hexVal a, hexVal b, hexVal c, hexVal d with
    | some w, some x, some y, some z => some (((w * 16 + x) * 16 + y) * 16 + z, r)
    | _, _, _, _ => none
  | _ => none

/-- `parse_escape`, after `\u`: a code unit that is no surrogate, or a pair of surrogates -/
def unicodeEscape (t : Str) : Option (Char × Str) :=
  match hex4 t with
  | none => none
  | some (n, r) =>
    if 0xDC00 ≤ n ∧ n ≤ 0xDFFF then none
    else if 0xD800 ≤ n ∧ n ≤ 0xDBFF then
      match r with
      | a :: b :: r' =>
        if a = '\\' ∧ b = 'u' then
          match hex4 r' with
          | none => none
          | some (m, r'') =>
            if 0xDC00 ≤ m ∧ m ≤ 0xDFFF then
              some (Char.ofNat (0x10000 + (n - 0xD800) * 0x400 + (m - 0xDC00)), r'')
            else none
        else none
      | _ => none
    else some (Char.ofNat n, r)

/-- `parse_escape`, after the backslash -/
def escaped : Str → Option (Char × Str)
  | [] => none
  | c :: t =>
    if c = '"' then some ('"', t)
    else if c = '\\' then some ('\\', t)
    else if c = '/' then some ('/', t)
    else if c = 'b' then some ('\x08', t)
    else if c = 'f' then some ('\x0c', t)
    else if c = 'n' then some ('\n', t)
    else if c = 'r' then some ('\r', t)
    else if c = 't' then some ('\t', t)
    else if c = 'u' then unicodeEscape t
    else none

/-- `parse_str`, after the opening quote.  The first argument bounds the number of characters; it is the length of the
text, so that it is never reached before the end. -/
def parseChars : Nat → Str → Option (Str × Str)
  | 0, _ => none
  | _ + 1, [] => none
  | n + 1, c :: t =>
    if c = '"' then some ([], t)
    else if c = '\\' then
      match escaped t with
      | none => none
      | some (d, r) =>
        match parseChars n r with
        | none => none
        | some (s, r') => some (d :: s, r')
    else if c.toNat < 32 then none
    else
      match parseChars n t with
      | none => none
      | some (s, r') => some (c :: s, r')

/-- `parse_integer`: no leading zeros -/
def intPart : Str → Option (Str × Str)
  | [] => none
  | c :: t =>
    if c = '0' then (if (t.takeWhile Char.isDigit).isEmpty then some (['0'], t) else none)
    else if c.isDigit then some (c :: t.takeWhile Char.isDigit, t.dropWhile Char.isDigit)
    else none

/-- `parse_decimal`: nothing, or a point and at least one digit -/
def fracPart : Str → Option (Str × Str)
  | [] => some ([], [])
  | c :: t =>
    if c = '.' then
      (if (t.takeWhile Char.isDigit).isEmpty then none
       else some (c :: t.takeWhile Char.isDigit, t.dropWhile Char.isDigit))
    else some ([], c :: t)

/-- `parse_exponent`: nothing, or `e`, a sign or none, and at least one digit -/
def expPart : Str → Option (Str × Str)
  | [] => some ([], [])
  | c :: t =>
    if c = 'e' ∨ c = 'E' then
      let (sign, u) := match t with
        | s :: u => if s = '+' ∨ s = '-' then ([s], u) else ([], t)
        | [] => ([], [])
      if (u.takeWhile Char.isDigit).isEmpty then none
      else some (c :: (sign ++ u.takeWhile Char.isDigit), u.dropWhile Char.isDigit)
    else some ([], c :: t)

/-- `parse_any_number`: integers of 64 bits, or a floating point number, which must be finite -/
def parseNumber (finite : Str → Bool) (neg : Bool) (cs : Str) : Option (Json × Str) :=
  match intPart cs with
  | none => none
  | some (i, r) =>
    match fracPart r with
    | none => none
    | some (f, r) =>
      match expPart r with
      | none => none
      | some (e, r) =>
        let text := (if neg then ['-'] else []) ++ i ++ f ++ e
        if f = [] ∧ e = [] ∧ neg = false ∧ Nat.ofDigitChars 10 i 0 ≤ u64Max then some (.nat (Nat.ofDigitChars 10 i 0), r)
        else if f = [] ∧ e = [] ∧ neg = true ∧ Nat.ofDigitChars 10 i 0 ≤ 2 ^ 63 then some (.number text, r)
        else if finite text then some (.number text, r)
        else none

/-- `parse_ident`: the rest of a word -/
def ident (w : Str) (j : Json) (t : Str) : Option (Json × Str) :=
  if w.isPrefixOf t then some (j, t.drop w.length) else none

mutual
/-- `Deserializer::deserialize_any` for `Value`.  The first argument bounds the number of calls, the second is
`remaining_depth`. -/
def parseValue (finite : Str → Bool) : Nat → Nat → Str → Option (Json × Str)
  | 0, _, _ => none
  | n + 1, d, cs =>
    match skipWs cs with
    | [] => none
    | c :: t =>
      if c = 'n' then ident ['u', 'l', 'l'] .null t
      else if c = 't' then ident ['r', 'u', 'e'] (.bool true) t
      else if c = 'f' then ident ['a', 'l', 's', 'e'] (.bool false) t
      else if c = '-' then parseNumber finite true t
      else if c.isDigit then parseNumber finite false (c :: t)
      else if c = '"' then
        match parseChars (t.length + 1) t with
        | none => none
        | some (s, r) => some (.str s, r)
      else if c = '[' then
        if d ≤ 1 then none
        else
          match skipWs t with
          | [] => none
          | c' :: t' =>
            if c' = ']' then some (.arr [], t')
            else
              match parseElems finite n (d - 1) (c' :: t') with
              | none => none
              | some (l, r) => some (.arr l, r)
      else if c = '{' then
        if d ≤ 1 then none
        else
          match skipWs t with
          | [] => none
          | c' :: t' =>
            if c' = '}' then some (.obj [], t')
            else
              match parseFields finite n (d - 1) (c' :: t') with
              | none => none
              | some (l, r) => some (.obj l, r)
      else none
/-- `SeqAccess`: elements separated by commas up to the bracket -/
def parseElems (finite : Str → Bool) : Nat → Nat → Str → Option (List Json × Str)
  | 0, _, _ => none
  | n + 1, d, cs =>
    match parseValue finite n d cs with
    | none => none
    | some (j, r) =>
      match skipWs r with
      | [] => none
      | c :: t =>
        if c = ',' then
          match parseElems finite n d t with
          | none => none
          | some (l, r') => some (j :: l, r')
        else if c = ']' then some ([j], t)
        else none
/-- `MapAccess`: entries separated by commas up to the bracket -/
def parseFields (finite : Str → Bool) : Nat → Nat → Str → Option (List (Str × Json) × Str)
  | 0, _, _ => none
  | n + 1, d, cs =>
    match skipWs cs with
    | [] => none
    | q :: k =>
      if q = '"' then
        match parseChars (k.length + 1) k with
        | none => none
        | some (key, r) =>
          match skipWs r with
          | [] => none
          | c :: t =>
            if c = ':' then
              match parseValue finite n d t with
              | none => none
              | some (v, r) =>
                match skipWs r with
                | [] => none
                | c :: t =>
                  if c = ',' then
                    match parseFields finite n d t with
                    | none => none
                    | some (l, r') => some ((key, v) :: l, r')
                  else if c = '}' then some ([(key, v)], t)
                  else none
            else none
      else none
end

/-- `serde_json::from_str::<Value>`: one value and nothing after it -/
def fromStr (finite : Str → Bool) (s : Str) : Option Json :=
  match parseValue finite (2 * s.length + 2) 128 s with
  | none => none
  | some (j, r) => if skipWs r = [] then some j else none

end Amp.Wire
