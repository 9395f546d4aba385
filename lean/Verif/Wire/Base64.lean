import Verif.Base.Hex

/-!
# Base 64 and UTF-8 (`packages/events/src/event.rs:64-73`)

The node of the Axelar chain hands out keys and values of event attributes in base 64 (`encode64`, not part of
`/repo`).  The daemon decodes them with the `STANDARD` engine of the crate `base64`: padding is required, and
unused bits must be zero.
-/

namespace Amp.Wire

/-- a digit of the standard alphabet -/
def char64 (n : Nat) : Char :=
  if n < 26 then Char.ofNat (65 + n)
  else if n < 52 then Char.ofNat (71 + n)
  else if n < 62 then Char.ofNat (n - 4)
  else if n = 62 then '+'
  else '/'

/-- the value of a digit -/
def val64 (c : Char) : Option Nat :=
  if 'A' ≤ c ∧ c ≤ 'Z' then some (c.toNat - 65)
  else if 'a' ≤ c ∧ c ≤ 'z' then some (c.toNat - 71)
  else if '0' ≤ c ∧ c ≤ '9' then some (c.toNat + 4)
  else if c = '+' then some 62
  else if c = '/' then some 63
  else none

/-- bytes in base 64, as the node writes them -/
def encode64 : ByteList → Str
  | [] => []
  | [a] => [char64 (a / 4), char64 (a % 4 * 16), '=', '=']
  | [a, b] => [char64 (a / 4), char64 (a % 4 * 16 + b / 16), char64 (b % 16 * 4), '=']
  | a :: b :: c :: t =>
    char64 (a / 4) :: char64 (a % 4 * 16 + b / 16) :: char64 (b % 16 * 4 + c / 64) :: char64 (c % 64) :: encode64 t

/-- `STANDARD.decode` (`event.rs:72`) -/
def decode64 : Str → Option ByteList
  | [] => some []
  | a :: b :: c :: d :: t =>
    match val64 a, val64 b with
    | some w, some x =>
      if c = '=' ∧ d = '=' ∧ t = [] then (if x % 16 = 0 then some [w * 4 + x / 16] else none)
      else
        match val64 c with
        | none => none
        | some y =>
          if d = '=' ∧ t = [] then (if y % 4 = 0 then some [w * 4 + x / 16, x % 16 * 16 + y / 4] else none)
          else
            match val64 d, decode64 t with
            | some z, some r => some ((w * 4 + x / 16) :: (x % 16 * 16 + y / 4) :: (y % 4 * 64 + z) :: r)
            | _, _ => none
    | _, _ => none
  | _ => none

/-- `String::from_utf8` (`event.rs:72`) -/
def decodeUtf8 (bs : ByteList) : Option Str :=
  ((bs.map UInt8.ofNat).toByteArray.utf8Decode?).map Array.toList

theorem val64_char64 : ∀ n < 64, val64 (char64 n) = some n := by decide

theorem char64_ne : ∀ n < 64, char64 n ≠ '=' := by decide

theorem decode64_encode64 {b : ByteList} (h : IsBytes b) : decode64 (encode64 b) = some b := by
  induction b using encode64.induct with
  | case1 => rfl
  | case2 a =>
    have ha := h a (by simp)
    simp only [encode64, decode64, val64_char64 (a / 4) (by omega), val64_char64 (a % 4 * 16) (by omega), and_self,
      if_true]
    rw [if_pos (by omega)]
    simp only [Option.some.injEq, List.cons.injEq, and_true]
    omega
  | case3 a b =>
    have ha := h a (by simp)
    have hb := h b (by simp)
    simp only [encode64, decode64, val64_char64 (a / 4) (by omega), val64_char64 (a % 4 * 16 + b / 16) (by omega),
      val64_char64 (b % 16 * 4) (by omega), char64_ne (b % 16 * 4) (by omega), false_and, if_false, and_self, if_true]
    rw [if_pos (by omega)]
    simp only [Option.some.injEq, List.cons.injEq, and_true]
    omega
  | case4 a b c t ih =>
    have ha := h a (by simp)
    have hb := h b (by simp)
    have hc := h c (by simp)
    have ih := ih (fun x hx => h x (by simp [hx]))
    simp only [encode64, decode64, val64_char64 (a / 4) (by omega), val64_char64 (a % 4 * 16 + b / 16) (by omega),
      val64_char64 (b % 16 * 4 + c / 64) (by omega), char64_ne (b % 16 * 4 + c / 64) (by omega), false_and, if_false,
      char64_ne (c % 64) (by omega), val64_char64 (c % 64) (by omega), ih, Option.some.injEq, List.cons.injEq, and_true]
    omega

theorem decodeUtf8_utf8Bytes (s : Str) : decodeUtf8 (utf8Bytes s) = some s := by
  have e : (utf8Bytes s).map UInt8.ofNat = s.flatMap String.utf8EncodeChar := by
    unfold utf8Bytes
    rw [List.map_flatMap]
    congr 1
    funext c
    rw [List.map_map]
    conv => rhs; rw [← List.map_id (String.utf8EncodeChar c)]
    congr 1
    funext x
    simp
  have := @List.utf8Decode?_utf8Encode s
  unfold List.utf8Encode at this
  rw [decodeUtf8, e, this]
  simp

end Amp.Wire
