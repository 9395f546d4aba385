import Verif.Base.Strings

/-! # Hexadecimal text (`hex` crate) and byte strings -/

namespace Amp

/-- bytes, as numbers below 256 -/
abbrev ByteList := List Nat

/-- all entries are bytes -/
def IsBytes (b : ByteList) : Prop := ∀ x ∈ b, x < 256

/-- one lower-case hexadecimal digit (`hex::ToHex`) -/
def hexDigit (n : Nat) : Char :=
  if n < 10 then Char.ofNat (48 + n) else Char.ofNat (87 + n)

/-- `hex::encode`: two lower-case digits per byte -/
def encodeHex : ByteList → Str
  | [] => []
  | b :: t => hexDigit (b / 16) :: hexDigit (b % 16) :: encodeHex t

/-- value of a hexadecimal digit of either case -/
def hexVal (c : Char) : Option Nat :=
  if '0' ≤ c ∧ c ≤ '9' then some (c.toNat - 48)
  else if 'a' ≤ c ∧ c ≤ 'f' then some (c.toNat - 87)
  else if 'A' ≤ c ∧ c ≤ 'F' then some (c.toNat - 55)
  else none

/-- `hex::decode`: an even number of digits of either case -/
def decodeHex : Str → Option ByteList
  | [] => some []
  | [_] => none
  | a :: b :: t =>
    match hexVal a, hexVal b, decodeHex t with
    | some x, some y, some r => some ((16 * x + y) :: r)
    | _, _, _ => none

/-- UTF-8 bytes of a string -/
def utf8Bytes (s : Str) : ByteList := s.flatMap (fun c => (String.utf8EncodeChar c).map UInt8.toNat)

theorem hexVal_hexDigit : ∀ n < 16, hexVal (hexDigit n) = some n := by decide

theorem decodeHex_encodeHex {b : ByteList} (h : IsBytes b) : decodeHex (encodeHex b) = some b := by
  induction b with
  | nil => rfl
  | cons x t ih =>
    have hx := h x (by simp)
    simp only [encodeHex, decodeHex, hexVal_hexDigit (x / 16) (by omega),
      hexVal_hexDigit (x % 16) (by omega), ih (fun y hy => h y (by simp [hy])), Option.some.injEq,
      List.cons.injEq, and_true]
    omega

theorem hexDigit_ne : ∀ n < 16, hexDigit n ≠ ':' ∧ hexDigit n ≠ 'x' := by decide

theorem encodeHex_notMem {b : ByteList} (h : IsBytes b) :
    ':' ∉ encodeHex b ∧ 'x' ∉ encodeHex b := by
  induction b with
  | nil => simp [encodeHex]
  | cons x t ih =>
    have hx := h x (by simp)
    obtain ⟨i1, i2⟩ := ih (fun y hy => h y (by simp [hy]))
    obtain ⟨a1, a2⟩ := hexDigit_ne (x / 16) (by omega)
    obtain ⟨b1, b2⟩ := hexDigit_ne (x % 16) (by omega)
    simp only [encodeHex, List.mem_cons, not_or]
    exact ⟨⟨Ne.symm a1, Ne.symm b1, i1⟩, ⟨Ne.symm a2, Ne.symm b2, i2⟩⟩

theorem encodeHex_inj {a b : ByteList} (ha : IsBytes a) (hb : IsBytes b)
    (h : encodeHex a = encodeHex b) : a = b := by
  have h1 := decodeHex_encodeHex ha
  rw [h, decodeHex_encodeHex hb] at h1
  exact (Option.some.inj h1).symm

theorem hexVal_lt {c : Char} {n : Nat} (h : hexVal c = some n) : n < 16 := by
  unfold hexVal at h
  split at h
  · rename_i hc
    have h2 : c.toNat ≤ '9'.toNat := hc.2
    have : '9'.toNat = 57 := rfl
    simp only [Option.some.injEq] at h
    omega
  · split at h
    · rename_i hc
      have h2 : c.toNat ≤ 'f'.toNat := hc.2
      have : 'f'.toNat = 102 := rfl
      simp only [Option.some.injEq] at h
      omega
    · split at h
      · rename_i hc
        have h2 : c.toNat ≤ 'F'.toNat := hc.2
        have : 'F'.toNat = 70 := rfl
        simp only [Option.some.injEq] at h
        omega
      · simp at h

theorem decodeHex_isBytes {s : Str} {b : ByteList} (h : decodeHex s = some b) : IsBytes b := by
  induction s using decodeHex.induct generalizing b with
  | case1 => simp only [decodeHex, Option.some.injEq] at h; subst h; intro x hx; simp at hx
  | case2 c => simp [decodeHex] at h
  | case3 a c t r x y h3 h1 h2 ih =>
    simp only [decodeHex, h1, h2, h3, Option.some.injEq] at h
    subst h
    intro z hz
    rcases List.mem_cons.mp hz with rfl | hz
    · have := hexVal_lt h1; have := hexVal_lt h2; omega
    · exact ih h3 z hz
  | case4 a c t hne ih =>
    unfold decodeHex at h
    split at h
    · rename_i x y r h1 h2 h3
      exact absurd h3 (hne x y r h1 h2)
    · simp at h

theorem utf8Bytes_isBytes (s : Str) : IsBytes (utf8Bytes s) := by
  intro b hb
  obtain ⟨c, _, hb⟩ := List.mem_flatMap.mp hb
  obtain ⟨x, _, rfl⟩ := List.mem_map.mp hb
  exact x.toNat_lt

theorem utf8Bytes_ne_nil (c : Char) (t : Str) : utf8Bytes (c :: t) ≠ [] := by
  intro h
  simp only [utf8Bytes, List.flatMap_cons, List.append_eq_nil_iff, List.map_eq_nil_iff] at h
  have : (String.utf8EncodeChar c).length = 0 := by rw [h.1]; rfl
  rw [String.length_utf8EncodeChar] at this
  have := Char.utf8Size_pos c
  omega

end Amp
