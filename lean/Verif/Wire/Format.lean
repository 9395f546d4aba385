import Verif.Wire.Events

/-!
# C94: the format of hashes and addresses of EVM chains
-/

namespace Amp.Wire

open Amp.Encoding (Bytes)

theorem ascii_hex : ∀ m < 128, ∀ n < 16,
    (hexVal (Char.ofNat m) = some n ↔ (Char.ofNat m).toLower = hexDigit n) := by decide +kernel

theorem hexDigit_ascii : ∀ n < 16, (hexDigit n).toNat < 128 := by decide

theorem hexVal_iff (c : Char) (n : Nat) : hexVal c = some n ↔ n < 16 ∧ c.toLower = hexDigit n := by
  by_cases hc : c.toNat < 128
  · have e : Char.ofNat c.toNat = c := Char.ofNat_toNat c
    constructor
    · intro h
      have hn := hexVal_lt h
      have := ascii_hex c.toNat hc n hn
      rw [e] at this
      exact ⟨hn, this.mp h⟩
    · rintro ⟨hn, h⟩
      have := ascii_hex c.toNat hc n hn
      rw [e] at this
      exact this.mpr h
  · constructor
    · intro h
      unfold hexVal at h
      have h9 : '9'.toNat = 57 := rfl
      have hf : 'f'.toNat = 102 := rfl
      have hF : 'F'.toNat = 70 := rfl
      split at h
      · rename_i hx; have : c.toNat ≤ '9'.toNat := hx.2; omega
      · split at h
        · rename_i hx; have : c.toNat ≤ 'f'.toNat := hx.2; omega
        · split at h
          · rename_i hx; have : c.toNat ≤ 'F'.toNat := hx.2; omega
          · simp at h
    · rintro ⟨hn, h⟩
      have : c.toLower = c := by
        unfold Char.toLower
        rw [dif_neg]
        rintro ⟨_, hx⟩
        have : c.toNat ≤ 'Z'.toNat := hx
        have hZ : 'Z'.toNat = 90 := rfl
        omega
      rw [this] at h
      have := hexDigit_ascii n hn
      rw [← h] at this
      exact absurd this hc

theorem decodeHex_iff (s : Str) (b : Bytes) :
    decodeHex s = some b ↔ IsBytes b ∧ s.map Char.toLower = encodeHex b := by
  induction s using decodeHex.induct generalizing b with
  | case1 =>
    cases b with
    | nil => simp [decodeHex, encodeHex, IsBytes]
    | cons x t => simp [decodeHex, encodeHex]
  | case2 c =>
    cases b with
    | nil => simp [decodeHex, encodeHex]
    | cons x t => simp [decodeHex, encodeHex]
  | case3 a c t x y r h3 h2 h1 ih =>
    simp only [decodeHex, h1, h2, h3, Option.some.injEq]
    have i1 := (hexVal_iff a x).mp h1
    have i2 := (hexVal_iff c y).mp h2
    have i3 := (ih r).mp h3
    constructor
    · rintro rfl
      refine ⟨?_, ?_⟩
      · intro z hz
        rcases List.mem_cons.mp hz with rfl | hz
        · omega
        · exact i3.1 z hz
      · have e1 : (16 * x + y) / 16 = x := by omega
        have e2 : (16 * x + y) % 16 = y := by omega
        simp only [List.map_cons, encodeHex, i1.2, i2.2, i3.2, e1, e2]
    · rintro ⟨hb, he⟩
      cases b with
      | nil => simp [encodeHex] at he
      | cons z u =>
        have hz := hb z (by simp)
        simp only [List.map_cons, encodeHex, List.cons.injEq] at he
        have j1 := (hexVal_iff a (z / 16)).mpr ⟨by omega, he.1⟩
        have j2 := (hexVal_iff c (z % 16)).mpr ⟨by omega, he.2.1⟩
        rw [h1] at j1
        rw [h2] at j2
        simp only [Option.some.injEq] at j1 j2
        have j3 := (ih u).mpr ⟨fun w hw => hb w (by simp [hw]), he.2.2⟩
        rw [h3] at j3
        simp only [Option.some.injEq] at j3
        rw [j3]
        simp only [List.cons.injEq, and_true]
        omega
  | case4 a c t hne ih =>
    have hn : decodeHex (a :: c :: t) = none := by
      unfold decodeHex
      split
      · rename_i x y r h1 h2 h3
        exact absurd h3 (hne x y r h1 h2)
      · rfl
    rw [hn]
    simp only [reduceCtorEq, false_iff]
    rintro ⟨hb, he⟩
    cases b with
    | nil => simp [encodeHex] at he
    | cons z u =>
      have hz := hb z (by simp)
      simp only [List.map_cons, encodeHex, List.cons.injEq] at he
      have j1 := (hexVal_iff a (z / 16)).mpr ⟨by omega, he.1⟩
      have j2 := (hexVal_iff c (z % 16)).mpr ⟨by omega, he.2.1⟩
      have j3 := (ih u).mpr ⟨fun w hw => hb w (by simp [hw]), he.2.2⟩
      exact hne _ _ _ j1 j2 j3

theorem strip0x_prefixed (d : Str) : strip0x ("0x".toList ++ d) = d := rfl

theorem strip0x_of {s : Str} (h : 'x' ∉ s) : strip0x s = s := by
  unfold strip0x
  split
  · rename_i a b t
    rw [if_neg]
    rintro ⟨_, rfl⟩
    exact h (by simp)
  · rfl

theorem strip0x_cases (s : Str) : s = strip0x s ∨ s = "0x".toList ++ strip0x s := by
  unfold strip0x
  split
  · split
    · rename_i h
      right
      rw [h.1, h.2]
      rfl
    · exact Or.inl rfl
  · exact Or.inl rfl

/-- Hashes and addresses of EVM chains: the number of bytes that is expected, each written as two hexadecimal digits of
either case, with or without `0x` before them. -/
theorem C94_format (n : Nat) (s : Str) (b : Bytes) :
    fixedHex n s = some b ↔
      b.length = n ∧ IsBytes b ∧ ∃ d, (s = d ∨ s = "0x".toList ++ d) ∧ d.map Char.toLower = encodeHex b := by
  have key : fixedHex n s = some b ↔ b.length = n ∧ decodeHex (strip0x s) = some b := by
    unfold fixedHex
    cases h : decodeHex (strip0x s) with
    | none => simp
    | some c =>
      simp only [Option.some.injEq]
      constructor
      · intro h'
        split at h'
        · rename_i hc
          simp only [Option.some.injEq] at h'
          subst h'
          exact ⟨hc, rfl⟩
        · simp at h'
      · rintro ⟨hl, rfl⟩
        rw [if_pos hl]
  rw [key, decodeHex_iff]
  constructor
  · rintro ⟨h1, h2, h3⟩
    exact ⟨h1, h2, strip0x s, strip0x_cases s, h3⟩
  · rintro ⟨h1, h2, d, hd, h3⟩
    refine ⟨h1, h2, ?_⟩
    rcases hd with rfl | rfl
    · rw [strip0x_of, h3]
      intro hx
      have : 'x' ∈ s.map Char.toLower := List.mem_map.mpr ⟨'x', hx, rfl⟩
      rw [h3] at this
      exact (encodeHex_notMem h2).2 this
    · rw [strip0x_prefixed, h3]

example : fixedHex 2 "0xAb01".toList = some [0xab, 1] ∧ fixedHex 2 "ab01".toList = some [0xab, 1] ∧
    fixedHex 3 "ab01".toList = none ∧ fixedHex 2 "0x0xab01".toList = none := by decide

end Amp.Wire
