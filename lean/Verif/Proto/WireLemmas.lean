import Verif.Proto.Wire

/-!
# Protobuf: what was written is read
-/

namespace Amp.Proto

open Amp.Wire (decodeUtf8 decodeUtf8_utf8Bytes)

theorem readGroups_groups : ∀ (k n : Nat) (r : ByteList), n < 128 ^ (k + 1) →
    readGroups (k + 1) (groups k n ++ r) = some (n, r) := by
  intro k
  induction k with
  | zero =>
    intro n r h
    have hn : n < 128 := by omega
    simp [groups, readGroups, hn]
  | succ k ih =>
    intro n r h
    rw [groups]
    by_cases hn : n < 128
    · rw [if_pos hn]
      simp [readGroups, hn]
    · rw [if_neg hn, List.cons_append, readGroups, if_neg (by omega), ih (n / 128) r (by
        rw [Nat.pow_succ] at h
        exact Nat.div_lt_of_lt_mul (by omega))]
      simp only [Option.some.injEq, Prod.mk.injEq, and_true]
      omega

theorem readVarint_varint {n : Nat} (h : n ≤ u64Max) (r : ByteList) : readVarint (varint n ++ r) = some (n, r) := by
  rw [readVarint, varint, readGroups_groups 9 n r (Nat.lt_of_le_of_lt h (by decide))]
  simp only [h, if_true]

/-- fields that can be written -/
def Writable : Nat × Field → Prop
  | (tag, .varint n) => 0 < tag ∧ tag ≤ 536870911 ∧ n ≤ u64Max
  | (tag, .fixed64 b) => 0 < tag ∧ tag ≤ 536870911 ∧ b.length = 8
  | (tag, .bytes b) => 0 < tag ∧ tag ≤ 536870911 ∧ b.length ≤ u64Max
  | (tag, .fixed32 b) => 0 < tag ∧ tag ≤ 536870911 ∧ b.length = 4

theorem takeBytes_append {n : Nat} {b : ByteList} (h : b.length = n) (r : ByteList) : takeBytes n (b ++ r) = some (b, r) := by
  subst h
  rw [takeBytes, if_pos (by simp)]
  simp

theorem u32_u64 {key : Nat} (h : key ≤ 4294967295) : key ≤ u64Max := by unfold u64Max; omega

theorem readField_writeField {f : Nat × Field} (h : Writable f) (r : ByteList) : readField (writeField f ++ r) = some (f, r) := by
  obtain ⟨tag, c⟩ := f
  cases c with
  | varint n =>
    obtain ⟨h0, h1, h2⟩ := h
    rw [writeField, List.append_assoc, readField, readVarint_varint (u32_u64 (by omega))]
    simp only
    rw [if_neg (by omega), show tag * 8 % 8 = 0 by omega, show tag * 8 / 8 = tag by omega]
    simp only [readVarint_varint h2, Option.map_some]
  | fixed64 b =>
    obtain ⟨h0, h1, h2⟩ := h
    rw [writeField, List.append_assoc, readField, readVarint_varint (u32_u64 (by omega))]
    simp only
    rw [if_neg (by omega), show (tag * 8 + 1) % 8 = 1 by omega, show (tag * 8 + 1) / 8 = tag by omega]
    simp only [takeBytes_append h2, Option.map_some]
  | bytes b =>
    obtain ⟨h0, h1, h2⟩ := h
    rw [writeField, List.append_assoc, List.append_assoc, readField, readVarint_varint (u32_u64 (by omega))]
    simp only
    rw [if_neg (by omega), show (tag * 8 + 2) % 8 = 2 by omega, show (tag * 8 + 2) / 8 = tag by omega]
    simp only [readVarint_varint h2, takeBytes_append rfl, Option.map_some]
  | fixed32 b =>
    obtain ⟨h0, h1, h2⟩ := h
    rw [writeField, List.append_assoc, readField, readVarint_varint (u32_u64 (by omega))]
    simp only
    rw [if_neg (by omega), show (tag * 8 + 5) % 8 = 5 by omega, show (tag * 8 + 5) / 8 = tag by omega]
    simp only [takeBytes_append h2, Option.map_some]

theorem varint_ne (n : Nat) : varint n ≠ [] := by
  rw [varint, groups]
  split <;> simp

theorem writeField_ne (f : Nat × Field) : writeField f ≠ [] := by
  obtain ⟨tag, c⟩ := f
  cases c <;> simp [writeField, varint_ne]

theorem readFields_write : ∀ (l : List (Nat × Field)) (k : Nat), l.length ≤ k → (∀ f ∈ l, Writable f) →
    readFields k (write l) = some l := by
  intro l
  induction l with
  | nil => intro k _ _; cases k <;> rfl
  | cons f t ih =>
    intro k hk h
    obtain ⟨k, rfl⟩ : ∃ j, k = j + 1 := ⟨k - 1, by simp only [List.length_cons] at hk; omega⟩
    have hr := readField_writeField (h f (by simp)) (write t)
    have e : write (f :: t) = writeField f ++ write t := rfl
    rw [e]
    cases hw : writeField f ++ write t with
    | nil => exact absurd (List.append_eq_nil_iff.mp hw).1 (writeField_ne f)
    | cons b r =>
      rw [hw] at hr
      rw [readFields, hr]
      simp only
      rw [ih k (by simp only [List.length_cons] at hk; omega) (fun g hg => h g (List.mem_cons_of_mem _ hg))]
      rfl

theorem length_write (l : List (Nat × Field)) : l.length ≤ (write l).length := by
  induction l with
  | nil => simp
  | cons f t ih =>
    have e : write (f :: t) = writeField f ++ write t := rfl
    have := List.length_pos_iff.mpr (writeField_ne f)
    rw [e, List.length_append, List.length_cons]
    omega

/-- what was written is read -/
theorem fields_write {l : List (Nat × Field)} (h : ∀ f ∈ l, Writable f) : fields (write l) = some l :=
  readFields_write l _ (length_write l) h

/-- so different fields have different bytes -/
theorem write_inj {l l' : List (Nat × Field)} (h : ∀ f ∈ l, Writable f) (h' : ∀ f ∈ l', Writable f) (e : write l = write l') :
    l = l' := by
  have := fields_write h
  rw [e, fields_write h'] at this
  exact (Option.some.inj this).symm

/-! ### Fields -/

theorem allWith_append (tag : Nat) (a b : List (Nat × Field)) : allWith tag (a ++ b) = allWith tag a ++ allWith tag b := by
  simp [allWith]

theorem allWith_str_self (tag : Nat) (s : Str) : allWith tag (str tag s) = if s = [] then [] else [.bytes (utf8Bytes s)] := by
  unfold str
  split <;> simp [allWith]

theorem allWith_str {tag tag' : Nat} (h : tag ≠ tag') (s : Str) : allWith tag (str tag' s) = [] := by
  unfold str
  split <;> simp [allWith, Ne.symm h]

theorem allWith_raw_self (tag : Nat) (b : ByteList) : allWith tag (raw tag b) = if b = [] then [] else [.bytes b] := by
  unfold raw
  split <;> simp [allWith]

theorem allWith_raw {tag tag' : Nat} (h : tag ≠ tag') (b : ByteList) : allWith tag (raw tag' b) = [] := by
  unfold raw
  split <;> simp [allWith, Ne.symm h]

theorem allWith_num_self (tag : Nat) (n : Nat) : allWith tag (num tag n) = if n = 0 then [] else [.varint n] := by
  unfold num
  split <;> simp [allWith]

theorem allWith_num {tag tag' : Nat} (h : tag ≠ tag') (n : Nat) : allWith tag (num tag' n) = [] := by
  unfold num
  split <;> simp [allWith, Ne.symm h]

theorem allWith_many_self (tag : Nat) (l : List ByteList) : allWith tag (many tag l) = l.map .bytes := by
  unfold many allWith
  induction l with
  | nil => rfl
  | cons a t ih => simpa using ih

theorem allWith_many {tag tag' : Nat} (h : tag ≠ tag') (l : List ByteList) : allWith tag (many tag' l) = [] := by
  unfold many allWith
  induction l with
  | nil => rfl
  | cons a t ih => simpa [Ne.symm h] using ih

theorem asBytes_map (l : List ByteList) : asBytes (l.map .bytes) = some l := by
  induction l with
  | nil => rfl
  | cons a t ih => simp [asBytes, ih]

theorem utf8_nil {s : Str} : utf8Bytes s = [] ↔ s = [] := by
  constructor
  · intro h
    have := decodeUtf8_utf8Bytes s
    rw [h, show decodeUtf8 [] = some [] from by decide] at this
    exact (Option.some.inj this).symm
  · rintro rfl; rfl

theorem getStr_self {tag : Nat} {fs : List (Nat × Field)} {s : Str}
    (h : allWith tag fs = if s = [] then [] else [.bytes (utf8Bytes s)]) : getStr tag fs = some s := by
  rw [getStr, getMany, h]
  by_cases hs : s = []
  · subst hs; rfl
  · rw [if_neg hs]
    simp [asBytes, allTexts, decodeUtf8_utf8Bytes]

theorem getRaw_self {tag : Nat} {fs : List (Nat × Field)} {b : ByteList}
    (h : allWith tag fs = if b = [] then [] else [.bytes b]) : getRaw tag fs = some b := by
  rw [getRaw, getMany, h]
  by_cases hs : b = []
  · subst hs; rfl
  · rw [if_neg hs]
    simp [asBytes]

theorem getNum_self {tag : Nat} {fs : List (Nat × Field)} {n : Nat}
    (h : allWith tag fs = if n = 0 then [] else [.varint n]) : getNum tag fs = some n := by
  rw [getNum, h]
  by_cases hs : n = 0
  · subst hs; rfl
  · rw [if_neg hs]
    simp [asNums]

theorem getMany_self {tag : Nat} {fs : List (Nat × Field)} {l : List ByteList} (h : allWith tag fs = l.map .bytes) :
    getMany tag fs = some l := by
  rw [getMany, h, asBytes_map]

theorem getMsg_self {tag : Nat} {fs m : List (Nat × Field)} (h : allWith tag fs = [.bytes (write m)])
    (hm : ∀ f ∈ m, Writable f) : getMsg tag fs = some (some m) := by
  have hg : getMany tag fs = some [write m] := getMany_self (l := [write m]) h
  rw [getMsg, hg]
  simp [fieldsOf, fields_write hm]

end Amp.Proto
